import Verif.Lemmas.AheadLoop
import Verif.Lemmas.PgAhead
import Verif.Lemmas.CrdbAhead
import Verif.Lemmas.MyAhead
import Verif.Lemmas.SpAhead
import Verif.Lemmas.PgSat
import Verif.Lemmas.CrdbSat
import Verif.Lemmas.MySat
import Verif.Lemmas.SpSat

/-! # Reading texts joined by semicolons, for each dialect -/

namespace Ddl
open Spec
set_option autoImplicit false

theorem sat_suffix {S : Type} {create : List Token → Res (S × List Token)}
    (h : ∀ ts, Sat True (fun r => r.2 <:+ ts.tail) (create ts)) (t : List Token) (s : S) (r : List Token)
    (e : create t = .ok (s, r)) : r <:+ t := by
  have := h t
  rw [e] at this
  exact List.IsSuffix.trans this (List.tail_suffix t)

theorem sat_fuel {α : Type} {Q : α → Prop} {r : Res α} (h : Sat True Q r) : r ≠ .outOfFuel := by
  rintro rfl
  exact h

theorem anyEnv (heads : List TokType) (dt : TokType → Bool) (ts : List Token) : Env heads dt True ts :=
  ⟨fun _ => trivial, fun _ _ _ _ => trivial⟩

theorem Pg.parse_follow {a b : Str} {ts : List Token} {A : List PStmt} (hw : Writes .postgres false a ts) (h0 : ∀ c ∈ a, c ≠ nul)
    (ha : Pg.parse a = .ok A) (hb : ∀ p, Pg.parse b ≠ .panic p) : Adds A (Pg.parse b) (Pg.parse (a ++ s%";" ++ b)) :=
  parse_ahead (fun _ hu _ => Pg.parseCreate_ahead hu) (sat_suffix fun ts => (Pg.parseCreate_sat (anyEnv [.DEFAULT] _ ts) (by simp) (List.suffix_refl _)).imp (fun _ h => h.1))
    (fun ts => sat_fuel (Pg.parseTokens_sat (anyEnv _ _ ts))) hw (writes_no_eof hw h0) ha hb

theorem Crdb.parse_follow {a b : Str} {ts : List Token} {A : List CStmt} (hw : Writes .cockroachdb false a ts) (h0 : ∀ c ∈ a, c ≠ nul)
    (ha : Crdb.parse a = .ok A) (hb : ∀ p, Crdb.parse b ≠ .panic p) : Adds A (Crdb.parse b) (Crdb.parse (a ++ s%";" ++ b)) :=
  parse_ahead (fun _ hu _ => Crdb.parseCreate_ahead hu)
    (sat_suffix fun ts => (Crdb.parseCreate_sat (anyEnv [.DEFAULT, .AS, .STORED, .VIRTUAL] _ ts) (by simp) (List.suffix_refl _)).imp (fun _ h => h.1))
    (fun ts => sat_fuel (Crdb.parseTokens_sat (anyEnv _ _ ts))) hw (writes_no_eof hw h0) ha hb

theorem My.parse_follow {a b : Str} {ts : List Token} {A : List MStmt} (hw : Writes .mysql false a ts) (h0 : ∀ c ∈ a, c ≠ nul)
    (ha : My.parse a = .ok A) (hb : ∀ p, My.parse b ≠ .panic p) : Adds A (My.parse b) (My.parse (a ++ s%";" ++ b)) :=
  parse_ahead (fun _ hu _ => My.parseCreate_ahead hu)
    (sat_suffix fun ts => (My.parseCreate_sat (anyEnv [] (fun _ => false) ts) (List.suffix_refl _)).imp (fun _ h => h.1))
    (fun ts => sat_fuel (My.parseTokens_sat (anyEnv [] (fun _ => false) ts))) hw (writes_no_eof hw h0) ha hb

theorem Sp.parse_follow {a b : Str} {ts : List Token} {A : List SStmt} (hw : Writes .spanner false a ts) (h0 : ∀ c ∈ a, c ≠ nul)
    (ha : Sp.parse a = .ok A) (hb : ∀ p, Sp.parse b ≠ .panic p) : Adds A (Sp.parse b) (Sp.parse (a ++ s%";" ++ b)) :=
  parse_ahead (fun _ hu _ => Sp.parseCreate_ahead hu)
    (sat_suffix fun ts => (Sp.parseCreate_sat (anyEnv _ _ ts) (List.suffix_refl _)).imp (fun _ h => h.1))
    (fun ts => sat_fuel (Sp.parseTokens_sat (anyEnv _ _ ts))) hw (writes_no_eof hw h0) ha hb

/-- From two texts to any number. -/
theorem parse_all {S : Type} {d : Dialect} {parse : Str → Res (List S)} (hnil : parse [] = .ok [])
    (h2 : ∀ {a b : Str} {ts : List Token} {A : List S}, Writes d false a ts → (∀ c ∈ a, c ≠ nul) → parse a = .ok A →
      (∀ p, parse b ≠ .panic p) → Adds A (parse b) (parse (a ++ s%";" ++ b))) {l : List (Str × List S)}
    (h : ∀ x ∈ l, (∃ ts, Writes d false x.1 ts) ∧ (∀ c ∈ x.1, c ≠ nul) ∧ parse x.1 = .ok x.2) :
    parse (l.flatMap (fun x => x.1 ++ s%";")) = .ok (l.flatMap (·.2)) := by
  induction l with
  | nil => exact hnil
  | cons x l ih =>
    have ih := ih (fun y hy => h y (List.mem_cons_of_mem _ hy))
    obtain ⟨⟨ts, hw⟩, h0, hx⟩ := h x List.mem_cons_self
    have := h2 hw h0 hx (b := l.flatMap (fun x => x.1 ++ s%";")) (by rw [ih]; intro p e; cases e)
    rw [ih] at this
    rw [List.flatMap_cons, List.flatMap_cons]
    cases e : parse (x.1 ++ s%";" ++ l.flatMap (fun x => x.1 ++ s%";")) with
    | ok B => rw [e] at this; cases this; rfl
    | err _ => rw [e] at this; cases this
    | panic _ => rw [e] at this; cases this
    | outOfFuel => rw [e] at this; cases this

end Ddl
