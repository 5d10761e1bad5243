import Verif.Lemmas.ShowRun
import Verif.Lemmas.Unqualified
import Verif.Lemmas.CrdbTable
import Verif.Lemmas.DbFails
import Verif.Lemmas.Comment
import Verif.Spec.SchemaCrdb

/-! # Databases as sources of `apply` -/

namespace Ddl
open Spec Cmd
set_option autoImplicit false

theorem resolve_shown {w : World} {lang d arg text : Str} (h : ShownAs w d arg (.ok text)) : resolve w lang d arg = .ok text := by
  unfold resolve
  rw [h.notFile, h.notPath]
  simp only [Bool.false_eq_true, if_false]
  obtain ⟨driver, h1, h2⟩ := h.opened
  exact showDb_ok.2 ⟨driver, h1, h2, h.shown, h.closed⟩

theorem splitC_pair {x y : Str} (hx : '.' ∉ x) (hy : '.' ∉ y) : splitC '.' (x ++ s%"." ++ y) = [x, y] := by
  have : splitC '.' y = [y] := by
    induction y with
    | nil => rfl
    | cons c y ih =>
      simp only [List.mem_cons, not_or] at hy
      rw [splitC, if_neg (fun e => hy.1 e.symm), ih hy.2]
  induction x with
  | nil => simp [splitC, this]
  | cons c x ih =>
    simp only [List.mem_cons, not_or] at hx
    rw [List.cons_append, List.cons_append, splitC, if_neg (fun e => hx.1 e.symm), ih hx.2]

theorem newRawIdentQ_sub (qs : List Char) (raw : Str) : ∀ c ∈ (newRawIdentQ qs raw).name, c ∈ raw := by
  induction qs with
  | nil => intro c hc; exact hc
  | cons q qs ih =>
    unfold newRawIdentQ
    split
    · intro c hc
      have h1 := (List.dropWhile_sublist _).mem (List.mem_reverse.1 hc)
      exact (List.dropWhile_sublist _).mem (List.mem_reverse.1 h1)
    · exact ih

theorem newRawIdentQ_quot (qs : List Char) (raw : Str) : ∀ c ∈ (newRawIdentQ qs raw).quot, c ∈ qs := by
  induction qs with
  | nil => intro c hc; cases hc
  | cons q qs ih =>
    unfold newRawIdentQ
    split
    · intro c hc
      rw [List.mem_singleton.1 hc]
      exact List.mem_cons_self
    · intro c hc
      exact List.mem_cons_of_mem _ (ih c hc)

/-- A name with a schema is not a name without. -/
theorem schema_ne {d : Dialect} {raw raw' : Str} (h : (newObjectName d raw).schema ≠ none) (h' : (newObjectName d raw').schema = none) :
    (newObjectName d raw).diffStr ≠ (newObjectName d raw').diffStr := by
  obtain ⟨e, hn⟩ := Pg.Show.newObjectName_none h'
  rw [e]
  intro he
  have he : (newObjectName d raw).diffStr = (newRawIdent d raw').name := he
  have hq : ∀ x : Str, '.' ∉ x → '.' ∉ (newRawIdent d ((newRawIdent d raw).quot ++ x ++ (newRawIdent d raw).quot)).name := by
    intro x hx hc
    have h1 := newRawIdentQ_sub _ _ _ hc
    have h2 : '.' ∉ (newRawIdent d raw).quot := by
      intro hd
      have := newRawIdentQ_quot _ _ _ hd
      revert this
      cases d <;> decide
    simp only [List.mem_append] at h1
    rcases h1 with (h1 | h1) | h1
    · exact h2 h1
    · exact hx h1
    · exact h2 h1
  unfold newObjectName at h he
  dsimp only at h he
  split at h
  · rename_i x y hs
    have hx := (splitC_line '.' (newRawIdent d raw).name x (by rw [hs]; simp)).1
    have hy := (splitC_line '.' (newRawIdent d raw).name y (by rw [hs]; simp)).1
    rw [hs] at he
    exact hn _ _ ((congrArg (splitC '.') he.symm).trans (splitC_pair (hq x hx) (hq y hy)))
  · exact absurd rfl h

theorem Crdb.parse_names {s : Str} {l : List Crdb.CStmt} (h : Crdb.parse s = .ok l) :
    ∀ t, .createTable t ∈ l → ∃ raw, t.name = newObjectName .cockroachdb raw := by
  have := Post.get (parseTokens_all (Q := fun x => ∀ t, x = .createTable t → ∃ raw, t.name = newObjectName .cockroachdb raw)
    (create := Crdb.parseCreate) (fun ts => ?_) _) h
  · exact fun t ht => this _ ht t rfl
  unfold Crdb.parseCreate
  refine Post.next_bind ?_
  split
  · refine Post.bind (Q := fun r => ∃ raw, r.1.name = newObjectName .cockroachdb raw) ?_ ?_
    · unfold Crdb.parseCreateTable
      refine (Post.any _).bind ?_
      rintro ⟨ine, ts₁⟩ -
      refine Post.next_bind (Post.checkCur_bind fun _ => Post.next_bind (Post.checkCur_bind fun _ => Post.next_bind ?_))
      refine (Post.any _).bind ?_
      rintro ⟨cols, cs, ts₂⟩ -
      exact Post.ok ⟨_, rfl⟩
    · rintro ⟨t, ts₁⟩ h1
      refine Post.ok ?_
      rintro t' e
      cases e
      exact h1
  split
  · refine (Post.any _).bind fun _ _ => Post.ok ?_
    intro t e
    cases e
  · exact trivial

theorem Crdb.diff_unqualified {sd : Str → Str → Str} {s s' : Str} {b a : List Crdb.CStmt} (hb : Crdb.parse s = .ok b) (ha : Crdb.parse s' = .ok a)
    (ht : ddlStr (Crdb.ops sd) b = ddlStr (Crdb.ops sd) a → b = a) (hx : ∃ t, .createTable t ∈ b)
    (hq : ∀ t, .createTable t ∈ b → t.name.schema ≠ none) (hn : ∀ t, .createTable t ∈ a → t.name.schema = none) :
    ∃ l, diff (Crdb.ops sd) (some b) (some a) = .ok l ∧ (∀ t, .createTable t ∈ b → .dropTable [] false t.name ∈ l) ∧
      ∀ t, .createTable t ∈ a → .createTable t ∈ l := by
  refine diff_disjoint (o := Crdb.ops sd) (Crdb.parse_creates hb) (Crdb.parse_creates ha) ?_ ?_ hx
  · intro e
    obtain ⟨t, h⟩ := hx
    exact hq t h (hn t (by rw [← ht e]; exact h))
  · intro t t' h h'
    obtain ⟨raw, e⟩ := Crdb.parse_names hb t h
    obtain ⟨raw', e'⟩ := Crdb.parse_names ha t' h'
    have h1 := hq t h
    have h2 := hn t' h'
    rw [e] at h1
    rw [e'] at h2
    show t.name.diffStr ≠ t'.name.diffStr
    rw [e, e']
    exact schema_ne h1 h2

theorem Pg.Db.not_addConstraint_again {B D : Pg.Db.Catalog} {l : List Pg.PStmt} {cm : Str} {n : ObjectName} {T : Pg.Db.Tbl} {c : Pg.Constraint} {nv : Bool}
    (hT : B.tables n.diffStr = some T) (hc : (T.cons c.name.name).isSome) : ¬ Pg.Db.Execs B (.alterTable ⟨cm, n, .addConstraint c nv⟩ :: l) D := by
  intro h
  cases h with
  | cons h _ =>
    cases h with
    | alterTable _ _ _ T' d' hT' ha =>
      rw [hT] at hT'
      cases hT'
      cases ha
      simp_all

end Ddl
