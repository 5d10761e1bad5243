import Verif.ParserBase
import Verif.Spec.Blur

/-!
# Reasoning about two runs of a parser

`SameOutcome R r r'`: both runs end in the same way, with values related by `R`.
-/

namespace Ddl
open Spec
set_option autoImplicit false

section
variable {α β γ δ : Type} {R : α → β → Prop} {Q : γ → δ → Prop}

theorem Spec.SameOutcome.ok {a : α} {b : β} (h : R a b) : SameOutcome R (.ok a) (.ok b) := h
theorem Spec.SameOutcome.err {e : Err} : SameOutcome R (.err e) (.err e) := rfl
theorem Spec.SameOutcome.panic {p : Panic} : SameOutcome R (.panic p) (.panic p) := rfl
theorem Spec.SameOutcome.fuel : SameOutcome R .outOfFuel .outOfFuel := trivial

theorem Spec.SameOutcome.bind {r : Res α} {r' : Res β} {f : α → Res γ} {f' : β → Res δ} (h : SameOutcome R r r')
    (hf : ∀ a b, R a b → SameOutcome Q (f a) (f' b)) : SameOutcome Q (r >>= f) (r' >>= f') := by
  cases r <;> cases r' <;> first | exact h.elim | exact hf _ _ h | exact h | trivial

theorem Spec.SameOutcome.imp {R' : α → β → Prop} {r : Res α} {r' : Res β} (h : SameOutcome R r r') (hi : ∀ a b, R a b → R' a b) :
    SameOutcome R' r r' := by
  cases r <;> cases r' <;> first | exact h.elim | exact hi _ _ h | exact h | trivial

theorem Spec.SameOutcome.ite {c c' : Prop} [Decidable c] [Decidable c'] {a b : Res α} {a' b' : Res β} (hc : c' ↔ c)
    (h₁ : c → SameOutcome R a a') (h₂ : ¬ c → SameOutcome R b b') :
    SameOutcome R (if c then a else b) (if c' then a' else b') := by
  by_cases h : c
  · rw [if_pos h, if_pos (hc.2 h)]; exact h₁ h
  · rw [if_neg h, if_neg (fun hh => h (hc.1 hh))]; exact h₂ h

end

/-- Two token lists that stand for the same thing after blurring. -/
def TsRel (B : Blur) (d : Dialect) (ts ts' : List Token) : Prop := Pointwise (TokRel B d) ts ts'

section
variable {B : Blur} {d : Dialect} {ts ts' : List Token}

theorem Spec.TokRel.refl (t : Token) : TokRel B d t t := ⟨rfl, fun _ => ⟨rfl, rfl⟩, rfl, fun _ => rfl, rfl, fun _ => rfl⟩

theorem TsRel.tail (h : TsRel B d ts ts') : TsRel B d ts.tail ts'.tail := by
  cases h with
  | nil => exact .nil
  | cons _ h => exact h

theorem TsRel.cur (h : TsRel B d ts ts') : TokRel B d (cur ts) (cur ts') := by
  cases h with
  | nil => exact TokRel.refl _
  | cons h _ => exact h

theorem TsRel.length (h : TsRel B d ts ts') : ts'.length = ts.length := by
  induction h with
  | nil => rfl
  | cons _ _ ih => simp [ih]

theorem TsRel.curT (h : TsRel B d ts ts') : curT ts' = curT ts := h.cur.type

theorem TsRel.bare (h : TsRel B d ts ts') (hc : Ddl.curT ts = .IDENT) :
    (newRawIdent d (curL ts')).bare = (newRawIdent d (curL ts)).bare := (h.cur.ident hc).1

theorem TsRel.object (h : TsRel B d ts ts') (hc : Ddl.curT ts = .IDENT) :
    (newObjectName d (curL ts')).bare = (newObjectName d (curL ts)).bare := (h.cur.ident hc).2

theorem newRawIdentQ_raw (l : List Char) (s : Str) : (newRawIdentQ l s).raw = s := by
  induction l with
  | nil => rfl
  | cons q l ih => rw [newRawIdentQ]; split <;> first | rfl | exact ih

theorem newRawIdent_raw (d : Dialect) (s : Str) : (newRawIdent d s).raw = s := newRawIdentQ_raw _ _

theorem TsRel.blur (h : TsRel B d ts ts') : (newRawIdent d (curL ts')).blur B = (newRawIdent d (curL ts)).blur B := by
  simp only [Ident.blur, Ident.mk.injEq, and_self, and_true]
  exact h.cur.expr

theorem TsRel.act (h : TsRel B d ts ts') (hc : Ddl.curT ts ≠ .IDENT) : (curL ts').map B.chr = (curL ts).map B.chr :=
  h.cur.act hc

theorem TsRel.raw (h : TsRel B d ts ts') : B.raw (curL ts') = B.raw (curL ts) := h.cur.raw

theorem TsRel.symbol (h : TsRel B d ts ts') (hc : Ddl.curT ts = .EQUAL ∨ Ddl.curT ts = .GREATER ∨ Ddl.curT ts = .LESS) :
    curL ts' = curL ts := h.cur.symbol (by simpa [Ddl.curT] using hc)

theorem TsRel.next (h : TsRel B d ts ts') : SameOutcome (TsRel B d) (next ts) (next ts') := by
  unfold Ddl.next peekT
  refine SameOutcome.ite (by rw [h.tail.tail.curT]) (fun _ => .panic) (fun _ => h.tail)

theorem TsRel.next_bind {γ δ : Type} {Q : γ → δ → Prop} (h : TsRel B d ts ts') {f : List Token → Res γ} {f' : List Token → Res δ}
    (hf : SameOutcome Q (f ts.tail) (f' ts'.tail)) : SameOutcome Q (Ddl.next ts >>= f) (Ddl.next ts' >>= f') := by
  unfold Ddl.next peekT
  rw [h.tail.tail.curT]
  split
  · exact .panic
  · exact hf

theorem TsRel.checkCur_bind {γ δ : Type} {Q : γ → δ → Prop} {l : List TokType} (h : TsRel B d ts ts') {f : Unit → Res γ}
    {f' : Unit → Res δ} (hf : Ddl.curT ts ∈ l → SameOutcome Q (f ()) (f' ())) :
    SameOutcome Q (checkCur l ts >>= f) (checkCur l ts' >>= f') := by
  unfold checkCur
  rw [h.curT]
  split
  · exact hf (by assumption)
  · exact .err

theorem TsRel.checkPeek_bind {γ δ : Type} {Q : γ → δ → Prop} {l : List TokType} (h : TsRel B d ts ts') {f : Unit → Res γ}
    {f' : Unit → Res δ} (hf : Ddl.curT ts.tail ∈ l → SameOutcome Q (f ()) (f' ())) :
    SameOutcome Q (checkPeek l ts >>= f) (checkPeek l ts' >>= f') := by
  unfold checkPeek peekT
  rw [h.tail.curT]
  split
  · exact hf (by assumption)
  · exact .err

end

/-- Solves goals `TsRel B d ts ts'`. -/
syntax "trel" : tactic
macro_rules
  | `(tactic| trel) => `(tactic| first | assumption | (apply TsRel.tail; trel))

section
variable {B : Blur} {d : Dialect} {ts ts' : List Token}

theorem TsRel.cur_iff (h : TsRel B d ts ts') {t : TokType} : Ddl.curT ts' = t ↔ Ddl.curT ts = t := by rw [h.curT]

theorem TsRel.peek_iff (h : TsRel B d ts ts') {t : TokType} : peekT ts' = t ↔ peekT ts = t := h.tail.cur_iff

theorem TsRel.test_iff (h : TsRel B d ts ts') {p : TokType → Bool} :
    p (Ddl.curT ts') = true ↔ p (Ddl.curT ts) = true := by rw [h.curT]

end

/-- Solves goals `c' ↔ c` where `c` is a condition on the current and the next token and `c'` the same one on the second list. -/
syntax "rel_cond" : tactic
macro_rules
  | `(tactic| rel_cond) => `(tactic| first
    | exact TsRel.cur_iff (by trel)
    | exact TsRel.peek_iff (by trel)
    | exact TsRel.test_iff (by trel)
    | (refine or_congr ?_ ?_ <;> rel_cond)
    | (refine and_congr ?_ ?_ <;> rel_cond)
    | (refine not_congr ?_; rel_cond))

/-- One known parser call; extended after each lemma. -/
syntax "rel_call" : tactic
set_option hygiene false in
macro_rules | `(tactic| rel_call) => `(tactic| (refine ih' ?_ <;> trel))

theorem cons_congr' {α : Type} {a a' : α} {l l' : List α} (h : a' = a) (hl : l' = l) : a' :: l' = a :: l := by rw [h, hl]
theorem append_congr' {α : Type} {l l' r r' : List α} (h : l' = l) (hr : r' = r) : l' ++ r' = l ++ r := by rw [h, hr]

/-- Solves goals `curT ts = .IDENT` from what was checked before. -/
macro "rel_ident" : tactic => `(tactic| first
  | assumption
  | exact List.mem_singleton.1 (by assumption)
  | exact Decidable.not_not.1 (by assumption)
  | (simp_all (config := {decide := true}); done))

/-- Equality of blurred values. -/
syntax "rel_val" : tactic
macro_rules
  | `(tactic| rel_val) => `(tactic| first
    | rfl
    | trivial
    | assumption
    | exact TsRel.curT (by trel)
    | exact TsRel.blur (by trel)
    | exact TsRel.bare (by trel) (by rel_ident)
    | exact TsRel.object (by trel) (by rel_ident)
    | exact TsRel.raw (by trel)
    | exact TsRel.act (by trel) (by intro he; simp_all (config := {decide := true}) [peekT])
    | (simp only [List.map_cons, List.map_nil, List.map_append]; rel_val)
    | (refine cons_congr' ?_ ?_ <;> rel_val)
    | (refine append_congr' ?_ ?_ <;> rel_val))

@[inherit_doc tacticRel_call]
syntax "rel_call3" : tactic
macro_rules | `(tactic| rel_call3) => `(tactic| fail)

/-- One step through two runs of a parser. -/
syntax "rel_step" : tactic
macro_rules
  | `(tactic| rel_step) => `(tactic| first
    | exact SameOutcome.err
    | exact SameOutcome.panic
    | exact SameOutcome.fuel
    | (refine SameOutcome.ok ⟨?_, ?_, by trel⟩ <;> try rel_val)
    | (refine SameOutcome.ok ⟨?_, by trel⟩; try rel_val)
    | (refine TsRel.next_bind (by trel) ?_)
    | (refine TsRel.checkCur_bind (by trel) (fun _ => ?_))
    | (refine TsRel.checkPeek_bind (by trel) (fun _ => ?_))
    | (refine SameOutcome.ite (by rel_cond) (fun _ => ?_) (fun _ => ?_))
    | (refine SameOutcome.bind (by rel_call) ?_; rintro ⟨_, _⟩ ⟨_, _⟩ ⟨_, _⟩; try dsimp only at *)
    | (refine SameOutcome.bind (by rel_call3) ?_; rintro ⟨_, _, _⟩ ⟨_, _, _⟩ ⟨_, _, _⟩; try dsimp only at *)
    | rel_call
    | rel_call3)

macro "rel" : tactic => `(tactic| repeat' rel_step)

theorem parseIfNotExists_rel {B : Blur} {d : Dialect} {ts ts' : List Token} (h : TsRel B d ts ts') :
    SameOutcome (fun r r' => r'.1 = r.1 ∧ TsRel B d r.2 r'.2) (parseIfNotExists ts) (parseIfNotExists ts') := by
  unfold parseIfNotExists
  rel
macro_rules | `(tactic| rel_call) => `(tactic| exact parseIfNotExists_rel (by trel))

section
variable {B : Blur} {d : Dialect} {S S' : Type} {R : S → S' → Prop} {create : List Token → Res (S × List Token)}
  {create' : List Token → Res (S' × List Token)}

theorem parseLoop_rel (hc : ∀ {ts ts'}, TsRel B d ts ts' →
      SameOutcome (fun r r' => R r.1 r'.1 ∧ TsRel B d r.2 r'.2) (create ts) (create' ts'))
    {n : Nat} {ts ts' : List Token} (h : TsRel B d ts ts') :
    SameOutcome (Pointwise R) (parseLoop create n ts) (parseLoop create' n ts') := by
  induction n generalizing ts ts' with
  | zero => exact .fuel
  | succ n ih =>
    unfold parseLoop
    refine SameOutcome.ite (by rel_cond) (fun _ => ?_) (fun _ => SameOutcome.ite (by rel_cond) (fun _ => ?_) (fun _ =>
      SameOutcome.ite (by rel_cond) (fun _ => .ok .nil) (fun _ => .err)))
    · refine SameOutcome.bind (hc h) ?_
      rintro ⟨_, _⟩ ⟨_, _⟩ ⟨hr, _⟩
      refine TsRel.next_bind (by trel) (SameOutcome.bind (ih (by trel)) ?_)
      exact fun _ _ hl => .ok (.cons hr hl)
    · exact TsRel.next_bind (by trel) (ih (by trel))

theorem parseTokens_rel (hc : ∀ {ts ts'}, TsRel B d ts ts' →
      SameOutcome (fun r r' => R r.1 r'.1 ∧ TsRel B d r.2 r'.2) (create ts) (create' ts'))
    {ts ts' : List Token} (h : TsRel B d ts ts') :
    SameOutcome (Pointwise R) (parseTokens create ts) (parseTokens create' ts') := by
  unfold parseTokens start
  rw [h.curT, show peekT ts' = peekT ts from h.tail.curT]
  split
  · exact .panic
  · show SameOutcome _ (parseLoop create (ts.length + 1) ts) (parseLoop create' (ts'.length + 1) ts')
    rw [h.length]
    exact parseLoop_rel hc h

end

theorem Ident.name_of_bare {i j : Ident} (h : i.bare = j.bare) : i.name = j.name := by
  have e := congrArg Ident.name h; exact e

theorem Ident.bare_getD {o o' : Option Ident} {i i' : Ident} (h : o'.map Ident.bare = o.map Ident.bare) (hi : i'.bare = i.bare) :
    (o'.getD i').bare = (o.getD i).bare := by
  cases o <;> cases o' <;> simp_all

end Ddl
