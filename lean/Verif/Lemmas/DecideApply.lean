import Verif.Lemmas.ApplyDb

/-!
# Lemmas: checking that statements can be sent, for examples
-/

namespace Ddl
open Spec Ddl.Apply
set_option autoImplicit false

theorem shortLines_of {t : Str} (h : t.length < 65536) : ShortLines t := fun _ _ hi => Nat.lt_of_le_of_lt hi.length_le h

/-- Decides `Clean`. -/
def isClean (b : Str) : Bool :=
  !b.isEmpty && !contains s%"--" b && !contains s%";\n" b && !contains s%"\n\n" b && !(b.head? == some '\n') && !contains s%"\r\n" b

theorem clean_of {b : Str} (h : isClean b = true) : Clean b := by
  simp only [isClean, Bool.and_eq_true, Bool.not_eq_true', Bool.eq_false_iff, ne_eq, contains_iff, List.isEmpty_iff, beq_iff_eq] at h
  obtain ⟨⟨⟨⟨⟨h1, h2⟩, h3⟩, h4⟩, h5⟩, h6⟩ := h
  exact ⟨h1, h2, h3, h4, h5, h6⟩

/-- The value of a result. -/
def valueOf {α : Type} : Res (List α) → List α
  | .ok l => l
  | _ => []

theorem valueOf_ok {α : Type} {r : Res (List α)} {l : List α} (h : r = .ok l) : l = valueOf r := by rw [h]; rfl

section
variable {T I A N : Type} [HasComment T] [HasComment I] [HasComment A] [DecidableEq T] [DecidableEq I] [DecidableEq A] [DecidableEq N]

/-- A server that understands the statements of the list. -/
def readsOf (o : Ops T I A N) (l : List (Stmt T I A N)) (q : Str) : Option (Stmt T I A N) :=
  (l.find? fun x => stmtStr o (bare x) == q ++ s%";\n").map bare

/-- Decides `Sendable`. -/
def isSendable (o : Ops T I A N) (l : List (Stmt T I A N)) (x : Stmt T I A N) : Bool :=
  let t := stmtStr o (bare x)
  let b := t.take (t.length - 2)
  t == b ++ s%";\n" && isClean b && readsOf o l b == some (bare x)

theorem sendable_of {o : Ops T I A N} {l : List (Stmt T I A N)} (h : l.all (isSendable o l) = true) :
    ∀ x ∈ l, Sendable o (readsOf o l) x := by
  intro x hx
  have := List.all_eq_true.1 h x hx
  simp only [isSendable, Bool.and_eq_true, beq_iff_eq] at this
  exact ⟨_, this.1.1, clean_of this.1.2, this.2⟩

/-- The hypotheses about the statements of a diff. -/
theorem sends_of {o : Ops T I A N} {r : Res (List (Stmt T I A N))} (h : (valueOf r).all (isSendable o (valueOf r)) = true)
    (hl : (ddlStr o (valueOf r)).length < 65536) :
    ∀ l, r = .ok l → (∀ x ∈ l, Sendable o (readsOf o (valueOf r)) x) ∧ ShortLines (ddlStr o l) := by
  intro l e
  rw [valueOf_ok e]
  exact ⟨sendable_of h, shortLines_of hl⟩

end

set_option maxRecDepth 8000 in
theorem notYet : ¬ MyAlready s%"Error 1072: Key column 'b' doesn't exist in table" := by
  unfold MyAlready
  decide +kernel

end Ddl
