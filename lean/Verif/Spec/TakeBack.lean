import Verif.Spec.Once

/-!
# Specification vocabulary: taking back what was done
-/

namespace Ddl.Spec
set_option autoImplicit false

/-- The second deed takes back the first: what was created or added is dropped. -/
def TakesBack : Deed → Deed → Prop
  | .create x, .drop y => x = y
  | .part t .addColumn n, .part t' .dropColumn n' => t = t' ∧ n = n'
  | .part t .addConstraint n, .part t' .dropConstraint n' => t = t' ∧ n = n'
  | _, _ => False

instance : DecidableRel TakesBack := fun d e => by
  unfold TakesBack
  split <;> infer_instance

/-- No deed takes back an earlier one. -/
def NothingTakenBack (l : List Deed) : Prop := l.Pairwise fun d e => ¬ TakesBack d e

/-- What is defined on both sides is defined in the same place: an index inside a table stays in this table. -/
def Stays {T I A N : Type} (o : Ops T I A N) (inline : T → List Str) (b a : List (Stmt T I A N)) : Prop :=
  ∀ s ∈ b, ∀ s' ∈ a, ∀ x ∈ objects o inline s, x ∈ objects o inline s' → creates o s = creates o s'

end Ddl.Spec
