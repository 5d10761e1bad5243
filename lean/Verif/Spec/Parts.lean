import Verif.Spec.Objects

/-!
# Specification: schemas that are put together from independent parts
-/

namespace Ddl.Spec
set_option autoImplicit false

/-- The third list is put together from the first two: each of them is in it in its own order, and nothing else is. -/
inductive Mixed {α : Type} : List α → List α → List α → Prop
  | nil : Mixed [] [] []
  | left (x : α) (l r m : List α) : Mixed l r m → Mixed (x :: l) r (x :: m)
  | right (x : α) (l r m : List α) : Mixed l r m → Mixed l (x :: r) (x :: m)

section
variable {T I A N : Type} (o : Ops T I A N)

/-- The diff from `b` to `a` gives the statements `m`, or there is no difference and `m` is empty. -/
def Changes (b a m : List (Stmt T I A N)) : Prop :=
  (diff o (some b) (some a) = .ok m ∧ m ≠ []) ∨ (diff o (some b) (some a) = .err .noDifference ∧ m = [])

/-- No table and no index is defined in both. -/
def Independent (l r : List (Stmt T I A N)) : Prop := ∀ x, Defines o l x → ¬ Defines o r x

/-- Two schemas `b` and `a` are put together from parts, and what is in one part is not in the other.  No object is defined twice before. -/
structure InParts (b₁ b₂ b a₁ a₂ a : List (Stmt T I A N)) : Prop where
  before : Mixed b₁ b₂ b
  after : Mixed a₁ a₂ a
  independent : Independent o (b₁ ++ a₁) (b₂ ++ a₂)
  distinct : DistinctObjects o b

/-- The migration of the whole is put together from the migrations of the parts. -/
def PartByPart (b₁ b₂ b a₁ a₂ a : List (Stmt T I A N)) : Prop :=
  ∀ m₁ m₂, Changes o b₁ a₁ m₁ → Changes o b₂ a₂ m₂ → ∃ m, Changes o b a m ∧ Mixed m₁ m₂ m

/-- Two schemas that are printed alike are the same. -/
def TextsTell (b a : List (Stmt T I A N)) : Prop := ddlStr o b = ddlStr o a → b = a

/-- A part that is on both sides (`x`) does not change the migration. -/
def Unaffected (b b' a a' : List (Stmt T I A N)) : Prop := ∀ m, Changes o b a m → Changes o b' a' m

end
end Ddl.Spec
