import Verif.Spec.RoundTrip

/-!
# Specification vocabulary: repeated definitions of a name
-/

namespace Ddl.Spec
set_option autoImplicit false

/-- The elements without later repetitions. -/
def firstKeys {α : Type} [DecidableEq α] : List α → List α
  | [] => []
  | a :: l => a :: (firstKeys l).filter (· ≠ a)

/-- `x` is the last element of the list with its key. -/
def IsLast {α κ : Type} (key : α → κ) (l : List α) (x : α) : Prop := ∃ p q, l = p ++ x :: q ∧ ∀ y ∈ q, key y ≠ key x

/-- The list `r` has, for each key of `l`, the last element with this key. -/
def LastWins {α κ : Type} [DecidableEq κ] (key : α → κ) (l r : List α) : Prop :=
  (∀ x ∈ r, IsLast key l x) ∧ (r.map key).Perm (firstKeys (l.map key))

/-- The list `r` has, at the position of the first element of `l` with a key, the last element with this key. -/
def LastWinsAtFirst {α κ : Type} [DecidableEq κ] (key : α → κ) (l r : List α) : Prop :=
  (∀ x ∈ r, IsLast key l x) ∧ r.map key = firstKeys (l.map key)

end Ddl.Spec

namespace Ddl.Pg
open Spec

/-- The identifier is a name as it stands in a text. -/
def IsWritten (i : Ident) : Prop := i = newRawIdent .postgres i.raw ∧ IsName .postgres i.raw

/-- The constraint as it can be written in a list of table constraints. -/
def Constraint.IsWritten : Constraint → Prop
  | .primaryKey n cs | .unique n cs => Pg.IsWritten n ∧ ∀ c ∈ cs, Pg.IsWritten c
  | .foreignKey n cs r rcs act => Pg.IsWritten n ∧ (∀ c ∈ cs, Pg.IsWritten c) ∧ Pg.IsWritten r ∧ (∀ c ∈ rcs, Pg.IsWritten c) ∧ act = []
  | .check _ _ => False

end Ddl.Pg
