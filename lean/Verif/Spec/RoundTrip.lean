import Verif.Spec.Variants
import Verif.Pg.Ast

/-!
# Specification vocabulary: which statements can be printed and read again
-/

namespace Ddl.Spec

/-- The text is a name: a word that is no keyword, or a text in quotes. -/
def IsName (d : Dialect) (s : Str) : Prop :=
  (s ≠ [] ∧ (∀ c ∈ s, WordChar c) ∧ ¬ IsKeyword d s) ∨
    ∃ q body, q ∈ quotes d ∧ s = q :: body ++ [q] ∧ ∀ c ∈ body, c ≠ q ∧ c ≠ nul

end Ddl.Spec

namespace Ddl.Pg
open Spec

/-- The constraint is a primary key, a unique constraint or a foreign key without action. -/
def Constraint.NoCheckNoAction : Constraint → Prop
  | .primaryKey _ _ | .unique _ _ => True
  | .foreignKey _ _ _ _ act => act = []
  | .check _ _ => False

instance (c : Constraint) : Decidable c.NoCheckNoAction := by cases c <;> unfold Constraint.NoCheckNoAction <;> infer_instance

/-- Every constraint is of a kind that can be read again and has a name that can be read again, and there is no `DEFAULT`
without a value. -/
def CreateTable.Rereadable (t : CreateTable) : Prop :=
  (∀ c ∈ t.constraints, c.NoCheckNoAction ∧ IsName .postgres c.name.raw) ∧ ∀ c ∈ t.columns, c.default ≠ some ⟨none⟩

end Ddl.Pg
