import Verif.Spec.RoundTrip
import Verif.Sp.Ast

/-!
# Specification vocabulary: which Spanner statements can be printed and read again
-/

namespace Ddl.Sp
open Spec

/-- The column has no `DEFAULT` without a value, and not both `DEFAULT` and `OPTIONS`. -/
def Column.Rereadable (c : Column) : Prop := ∀ d, c.default = some d → d.value ≠ none ∧ c.options = none

/-- The name of the constraint, if it has one, can be read again. -/
def Constraint.Rereadable (c : Constraint) : Prop := ∀ n, c.name = some n → IsName .spanner n.raw

/-- The columns and constraints can be read again. -/
def CreateTable.Rereadable (t : CreateTable) : Prop := (∀ c ∈ t.columns, c.Rereadable) ∧ ∀ c ∈ t.constraints, c.Rereadable

end Ddl.Sp
