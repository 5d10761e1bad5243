import Verif.Spec.RoundTrip
import Verif.My.Ast

/-!
# Specification vocabulary: which MySQL statements can be printed and read again
-/

namespace Ddl.My
open Spec

/-- No column of the list has the order `ASC` (which is not printed). -/
def NoAsc (l : List ColumnIdent) : Prop := ∀ i ∈ l, i.order ≠ some false

/-- The column is not of the type `BOOLEAN` (printed as `TINYINT(1)`), has no `DEFAULT` without a value, and not both `DEFAULT` and
`AUTO_INCREMENT`. -/
def Column.Rereadable (c : Column) : Prop :=
  c.dataType.type ≠ .BOOLEAN ∧ ∀ d, c.default = some d → d.value ≠ none ∧ c.autoIncrement = false

/-- The name of the constraint can be read again, it has no order `ASC`, and it is no foreign key with an action (which is not
printed). -/
def Constraint.Rereadable : Constraint → Prop
  | .primaryKey _ cs => NoAsc cs
  | .foreignKey n cs _ rcs act => IsName .mysql n.raw ∧ NoAsc cs ∧ NoAsc rcs ∧ act = []
  | .index n _ cs => IsName .mysql n.raw ∧ NoAsc cs
  | .check n _ => IsName .mysql n.raw

/-- The columns and constraints can be read again, and no constraint but the first is a primary key. -/
def CreateTable.Rereadable (t : CreateTable) : Prop :=
  (∀ c ∈ t.columns, c.Rereadable) ∧ (∀ c ∈ t.constraints, c.Rereadable) ∧ ∀ c ∈ t.constraints.tail, c.isPrimaryKey = false

/-- The index has no order `ASC`. -/
def CreateIndex.Rereadable (i : CreateIndex) : Prop := NoAsc i.columns

end Ddl.My
