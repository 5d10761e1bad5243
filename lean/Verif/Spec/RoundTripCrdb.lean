import Verif.Spec.RoundTrip
import Verif.Crdb.Ast

/-!
# Specification vocabulary: which CockroachDB statements can be printed and read again
-/

namespace Ddl.Crdb
open Spec

/-- No two neighbours are type operators (`::` and `:::` are printed without a blank, so that they would run into each other). -/
def ApartCasts : Expr → Prop
  | a :: b :: r => ¬ (a.raw ∈ [s%"::", s%":::"] ∧ b.raw ∈ [s%"::", s%":::"]) ∧ ApartCasts (b :: r)
  | _ => True

/-- `ApartCasts` is decided by evaluation. -/
def ApartCasts.dec : (e : Expr) → Decidable (ApartCasts e)
  | [] => isTrue trivial
  | [_] => isTrue trivial
  | a :: b :: r =>
    haveI := ApartCasts.dec (b :: r)
    inferInstanceAs (Decidable (¬ (a.raw ∈ [s%"::", s%":::"] ∧ b.raw ∈ [s%"::", s%":::"]) ∧ ApartCasts (b :: r)))

instance (e : Expr) : Decidable (ApartCasts e) := ApartCasts.dec e

/-- The column has no `DEFAULT` and no `AS` without a value, not both of them, and no two neighbouring type operators. -/
def Column.Rereadable (c : Column) : Prop :=
  ApartCasts c.dataType.expr ∧
  (∀ d, c.default = some d → c.as_ = none ∧ ∃ e, d.value = some e ∧ ApartCasts e) ∧
  ∀ a, c.as_ = some a → ∃ e, a.value = some e ∧ ApartCasts e

/-- The constraint is a primary key, an index or a foreign key without action, and its name can be read again. -/
def Constraint.Rereadable (c : Constraint) : Prop :=
  IsName .cockroachdb c.name.raw ∧
  match c with
  | .primaryKey _ _ => True
  | .index _ _ _ _ post => ∀ u, post = some u → ∀ e, u.with_ = some e → ApartCasts e
  | .foreignKey _ _ _ _ act => act = []
  | .check _ _ => False

/-- The columns and constraints can be read again, and no constraint but the first is a primary key. -/
def CreateTable.Rereadable (t : CreateTable) : Prop :=
  (∀ c ∈ t.columns, c.Rereadable) ∧ (∀ c ∈ t.constraints, c.Rereadable) ∧ ∀ c ∈ t.constraints.tail, c.isPrimaryKey = false

/-- The index has no `USING`. -/
def CreateIndex.Rereadable (i : CreateIndex) : Prop := i.usingPre = none ∧ i.usingPost = none

end Ddl.Crdb
