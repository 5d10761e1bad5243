import Verif.Spec.Run
import Verif.Spec.Schema
import Verif.Spec.SchemaCrdb
import Verif.Spec.SchemaMy

/-!
# Specification vocabulary: what of a schema is compared (CockroachDB, MySQL, Spanner)

Definitions are compared without quotes, spelling of types, comments and `IF NOT EXISTS`, and without regard to the order of the
columns, constraints, tables and indexes.  Beyond that some parts are not compared at all; they are left out here:

* CockroachDB: `NOT VISIBLE` and `AS (...)` of columns; hidden virtual columns that are gone;
* MySQL: actions of foreign keys, the counter `AUTO_INCREMENT` of the table, options that are gone, index methods;
* Spanner: index methods.
-/

namespace Ddl.Spec
set_option autoImplicit false

/-- Each element of one list has a related one in the other list. -/
def Matched {α : Type} (R : α → α → Prop) (l l' : List α) : Prop := (∀ x ∈ l, ∃ x' ∈ l', R x x') ∧ ∀ x' ∈ l', ∃ x ∈ l, R x x'

end Ddl.Spec

namespace Ddl.Crdb
open Spec
set_option autoImplicit false

/-- The same column, but for visibility and computation. -/
def Column.Alike (c c' : Column) : Prop :=
  c.name.name = c'.name.name ∧ c.dataType.bare = c'.dataType.bare ∧ c.default.map Default.bare = c'.default.map Default.bare ∧
    c.notNull = c'.notNull

/-- A hidden virtual column, as CockroachDB adds them for hash-sharded indexes. -/
def Column.IsShard (c : Column) : Prop := c.notVisible = true ∧ ∃ a, c.as_ = some a ∧ a.type = some .VIRTUAL

/-- The same constraint or index; the words behind `USING` are compared as they are printed. -/
def Constraint.Alike (c c' : Constraint) : Prop := c.name.name = c'.name.name ∧ Run.defOf c = Run.defOf c'

/-- The same table, but for visibility and computation of columns, and hidden virtual columns that are gone. -/
structure CreateTable.Alike (t t' : CreateTable) : Prop where
  name : t.name.diffStr = t'.name.diffStr
  stays : ∀ c ∈ t.columns, (∃ c' ∈ t'.columns, c.Alike c') ∨ (c.IsShard ∧ ∀ c' ∈ t'.columns, c'.name.name ≠ c.name.name)
  old : ∀ c' ∈ t'.columns, ∃ c ∈ t.columns, c.Alike c'
  constraints : Matched Constraint.Alike t.constraints t'.constraints

/-- The same index; the words behind `USING` are compared as they are printed. -/
structure CreateIndex.Alike (i i' : CreateIndex) : Prop where
  name : i.name.name = i'.name.name
  table : i.tableName.diffStr = i'.tableName.diffStr
  definition : Run.indexOf i = Run.indexOf i'

/-- The tables and indexes can be told from their texts, also the table of an index. -/
def Comparable (l : List CStmt) : Prop := Run.TameSchema l ∧ ∀ i, .createIndex i ∈ l → Pg.IsWord i.tableName.diffStr

end Ddl.Crdb

namespace Ddl.My
open Spec
set_option autoImplicit false

/-- A constraint without the action of a foreign key. -/
def Constraint.noAction : Constraint → Constraint
  | .foreignKey n cs r rcs _ => .foreignKey n cs r rcs []
  | c => c

/-- The same constraint or index, but for the action of a foreign key. -/
def Constraint.Alike (c c' : Constraint) : Prop := c.noAction.bare = c'.noAction.bare

/-- The same table, but for actions of foreign keys, the counter of the table, and options that are gone. -/
structure CreateTable.Alike (t t' : CreateTable) : Prop where
  name : t.name.diffStr = t'.name.diffStr
  columns : SameElems (t.columns.map Column.bare) (t'.columns.map Column.bare)
  constraints : Matched Constraint.Alike t.constraints t'.constraints
  stays : ∀ o ∈ t.options, o.IsCounter ∨ (∃ o' ∈ t'.options, o.bare = o'.bare) ∨ ∀ o' ∈ t'.options, o'.name ≠ o.name
  old : ∀ o' ∈ t'.options, o'.IsCounter ∨ ∃ o ∈ t.options, o.bare = o'.bare

/-- The same index, but for the method behind `USING`. -/
structure CreateIndex.Alike (i i' : CreateIndex) : Prop where
  name : i.name.diffStr = i'.name.diffStr
  table : i.tableName.diffStr = i'.tableName.diffStr
  unique : i.isUnique = i'.isUnique
  columns : i.columns.map ColumnIdent.bare = i'.columns.map ColumnIdent.bare

/-- The tables and indexes can be told from their texts. -/
def Comparable (l : List MStmt) : Prop :=
  Run.TameSchema l ∧ ∀ i, .createIndex i ∈ l → Pg.IsWord i.tableName.diffStr ∧ ∀ c ∈ i.columns, Pg.IsWord c.ident.name

end Ddl.My

namespace Ddl.Sp
open Spec
set_option autoImplicit false

/-- The same table; the options (primary key, interleaving) are compared by their text without quotes. -/
structure CreateTable.Alike (t t' : CreateTable) : Prop where
  name : t.name.diffStr = t'.name.diffStr
  columns : SameElems (t.columns.map Column.bare) (t'.columns.map Column.bare)
  constraints : SameElems (t.constraints.map Constraint.bare) (t'.constraints.map Constraint.bare)
  options : (Run.tableOf t).options = (Run.tableOf t').options
  policy : t.rowDeletionPolicy.map TableOption.bare = t'.rowDeletionPolicy.map TableOption.bare

/-- The same index, but for the method behind `USING`. -/
structure CreateIndex.Alike (i i' : CreateIndex) : Prop where
  name : i.name.diffStr = i'.name.diffStr
  table : i.tableName.diffStr = i'.tableName.diffStr
  unique : i.isUnique = i'.isUnique
  columns : i.columns.map ColumnIdent.bare = i'.columns.map ColumnIdent.bare

/-- The tables and indexes can be told from their texts, also the table of an index. -/
def Comparable (l : List SStmt) : Prop := Run.TameSchema l ∧ ∀ i, .createIndex i ∈ l → Pg.IsWord i.tableName.diffStr

end Ddl.Sp
