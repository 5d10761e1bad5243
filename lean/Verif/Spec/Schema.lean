import Verif.Spec.Run
import Verif.Spec.Objects
import Verif.Spec.RoundTripSp
import Verif.Sp.Parser

/-!
# Specification: a Spanner database that executes DDL statements

The tables of `Verif/Spec/Run.lean`, and indexes, which are objects of their own.  What Spanner checks and does is simplified:

* tables, columns, constraints and indexes are found by their unquoted names;
* the rows of the tables play no role, and expressions are not checked;
* a foreign key needs the table it refers to, but the columns of that table are not looked at;
* tables cannot be renamed.
-/

namespace Ddl.Sp
open Spec
set_option autoImplicit false

/-- `l` is read from a text `s` without illegal characters, and its tables can be printed and read again. -/
def ReadFrom (s : Str) (l : List SStmt) : Prop :=
  (∃ ts, Writes .spanner true s ts ∧ ∀ t ∈ ts, t.type ≠ .ILLEGAL) ∧ (∀ c ∈ s, c ≠ nul) ∧ parse s = .ok l ∧
    ∀ t, .createTable t ∈ l → t.Rereadable

/-- The table a foreign key refers to. -/
def Constraint.target : Constraint → Option Str
  | .foreignKey _ _ r _ => some r.name
  | .check .. => none

namespace Run

/-- The tables named behind `INTERLEAVE IN PARENT` in the text of the options. -/
def parentsIn (options : Str) : List Str :=
  options.tails.filterMap fun s =>
    if s%"INTERLEAVE IN PARENT " <+: s then some ((s.drop 21).takeWhile fun c => c != ' ' && c != ',') else none

/-- The table has a foreign key to table `n` or is interleaved in it. -/
def Tbl.Refers (T : Tbl) (n : Str) : Prop := n ∈ parentsIn T.options ∨ ∃ k c, T.cons k = some c ∧ c.definition.target = some n

/-- An index. -/
structure Ix where
  unique : Bool
  table : Str
  columns : List ColumnIdent
deriving DecidableEq

/-- An index as created; there is no `USING` in Spanner. -/
def indexOf (i : CreateIndex) : Ix := ⟨i.isUnique, i.tableName.diffStr, i.columns.map ColumnIdent.bare⟩

/-- The index is on that column of that table. -/
def Ix.On (i : Ix) (n k : Str) : Prop := i.table = n ∧ k ∈ i.columns.map (·.ident.name)

/-- A database: its tables and indexes by name. -/
structure Db where
  tables : Str → Option Tbl
  indexes : Str → Option Ix

/-- The database without tables. -/
def Db.empty : Db := ⟨fun _ => none, fun _ => none⟩

/-- What the rest of the database has to do with an alteration of table `n`: a column of an index is not dropped, and a foreign key
needs the table it refers to. -/
def Allowed (d : Db) (n : Str) : Action → Prop
  | .dropColumn k => ∀ j i, d.indexes j = some i → ¬ i.On n k.name
  | .addConstraint c _ => ∀ r, c.target = some r → (d.tables r).isSome
  | .renameTable _ => False
  | _ => True

/-- The statement succeeds on `d` and leaves the last argument. -/
inductive Exec (d : Db) : SStmt → Db → Prop where
  | createTable (t : CreateTable) : d.tables t.name.diffStr = none → DistinctNames t →
      (∀ c ∈ t.constraints, ∀ k ∈ c.columnNames, ∃ x ∈ t.columns, x.name.name = k) →
      (∀ r, (tableOf t).Refers r → r = t.name.diffStr ∨ (d.tables r).isSome) →
      Exec d (.createTable t) { d with tables := upd d.tables t.name.diffStr (some (tableOf t)) }
  | createTableExists (t : CreateTable) : (d.tables t.name.diffStr).isSome → t.ifNotExists = true → Exec d (.createTable t) d
  | createIndex (i : CreateIndex) (T : Tbl) : d.indexes i.name.diffStr = none → d.tables i.tableName.diffStr = some T →
      (∀ x ∈ i.columns, (T.cols x.ident.name).isSome) →
      Exec d (.createIndex i) { d with indexes := upd d.indexes i.name.diffStr (some (indexOf i)) }
  | createIndexExists (i : CreateIndex) : (d.indexes i.name.diffStr).isSome → i.ifNotExists = true → Exec d (.createIndex i) d
  /-- A table that has an index, or that another table refers to or is interleaved in, is not dropped. -/
  | dropTable (cm : Str) (ie : Bool) (n : ObjectName) : (d.tables n.diffStr).isSome →
      (∀ j i, d.indexes j = some i → i.table ≠ n.diffStr) →
      (∀ m U, m ≠ n.diffStr → d.tables m = some U → ¬ U.Refers n.diffStr) →
      Exec d (.dropTable cm ie n) { d with tables := upd d.tables n.diffStr none }
  | dropTableMissing (cm : Str) (n : ObjectName) : d.tables n.diffStr = none → Exec d (.dropTable cm true n) d
  | dropIndex (cm : Str) (ie : Bool) (n : ObjectName) : (d.indexes n.diffStr).isSome →
      Exec d (.dropIndex cm ie n) { d with indexes := upd d.indexes n.diffStr none }
  | dropIndexMissing (cm : Str) (n : ObjectName) : d.indexes n.diffStr = none → Exec d (.dropIndex cm true n) d
  | alterTable (cm : Str) (n : ObjectName) (act : Action) (T T' : Tbl) : d.tables n.diffStr = some T → Allowed d n.diffStr act →
      Alter T act T' → Exec d (.alterTable ⟨cm, n, act⟩) { d with tables := upd d.tables n.diffStr (some T') }

/-- The columns of an index can be told from their text. -/
def IndexTame (i : CreateIndex) : Prop := ∀ c ∈ i.columns, Pg.IsWord c.ident.name

/-- The tables and indexes of a schema can be told from their text. -/
def TameSchema (l : List SStmt) : Prop := (∀ t, .createTable t ∈ l → t.Tame) ∧ ∀ i, .createIndex i ∈ l → IndexTame i

/-- The schema has a table of that name. -/
def HasTable (l : List SStmt) (n : Str) : Prop := ∃ t, .createTable t ∈ l ∧ t.name.diffStr = n

/-- The schema has an index of that name. -/
def HasIndex (l : List SStmt) (n : Str) : Prop := ∃ i, .createIndex i ∈ l ∧ i.name.diffStr = n

/-- The table `t` of `b` stays in `a`, as `t'`. -/
def Stays (b a : List SStmt) (t t' : CreateTable) : Prop :=
  .createTable t ∈ b ∧ .createTable t' ∈ a ∧ t.name.diffStr = t'.name.diffStr

/-- The table has a column of that name. -/
def HasColumn (t : CreateTable) (k : Str) : Prop := ∃ c ∈ t.columns, c.name.name = k

/-- The changes for which the order of the statements matters, or which Spanner refuses, do not occur. -/
structure NoSchemaHazard (b a : List SStmt) : Prop where
  /-- A column that is dropped is not mentioned by a constraint that stays under its name. -/
  table : ∀ t t', Stays b a t t' → NoHazard t t'
  /-- A table that is dropped has no index. -/
  droppedTableIndex : ∀ t i, .createTable t ∈ b → ¬ HasTable a t.name.diffStr → .createIndex i ∈ b → i.tableName.diffStr ≠ t.name.diffStr
  /-- No other table refers to a table that is dropped or is interleaved in it. -/
  droppedTableReferred : ∀ t u, .createTable t ∈ b → ¬ HasTable a t.name.diffStr → .createTable u ∈ b → u.name.diffStr ≠ t.name.diffStr →
    ¬ (tableOf u).Refers t.name.diffStr
  /-- A table whose options change, which is dropped and created again, has no index. -/
  recreatedIndex : ∀ t t' i, Stays b a t t' → (tableOf t).options ≠ (tableOf t').options →
    ((.createIndex i ∈ b ∧ HasIndex a i.name.diffStr) ∨ .createIndex i ∈ a) → i.tableName.diffStr ≠ t.name.diffStr
  /-- No other table refers to a table whose options change or is interleaved in it. -/
  recreatedReferred : ∀ t t' u, Stays b a t t' → (tableOf t).options ≠ (tableOf t').options →
    ((.createTable u ∈ b ∧ HasTable a u.name.diffStr) ∨ .createTable u ∈ a) → u.name.diffStr ≠ t.name.diffStr →
    ¬ (tableOf u).Refers t.name.diffStr
  /-- A column that is dropped is not in an index that stays under its name. -/
  droppedColumnIndex : ∀ t t' k i, Stays b a t t' → HasColumn t k → ¬ HasColumn t' k → .createIndex i ∈ b → HasIndex a i.name.diffStr →
    i.tableName.diffStr = t.name.diffStr → k ∉ i.columns.map (·.ident.name)
  /-- A new index of an old table is on old columns. -/
  newIndexColumn : ∀ t t' i x, Stays b a t t' → .createIndex i ∈ a → ¬ HasIndex b i.name.diffStr → i.tableName.diffStr = t.name.diffStr →
    x ∈ i.columns → HasColumn t x.ident.name
  /-- An index that stays under its name stays on its table. -/
  keptIndex : ∀ i i', .createIndex i ∈ b → .createIndex i' ∈ a → i.name.diffStr = i'.name.diffStr → i.tableName.diffStr = i'.tableName.diffStr

end Run
end Ddl.Sp
