import Verif.Spec.Run
import Verif.Spec.Objects
import Verif.Spec.RoundTripMy
import Verif.My.Parser

/-!
# Specification: a MySQL database that executes DDL statements

The tables of `Verif/Spec/Run.lean`, whose indexes are part of them, whether they are written in the table or created by
`CREATE INDEX`.  What MySQL checks and does is simplified:

* tables, columns, constraints and indexes are found by their unquoted names, within the table;
* the rows of the tables play no role, and expressions are not checked;
* a foreign key needs the table it refers to, but the columns of that table are not looked at;
* a column that an index mentions cannot be dropped (MySQL takes the column out of the index);
* tables cannot be renamed.

`DROP INDEX` without `ON` and the name of a table is a syntax error in MySQL, so that there is no rule for it; `CREATE INDEX` knows neither
`IF NOT EXISTS` nor the schema of an index.
-/

namespace Ddl.My
open Spec
set_option autoImplicit false

/-- `l` is read from a text `s` without illegal characters, and its tables and indexes can be printed and read again. -/
def ReadFrom (s : Str) (l : List MStmt) : Prop :=
  (∃ ts, Writes .mysql true s ts ∧ ∀ t ∈ ts, t.type ≠ .ILLEGAL) ∧ (∀ c ∈ s, c ≠ nul) ∧ parse s = .ok l ∧
    (∀ t, .createTable t ∈ l → t.Rereadable) ∧ ∀ i, .createIndex i ∈ l → i.Rereadable

/-- The table a foreign key refers to. -/
def Constraint.target : Constraint → Option Str
  | .foreignKey _ _ r _ _ => some r.name
  | _ => none

namespace Run

/-- The table has a foreign key to table `n`. -/
def Tbl.Refers (T : Tbl) (n : Str) : Prop := ∃ k c, T.cons k = some c ∧ c.definition.target = some n

/-- A database: its tables by name. -/
abbrev Db := Str → Option Tbl

/-- The database without tables. -/
def Db.empty : Db := fun _ => none

/-- What the rest of the database has to do with an alteration of a table: a foreign key needs the table it refers to. -/
def Allowed (d : Db) : Action → Prop
  | .addConstraint c _ => ∀ r, c.target = some r → (d r).isSome
  | .renameTable _ => False
  | _ => True

/-- The statement succeeds on `d` and leaves the last argument. -/
inductive Exec (d : Db) : MStmt → Db → Prop where
  | createTable (t : CreateTable) : d t.name.diffStr = none → DistinctNames t →
      (∀ c ∈ t.constraints, ∀ k ∈ c.columnNames, ∃ x ∈ t.columns, x.name.name = k) →
      (∀ c ∈ t.constraints, ∀ r, c.target = some r → r = t.name.diffStr ∨ (d r).isSome) →
      Exec d (.createTable t) (upd d t.name.diffStr (some (tableOf t)))
  | createTableExists (t : CreateTable) : (d t.name.diffStr).isSome → t.ifNotExists = true → Exec d (.createTable t) d
  | createIndex (i : CreateIndex) (T : Tbl) : i.name.schema = none → i.ifNotExists = false → d i.tableName.diffStr = some T →
      T.cons i.name.name.name = none → (∀ x ∈ i.columns, (T.cols x.ident.name).isSome) →
      Exec d (.createIndex i) (upd d i.tableName.diffStr (some { T with cons := upd T.cons i.name.name.name (some ⟨indexOf i, true⟩) }))
  /-- A table that another table refers to is not dropped; the indexes of a table are dropped with it. -/
  | dropTable (cm : Str) (ie : Bool) (n : ObjectName) : (d n.diffStr).isSome →
      (∀ m U, m ≠ n.diffStr → d m = some U → ¬ U.Refers n.diffStr) → Exec d (.dropTable cm ie n) (upd d n.diffStr none)
  | dropTableMissing (cm : Str) (n : ObjectName) : d n.diffStr = none → Exec d (.dropTable cm true n) d
  | alterTable (cm : Str) (n : ObjectName) (act : Action) (T T' : Tbl) : d n.diffStr = some T → Allowed d act →
      Alter T act T' → Exec d (.alterTable ⟨cm, n, act⟩) (upd d n.diffStr (some T'))

/-- The tables of a schema can be told from their text. -/
def TameSchema (l : List MStmt) : Prop :=
  ∀ t, .createTable t ∈ l → (∀ c ∈ t.columns, c.Tame) ∧ (∀ c ∈ t.constraints, c.Tame) ∧ ∀ o ∈ t.options, WordsOnly o.value

/-- The schema has a table of that name. -/
def HasTable (l : List MStmt) (n : Str) : Prop := ∃ t, .createTable t ∈ l ∧ t.name.diffStr = n

/-- The schema has a `CREATE INDEX` of that name. -/
def HasIndex (l : List MStmt) (n : Str) : Prop := ∃ i, .createIndex i ∈ l ∧ i.name.diffStr = n

/-- The table `t` of `b` stays in `a`, as `t'`. -/
def Stays (b a : List MStmt) (t t' : CreateTable) : Prop :=
  .createTable t ∈ b ∧ .createTable t' ∈ a ∧ t.name.diffStr = t'.name.diffStr

/-- The table has a column of that name. -/
def HasColumn (t : CreateTable) (k : Str) : Prop := ∃ c ∈ t.columns, c.name.name = k

/-- The changes for which the order of the statements matters, or for which there is no statement that MySQL understands, do not occur. -/
structure NoSchemaHazard (b a : List MStmt) : Prop where
  /-- The changes of a table are such that its alterations work. -/
  table : ∀ t t', Stays b a t t' → NoHazard t t'
  /-- No `CREATE INDEX` is dropped or changed. -/
  keptIndex : ∀ i, .createIndex i ∈ b →
    ∃ i', .createIndex i' ∈ a ∧ i'.name.diffStr = i.name.diffStr ∧ i'.tableName.diffStr = i.tableName.diffStr ∧ indexOf i' = indexOf i
  /-- No index of a table that stays is dropped or changed. -/
  keptInline : ∀ t t' c, Stays b a t t' → c ∈ t.constraints → c.IsIndex → ∃ c' ∈ t'.constraints, c'.bare = c.bare
  /-- A table that stays and gets a new index has no schema. -/
  newInline : ∀ t t' c, Stays b a t t' → c ∈ t'.constraints → c.IsIndex → (∀ x ∈ t.constraints, x.name.name ≠ c.name.name) →
    t'.name.schema = none
  /-- No other table refers to a table that is dropped. -/
  droppedTableReferred : ∀ t u, .createTable t ∈ b → ¬ HasTable a t.name.diffStr → .createTable u ∈ b → u.name.diffStr ≠ t.name.diffStr →
    ∀ c ∈ u.constraints, c.target ≠ some t.name.diffStr
  /-- A new index of an old table is on old columns. -/
  newIndexColumn : ∀ t t' i x, Stays b a t t' → .createIndex i ∈ a → ¬ HasIndex b i.name.diffStr → i.tableName.diffStr = t.name.diffStr →
    x ∈ i.columns → HasColumn t x.ident.name
  /-- No name of a constraint or index in a table becomes the name of a `CREATE INDEX` of that table, or the other way round. -/
  separate : ∀ t i, .createTable t ∈ b ++ a → .createIndex i ∈ b ++ a → i.tableName.diffStr = t.name.diffStr →
    ∀ c ∈ t.constraints, c.name.name ≠ i.name.diffStr

end Run
end Ddl.My
