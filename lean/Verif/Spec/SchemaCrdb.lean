import Verif.Spec.Run
import Verif.Spec.Objects
import Verif.Spec.RoundTripCrdb
import Verif.Crdb.Parser

/-!
# Specification: a CockroachDB database that executes DDL statements

The tables of `Verif/Spec/Run.lean`, whose indexes are part of them, whether they are written in the table or created by
`CREATE INDEX`.  What CockroachDB checks and does is simplified:

* tables, columns, constraints and indexes are found by their unquoted names;
* the rows of the tables play no role, and expressions are not checked;
* a foreign key needs the table it refers to, but the columns of that table are not looked at;
* a unique index is dropped like any other (CockroachDB asks for `CASCADE`);
* tables cannot be renamed.
-/

namespace Ddl.Crdb
open Spec
set_option autoImplicit false

/-- `l` is read from a text `s` without illegal characters, and its tables and indexes can be printed and read again. -/
def ReadFrom (s : Str) (l : List CStmt) : Prop :=
  (∃ ts, Writes .cockroachdb true s ts ∧ ∀ t ∈ ts, t.type ≠ .ILLEGAL) ∧ (∀ c ∈ s, c ≠ nul) ∧ parse s = .ok l ∧
    (∀ t, .createTable t ∈ l → t.Rereadable) ∧ ∀ i, .createIndex i ∈ l → i.Rereadable

/-- The table a foreign key refers to. -/
def Constraint.target : Constraint → Option Str
  | .foreignKey _ _ r _ _ => some r.name
  | _ => none

namespace Run

/-- The table a foreign key refers to. -/
def Def.target : Def → Option Str
  | .constraint c => c.target
  | .index .. => none

/-- The table has a foreign key to table `n`. -/
def Tbl.Refers (T : Tbl) (n : Str) : Prop := ∃ k c, T.cons k = some c ∧ c.definition.target = some n

/-- The table has an index of that name. -/
def Tbl.HasIndex (T : Tbl) (k : Str) : Prop := ∃ uq pre cs post v, T.cons k = some ⟨.index uq pre cs post, v⟩

/-- A database: its tables by name. -/
abbrev Db := Str → Option Tbl

/-- The database without tables. -/
def Db.empty : Db := fun _ => none

/-- What the rest of the database has to do with an alteration of a table: a foreign key needs the table it refers to. -/
def Allowed (d : Db) : Action → Prop
  | .addConstraint c _ => ∀ r, c.target = some r → (d r).isSome
  | .renameTable _ => False
  | _ => True

/-- The statement succeeds on `d` and leaves the last argument. -/
inductive Exec (d : Db) : CStmt → Db → Prop where
  | createTable (t : CreateTable) : d t.name.diffStr = none → DistinctNames t →
      (∀ c ∈ t.constraints, ∀ k ∈ c.columnNames, ∃ x ∈ t.columns, x.name.name = k) →
      (∀ c ∈ t.constraints, ∀ r, c.target = some r → r = t.name.diffStr ∨ (d r).isSome) →
      Exec d (.createTable t) (upd d t.name.diffStr (some (tableOf t)))
  | createTableExists (t : CreateTable) : (d t.name.diffStr).isSome → t.ifNotExists = true → Exec d (.createTable t) d
  | createIndex (i : CreateIndex) (T : Tbl) : d i.tableName.diffStr = some T → T.cons i.name.name = none →
      (∀ x ∈ i.columns, (T.cols x.ident.name).isSome) →
      Exec d (.createIndex i) (upd d i.tableName.diffStr (some { T with cons := upd T.cons i.name.name (some ⟨indexOf i, true⟩) }))
  | createIndexExists (i : CreateIndex) (T : Tbl) : d i.tableName.diffStr = some T → T.HasIndex i.name.name → i.ifNotExists = true →
      Exec d (.createIndex i) d
  /-- A table that another table refers to is not dropped; the indexes of a table are dropped with it. -/
  | dropTable (cm : Str) (ie : Bool) (n : ObjectName) : (d n.diffStr).isSome →
      (∀ m U, m ≠ n.diffStr → d m = some U → ¬ U.Refers n.diffStr) → Exec d (.dropTable cm ie n) (upd d n.diffStr none)
  | dropTableMissing (cm : Str) (n : ObjectName) : d n.diffStr = none → Exec d (.dropTable cm true n) d
  /-- The name of the table is not written, so that there has to be only one index of that name. -/
  | dropIndex (cm : Str) (ie : Bool) (k : Ident) (n : Str) (T : Tbl) : d n = some T → T.HasIndex k.name →
      (∀ m U, d m = some U → U.HasIndex k.name → m = n) →
      Exec d (.dropIndex cm ie k) (upd d n (some { T with cons := upd T.cons k.name none }))
  | dropIndexMissing (cm : Str) (k : Ident) : (∀ m U, d m = some U → ¬ U.HasIndex k.name) → Exec d (.dropIndex cm true k) d
  | alterTable (cm : Str) (n : ObjectName) (act : Action) (T T' : Tbl) : d n.diffStr = some T → Allowed d act →
      Alter T act T' → Exec d (.alterTable ⟨cm, n, act⟩) (upd d n.diffStr (some T'))

/-- The words before the columns and the columns of an index can be told from their text. -/
def IndexTame (i : CreateIndex) : Prop := '(' ∉ usingStr i.usingPre ∧ ∀ c ∈ i.columns, Pg.IsWord c.ident.name

/-- The tables and indexes of a schema can be told from their text. -/
def TameSchema (l : List CStmt) : Prop :=
  (∀ t, .createTable t ∈ l → (∀ c ∈ t.columns, c.Tame) ∧ ∀ c ∈ t.constraints, c.Tame) ∧ ∀ i, .createIndex i ∈ l → IndexTame i

/-- The schema has a table of that name. -/
def HasTable (l : List CStmt) (n : Str) : Prop := ∃ t, .createTable t ∈ l ∧ t.name.diffStr = n

/-- The schema has a `CREATE INDEX` of that name. -/
def HasIndex (l : List CStmt) (n : Str) : Prop := ∃ i, .createIndex i ∈ l ∧ i.name.name = n

/-- The schema has an index `k` of the table `n`. -/
def IndexOn (l : List CStmt) (n k : Str) : Prop :=
  (∃ t, .createTable t ∈ l ∧ t.name.diffStr = n ∧ ∃ c ∈ t.constraints, c.IsIndex ∧ c.name.name = k) ∨
  ∃ i, .createIndex i ∈ l ∧ i.tableName.diffStr = n ∧ i.name.name = k

/-- The table `t` of `b` stays in `a`, as `t'`. -/
def Stays (b a : List CStmt) (t t' : CreateTable) : Prop :=
  .createTable t ∈ b ∧ .createTable t' ∈ a ∧ t.name.diffStr = t'.name.diffStr

/-- The table has a column of that name. -/
def HasColumn (t : CreateTable) (k : Str) : Prop := ∃ c ∈ t.columns, c.name.name = k

/-- The changes for which the order of the statements matters, or which are refused or made otherwise, do not occur. -/
structure NoSchemaHazard (b a : List CStmt) : Prop where
  /-- The changes of a table are such that its alterations work. -/
  table : ∀ t t', Stays b a t t' → NoHazard t t'
  /-- A table that is dropped has no index made by `CREATE INDEX`. -/
  droppedTableIndex : ∀ t i, .createTable t ∈ b → ¬ HasTable a t.name.diffStr → .createIndex i ∈ b → i.tableName.diffStr ≠ t.name.diffStr
  /-- No other table refers to a table that is dropped. -/
  droppedTableReferred : ∀ t u, .createTable t ∈ b → ¬ HasTable a t.name.diffStr → .createTable u ∈ b → u.name.diffStr ≠ t.name.diffStr →
    ∀ c ∈ u.constraints, c.target ≠ some t.name.diffStr
  /-- A column that is dropped is not in an index that stays under its name. -/
  droppedColumnIndex : ∀ t t' k i, Stays b a t t' → HasColumn t k → ¬ HasColumn t' k → .createIndex i ∈ b → HasIndex a i.name.name →
    i.tableName.diffStr = t.name.diffStr → k ∉ i.columns.map (·.ident.name)
  /-- A new index of an old table is on old columns. -/
  newIndexColumn : ∀ t t' i x, Stays b a t t' → .createIndex i ∈ a → ¬ HasIndex b i.name.name → i.tableName.diffStr = t.name.diffStr →
    x ∈ i.columns → HasColumn t x.ident.name
  /-- No name of a constraint or index in a table becomes the name of a `CREATE INDEX` of that table, or the other way round. -/
  separate : ∀ t i, .createTable t ∈ b ++ a → .createIndex i ∈ b ++ a → i.tableName.diffStr = t.name.diffStr →
    ∀ c ∈ t.constraints, c.name.name ≠ i.name.name
  /-- The name of an index is used for one table only. -/
  indexNames : ∀ n n' k, IndexOn (b ++ a) n k → IndexOn (b ++ a) n' k → n = n'

end Run
end Ddl.Crdb
