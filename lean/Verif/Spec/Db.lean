import Verif.Spec.Tame
import Verif.Spec.Objects

/-!
# Specification: a database that executes DDL statements (PostgreSQL)

A small catalogue: tables with columns and constraints, and indexes.  `Exec d s d'` says that statement `s` succeeds on `d` and
leaves `d'`.  What PostgreSQL checks and does is simplified:

* tables, indexes and constraints are found by their unquoted names; they have separate name spaces; there is no search path;
* the contents of tables play no role (`SET NOT NULL`, `SET DATA TYPE` and new constraints are not refused because of rows);
* expressions are not checked, and a foreign key does not need a unique constraint on the referenced columns;
* a table may have several primary keys.
-/

namespace Ddl.Pg
open Spec
set_option autoImplicit false

/-- The columns a constraint is about; they have to exist. -/
def Constraint.columnNames : Constraint → List Str
  | .primaryKey _ cs | .unique _ cs | .foreignKey _ cs _ _ _ => cs.map (·.name)
  | .check _ _ => []

/-- The columns a constraint disappears with: those it is about and those in its condition (any word may be a column). -/
def Constraint.mentions : Constraint → List Str
  | .primaryKey _ cs | .unique _ cs | .foreignKey _ cs _ _ _ => cs.map (·.name)
  | .check _ e => e.map (·.name)

/-- The table and the columns a foreign key refers to. -/
def Constraint.target : Constraint → Option (Str × List Str)
  | .foreignKey _ _ r rcs _ => some (r.name, rcs.map (·.name))
  | _ => none

/-- The columns of a primary key. -/
def Constraint.keyColumns : Constraint → List Str
  | .primaryKey _ cs => cs.map (·.name)
  | _ => []

namespace Db

/-- A column. -/
structure Col where
  type : DataType
  default : Option Default
  notNull : Bool

/-- A constraint; `validated` is false when it was added with `NOT VALID`. -/
structure Con where
  definition : Constraint
  validated : Bool

/-- A table: its columns and constraints by name. -/
structure Tbl where
  cols : Str → Option Col
  cons : Str → Option Con

/-- A database: its tables and indexes by name. -/
structure Catalog where
  tables : Str → Option Tbl
  indexes : Str → Option CreateIndex

/-- The database without tables. -/
def empty : Catalog := ⟨fun _ => none, fun _ => none⟩

/-- Changes one entry. -/
def put {α : Type} (m : Str → Option α) (k : Str) (v : Option α) : Str → Option α := fun x => if x = k then v else m x

/-- Changes one table. -/
def Catalog.setTable (d : Catalog) (n : Str) (T : Tbl) : Catalog := { d with tables := put d.tables n (some T) }

/-- A column as defined. -/
def colOf (c : Column) : Col := ⟨c.dataType.bare, c.default.map Default.bare, c.notNull⟩

/-- Columns of a primary key are not null. -/
def withKey (cols : Str → Option Col) (key : List Str) : Str → Option Col :=
  fun k => (cols k).map fun c => { c with notNull := c.notNull || key.contains k }

/-- A table as defined. -/
def tableOf (t : CreateTable) : Tbl where
  cols := withKey (fun k => (t.columns.find? (fun c => c.name.name == k)).map colOf) (t.constraints.flatMap Constraint.keyColumns)
  cons := fun k => (t.constraints.find? (fun c => c.name.name == k)).map fun c => ⟨c.bare, true⟩

/-- The columns the constraint of table `T` needs exist; `tables` are the tables of the database, `T` included. -/
def Fits (tables : Str → Option Tbl) (T : Tbl) (c : Constraint) : Prop :=
  (∀ k ∈ c.columnNames, (T.cols k).isSome) ∧
    ∀ r rcs, c.target = some (r, rcs) → ∃ R, tables r = some R ∧ ∀ k ∈ rcs, (R.cols k).isSome

/-- What `ALTER TABLE` does to table `T` named `n`. -/
inductive Alter (d : Catalog) (n : Str) (T : Tbl) : Action → Catalog → Prop where
  | addColumn (c : Column) : T.cols c.name.name = none →
      Alter d n T (.addColumn c) (d.setTable n { T with cols := put T.cols c.name.name (some (colOf c)) })
  /-- Constraints and indexes on the column disappear with it, but not foreign keys that refer to it. -/
  | dropColumn (k : Ident) : (T.cols k.name).isSome →
      (∀ m U j c rcs, d.tables m = some U → U.cons j = some c → c.definition.target = some (n, rcs) → k.name ∉ rcs) →
      Alter d n T (.dropColumn k)
        ⟨put d.tables n (some ⟨put T.cols k.name none, fun j => (T.cons j).filter fun c => !c.definition.mentions.contains k.name⟩),
         fun j => (d.indexes j).filter fun i => !(i.tableName.diffStr == n && (i.columns.map (·.name)).contains k.name)⟩
  | setDataType (k : Ident) (ty : DataType) (c : Col) : T.cols k.name = some c →
      Alter d n T (.setDataType k ty) (d.setTable n { T with cols := put T.cols k.name (some { c with type := ty.bare }) })
  | setDefault (k : Ident) (df : Option Default) (c : Col) : T.cols k.name = some c →
      Alter d n T (.setDefault k df) (d.setTable n { T with cols := put T.cols k.name (some { c with default := df.map Default.bare }) })
  | dropDefault (k : Ident) (c : Col) : T.cols k.name = some c →
      Alter d n T (.dropDefault k) (d.setTable n { T with cols := put T.cols k.name (some { c with default := none }) })
  | setNotNull (k : Ident) (c : Col) : T.cols k.name = some c →
      Alter d n T (.setNotNull k) (d.setTable n { T with cols := put T.cols k.name (some { c with notNull := true }) })
  /-- A column of a primary key stays `NOT NULL`. -/
  | dropNotNull (k : Ident) (c : Col) : T.cols k.name = some c → (∀ j p, T.cons j = some p → k.name ∉ p.definition.keyColumns) →
      Alter d n T (.dropNotNull k) (d.setTable n { T with cols := put T.cols k.name (some { c with notNull := false }) })
  /-- A primary key makes its columns `NOT NULL`. -/
  | addConstraint (c : Constraint) (nv : Bool) : T.cons c.name.name = none → Fits d.tables T c →
      Alter d n T (.addConstraint c nv)
        (d.setTable n ⟨withKey T.cols c.keyColumns, put T.cons c.name.name (some ⟨c.bare, !nv⟩)⟩)
  /-- Columns of a primary key that is dropped stay `NOT NULL`. -/
  | dropConstraint (k : Ident) : (T.cons k.name).isSome →
      Alter d n T (.dropConstraint k) (d.setTable n { T with cons := put T.cons k.name none })

/-- The statement succeeds on `d` and leaves the last argument. -/
inductive Exec (d : Catalog) : PStmt → Catalog → Prop where
  | createTable (t : CreateTable) : d.tables t.name.diffStr = none → DistinctNames t →
      (∀ c ∈ t.constraints, Fits (put d.tables t.name.diffStr (some (tableOf t))) (tableOf t) c) →
      Exec d (.createTable t) (d.setTable t.name.diffStr (tableOf t))
  | createTableExists (t : CreateTable) : (d.tables t.name.diffStr).isSome → t.ifNotExists = true → Exec d (.createTable t) d
  | createIndex (i : CreateIndex) (T : Tbl) : d.indexes i.name.name = none → d.tables i.tableName.diffStr = some T →
      (∀ k ∈ i.columns, (T.cols k.name).isSome) →
      Exec d (.createIndex i) { d with indexes := put d.indexes i.name.name (some i.bare) }
  | createIndexExists (i : CreateIndex) : (d.indexes i.name.name).isSome → i.ifNotExists = true → Exec d (.createIndex i) d
  /-- A table that another table refers to is not dropped; its indexes are dropped with it. -/
  | dropTable (cm : Str) (ie : Bool) (n : ObjectName) : (d.tables n.diffStr).isSome →
      (∀ m U j c rcs, m ≠ n.diffStr → d.tables m = some U → U.cons j = some c → c.definition.target ≠ some (n.diffStr, rcs)) →
      Exec d (.dropTable cm ie n) ⟨put d.tables n.diffStr none, fun j => (d.indexes j).filter fun i => !(i.tableName.diffStr == n.diffStr)⟩
  | dropTableMissing (cm : Str) (n : ObjectName) : d.tables n.diffStr = none → Exec d (.dropTable cm true n) d
  | dropIndex (cm : Str) (ie : Bool) (k : Ident) : (d.indexes k.name).isSome →
      Exec d (.dropIndex cm ie k) { d with indexes := put d.indexes k.name none }
  | dropIndexMissing (cm : Str) (k : Ident) : d.indexes k.name = none → Exec d (.dropIndex cm true k) d
  | alterTable (cm : Str) (n : ObjectName) (act : Action) (T : Tbl) (d' : Catalog) : d.tables n.diffStr = some T →
      Alter d n.diffStr T act d' → Exec d (.alterTable ⟨cm, n, act⟩) d'

/-- The statements succeed one after the other. -/
inductive Execs : Catalog → List PStmt → Catalog → Prop where
  | nil (d : Catalog) : Execs d [] d
  | cons {d d' d'' : Catalog} {s : PStmt} {l : List PStmt} : Exec d s d' → Execs d' l d'' → Execs d (s :: l) d''

/-- The schema has a table of that name. -/
def HasTable (l : List PStmt) (n : Str) : Prop := ∃ t, .createTable t ∈ l ∧ t.name.diffStr = n

/-- The schema has an index of that name. -/
def HasIndex (l : List PStmt) (n : Str) : Prop := ∃ i, .createIndex i ∈ l ∧ i.name.name = n

/-- The table `t` of `b` stays in `a`, as `t'`. -/
def Stays (b a : List PStmt) (t t' : CreateTable) : Prop :=
  .createTable t ∈ b ∧ .createTable t' ∈ a ∧ t.name.diffStr = t'.name.diffStr

/-- The table has a column of that name. -/
def HasColumn (t : CreateTable) (k : Str) : Prop := ∃ c ∈ t.columns, c.name.name = k

/-- The table has a constraint of that name. -/
def HasConstraint (t : CreateTable) (k : Str) : Prop := ∃ c ∈ t.constraints, c.name.name = k

/-- Table `n` is created before table `m`. -/
def Precedes (l : List PStmt) (n m : Str) : Prop := ∃ p q, l = p ++ q ∧ HasTable p n ∧ ¬ HasTable p m

/-- The changes for which the order of the statements matters, or which the code does not see, do not occur. -/
structure NoHazard (b a : List PStmt) : Prop where
  /-- A table that is dropped has no index. -/
  droppedTableIndex : ∀ t i, .createTable t ∈ b → ¬ HasTable a t.name.diffStr → .createIndex i ∈ b → i.tableName.diffStr ≠ t.name.diffStr
  /-- A table that is dropped is not referred to by another table. -/
  droppedTableReferred : ∀ t u c rcs, .createTable t ∈ b → ¬ HasTable a t.name.diffStr → .createTable u ∈ b → u.name.diffStr ≠ t.name.diffStr →
    c ∈ u.constraints → c.target ≠ some (t.name.diffStr, rcs)
  /-- A column that is dropped is not mentioned in a constraint that stays under its name. -/
  droppedColumnConstraint : ∀ t t' k c, Stays b a t t' → HasColumn t k → ¬ HasColumn t' k → c ∈ t.constraints →
    HasConstraint t' c.name.name → k ∉ c.mentions
  /-- A column that is dropped is not in an index that stays under its name. -/
  droppedColumnIndex : ∀ t t' k i, Stays b a t t' → HasColumn t k → ¬ HasColumn t' k → .createIndex i ∈ b → HasIndex a i.name.name →
    i.tableName.diffStr = t.name.diffStr → k ∉ i.columns.map (·.name)
  /-- A column that is dropped is not referred to, except by a constraint of the same table that is dropped as well. -/
  droppedColumnReferred : ∀ t t' u k c rcs, Stays b a t t' → HasColumn t k → ¬ HasColumn t' k → .createTable u ∈ b →
    HasTable a u.name.diffStr → c ∈ u.constraints → c.target = some (t.name.diffStr, rcs) → k ∈ rcs →
    u.name.diffStr = t.name.diffStr ∧ ¬ HasConstraint t' c.name.name
  /-- A new index of an old table is on old columns. -/
  newIndexColumn : ∀ t t' i k, Stays b a t t' → .createIndex i ∈ a → ¬ HasIndex b i.name.name → i.tableName.diffStr = t.name.diffStr →
    k ∈ i.columns → HasColumn t k.name
  /-- A foreign key that refers to another old table refers to old columns, unless that table is altered before. -/
  referredColumn : ∀ t t' u c rcs k, Stays b a t t' → .createTable u ∈ a → u.name.diffStr ≠ t.name.diffStr → c ∈ u.constraints →
    c.target = some (t.name.diffStr, rcs) → k ∈ rcs → HasColumn t k ∨ (HasTable b u.name.diffStr ∧ Precedes b t.name.diffStr u.name.diffStr)
  /-- An index that stays under its name stays on its table, and its method changes only together with something else. -/
  keptIndex : ∀ i i', .createIndex i ∈ b → .createIndex i' ∈ a → i.name.name = i'.name.name →
    i.tableName.diffStr = i'.tableName.diffStr ∧ (SameIndexButMethod i i' → SameIndex i i')
  /-- A column that loses `NOT NULL` is not in a primary key that stays under its name. -/
  lostNotNull : ∀ t t' c c' p, Stays b a t t' → c ∈ t.columns → c' ∈ t'.columns → c.name.name = c'.name.name → c.notNull = true →
    c'.notNull = false → p ∈ t.constraints → HasConstraint t' p.name.name → c.name.name ∉ p.keyColumns
  /-- A column without `NOT NULL` that leaves the primary key is declared `NOT NULL` then. -/
  lostKey : ∀ t t' c c' p, Stays b a t t' → c ∈ t.columns → c' ∈ t'.columns → c.name.name = c'.name.name → c.notNull = false →
    c'.notNull = false → p ∈ t.constraints → c.name.name ∈ p.keyColumns → ∃ p' ∈ t'.constraints, c.name.name ∈ p'.keyColumns

end Db
end Ddl.Pg
