import Verif.Spec.Db
import Verif.Spec.Schema
import Verif.Spec.SchemaCrdb
import Verif.Spec.SchemaMy

/-!
# Specification vocabulary: different schemas of the same database

A database does not remember how it was written.  Columns of a primary key are `NOT NULL`, whether this was written or not, and for
CockroachDB and MySQL an index is the same, whether it was written in the table or as `CREATE INDEX`.
-/

namespace Ddl.Pg.Db
set_option autoImplicit false

/-- Columns of the same name are both written with `NOT NULL`, or both without. -/
def SameNotNull (b a : List PStmt) : Prop :=
  ∀ t t' c c', Stays b a t t' → c ∈ t.columns → c' ∈ t'.columns → c.name.name = c'.name.name → c.notNull = c'.notNull

/-- The same database, but for the methods of the indexes. -/
structure Catalog.Alike (B A : Catalog) : Prop where
  tables : B.tables = A.tables
  indexes : ∀ n, (B.indexes n).map (fun i => { i with using_ := [] }) = (A.indexes n).map fun i => { i with using_ := [] }

end Ddl.Pg.Db

namespace Ddl.Crdb.Run
set_option autoImplicit false

@[inherit_doc Pg.Db.SameNotNull]
def SameNotNull (b a : List CStmt) : Prop :=
  ∀ t t' c c', Stays b a t t' → c ∈ t.columns → c' ∈ t'.columns → c.name.name = c'.name.name → c.notNull = c'.notNull

/-- What is written in a table of one schema is written in that table of the other. -/
def SameForm (b a : List CStmt) : Prop :=
  ∀ t t' k, Stays b a t t' → ((∃ c ∈ t.constraints, c.name.name = k) ↔ ∃ c ∈ t'.constraints, c.name.name = k)

/-- No `CREATE INDEX` has the name of a constraint or an index that is written in its table. -/
def OneForm (l : List CStmt) : Prop :=
  ∀ t i, .createTable t ∈ l → .createIndex i ∈ l → i.tableName.diffStr = t.name.diffStr → ∀ c ∈ t.constraints, c.name.name ≠ i.name.name

/-- The column is in the primary key of the table. -/
def Tbl.IsKey (T : Tbl) (k : Str) : Prop :=
  ∃ j n cs v, T.cons j = some ⟨.constraint (.primaryKey n cs), v⟩ ∧ k ∈ cs.map (·.ident.name)

/-- The same table, when columns of the primary key are `NOT NULL` anyway. -/
structure Tbl.Same (T T' : Tbl) : Prop where
  name : T.name = T'.name
  cons : T.cons = T'.cons
  cols : ∀ k, (T.cols k).map (fun c => { c with notNull := true }) = (T'.cols k).map fun c => { c with notNull := true }
  notNull : ∀ k c c', T.cols k = some c → T'.cols k = some c' → ¬ T.IsKey k → c.notNull = c'.notNull

/-- The same database, when columns of primary keys are `NOT NULL` anyway. -/
def Db.Same (D D' : Db) : Prop :=
  ∀ n, (D n = none ↔ D' n = none) ∧ ∀ T T', D n = some T → D' n = some T' → T.Same T'

end Ddl.Crdb.Run

namespace Ddl.My.Run
set_option autoImplicit false

@[inherit_doc Pg.Db.SameNotNull]
def SameNotNull (b a : List MStmt) : Prop :=
  ∀ t t' c c', Stays b a t t' → c ∈ t.columns → c' ∈ t'.columns → c.name.name = c'.name.name → c.notNull = c'.notNull

@[inherit_doc Crdb.Run.SameForm]
def SameForm (b a : List MStmt) : Prop :=
  ∀ t t' k, Stays b a t t' → ((∃ c ∈ t.constraints, c.name.name = k) ↔ ∃ c ∈ t'.constraints, c.name.name = k)

@[inherit_doc Crdb.Run.OneForm]
def OneForm (l : List MStmt) : Prop :=
  ∀ t i, .createTable t ∈ l → .createIndex i ∈ l → i.tableName.diffStr = t.name.diffStr → ∀ c ∈ t.constraints, c.name.name ≠ i.name.diffStr

@[inherit_doc Crdb.Run.Tbl.IsKey]
def Tbl.IsKey (T : Tbl) (k : Str) : Prop :=
  ∃ j n cs v, T.cons j = some ⟨.primaryKey n cs, v⟩ ∧ k ∈ cs.map (·.ident.name)

/-- The same table, when columns of the primary key are `NOT NULL` anyway. -/
structure Tbl.Same (T T' : Tbl) : Prop where
  name : T.name = T'.name
  cons : T.cons = T'.cons
  options : T.options = T'.options
  cols : ∀ k, (T.cols k).map (fun c => { c with notNull := true }) = (T'.cols k).map fun c => { c with notNull := true }
  notNull : ∀ k c c', T.cols k = some c → T'.cols k = some c' → ¬ T.IsKey k → c.notNull = c'.notNull

@[inherit_doc Crdb.Run.Db.Same]
def Db.Same (D D' : Db) : Prop :=
  ∀ n, (D n = none ↔ D' n = none) ∧ ∀ T T', D n = some T → D' n = some T' → T.Same T'

end Ddl.My.Run
