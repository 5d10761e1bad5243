import Verif.Basic
import Verif.Ident
import Mathlib.Data.List.Sort

/-!
# Spanner: `ShowCreateAllTables` (`pkg/show/spanner/show_create_all_tables.go`)

The database is the contents of the views of `INFORMATION_SCHEMA` that the program asks for, each a list of rows in the order in
which the database delivers them where the query does not order them.  The queries are filters, joins and sorts of these lists.
`ORDER BY` keeps the order of rows that agree in the key (SQL leaves it open).  Failing connections and queries are not modelled.
Line numbers are those of the file above.
-/

namespace Ddl.Sp.Show

/-- A row of `INFORMATION_SCHEMA.TABLES`, the columns used at 21, 29. -/
structure TableRow where
  schema : Str
  table : Str
  /-- `ROW_DELETION_POLICY_EXPRESSION`, may be NULL -/
  policy : Option Str
deriving DecidableEq, Repr

/-- A row of `INFORMATION_SCHEMA.COLUMNS`, the columns used at 38. -/
structure ColumnRow where
  table : Str
  column : Str
  default : Option Str
  isNullable : Str
  spannerType : Str
  position : Nat
deriving DecidableEq, Repr

/-- A row of `INFORMATION_SCHEMA.COLUMN_OPTIONS`, the columns used at 61. -/
structure OptionRow where
  table : Str
  column : Str
  name : Str
  value : Str
deriving DecidableEq, Repr

/-- A row of `INFORMATION_SCHEMA.INDEXES`, the columns used at 75-95, 109, 118-138. -/
structure IndexRow where
  table : Str
  index : Str
  type : Str
  unique : Bool
deriving DecidableEq, Repr

/-- A row of `INFORMATION_SCHEMA.INDEX_COLUMNS`, the columns used at 75-95, 118-138. The ordering and the position are NULL for
the columns of `STORING`. -/
structure IndexColumnRow where
  table : Str
  index : Str
  type : Str
  column : Str
  ordering : Option Str
  position : Option Nat
deriving DecidableEq, Repr

/-- The views of `INFORMATION_SCHEMA`. `pkg/show/spanner/show_create_all_tables.go:21, 38, 61, 82-85`. -/
structure Views where
  tables : List TableRow
  columns : List ColumnRow
  options : List OptionRow
  indexes : List IndexRow
  indexColumns : List IndexColumnRow
deriving DecidableEq, Repr

/-- `querySelectTableName`: 21. -/
def selectTables (v : Views) : List TableRow := v.tables.filter fun r => decide (r.schema = [])

/-- `querySelectTableOptionRowDeletionPolicy`: 29; NULL is not different from `''`. -/
def selectPolicy (v : Views) (t : Str) : List Str :=
  (v.tables.filter fun r => decide (r.schema = [] ∧ r.table = t)).filterMap fun r =>
    match r.policy with
    | some e => if e = [] then none else some e
    | none => none

/-- `queryShowCreateAllTables`: 38. -/
def selectColumns (v : Views) (t : Str) : List ColumnRow :=
  (v.columns.filter fun r => decide (r.table = t)).insertionSort fun a b => a.position ≤ b.position

/-- `queryShowTableColumnOptions`: 61. -/
def selectOptions (v : Views) (t : Str) : List OptionRow := v.options.filter fun r => decide (r.table = t)

/-- `querySelectIndexes`: 109. -/
def selectIndexes (v : Views) (t : Str) : List (Str × Bool) :=
  ((v.indexes.filter fun r => decide (r.table = t ∧ r.type ≠ s%"PRIMARY_KEY")).map fun r => (r.index, r.unique)).dedup

/-- The inner join of `INDEXES` and `INDEX_COLUMNS` on `TABLE_NAME` alone, for one table: 82-89, 125-132. -/
def joinIndexes (v : Views) (t : Str) : List (IndexRow × IndexColumnRow) :=
  (v.indexes.filter fun i => decide (i.table = t)).flatMap fun i =>
    (v.indexColumns.filter fun c => decide (i.table = c.table)).map fun c => (i, c)

/-- Reading the rows of a query on index columns into structs with `string` and `int` fields: 98-106, 141-149. NULL cannot be
read into them (`database/sql`: "converting NULL to string is unsupported"). -/
def scanIndexColumns (l : List IndexColumnRow) : Res (List Str) :=
  if l.all fun r => r.ordering.isSome && r.position.isSome then .ok (l.map (·.column))
  else .err (.other s%"converting NULL to string is unsupported")

/-- `queryShowPrimaryKey`: 75-95. -/
def selectPrimaryKey (v : Views) (t : Str) : List IndexColumnRow :=
  (((joinIndexes v t).filter fun p => decide (p.1.type = s%"PRIMARY_KEY" ∧ p.2.type = s%"PRIMARY_KEY")).map Prod.snd).insertionSort
    fun a b => a.position.getD 0 ≤ b.position.getD 0

/-- `ORDER BY ic.INDEX_NAME, ic.ORDINAL_POSITION`: 135-136. -/
def indexLe (a b : IndexColumnRow) : Prop :=
  a.index < b.index ∨ a.index = b.index ∧ a.position.getD 0 ≤ b.position.getD 0

instance (a b : IndexColumnRow) : Decidable (indexLe a b) := by unfold indexLe; infer_instance

/-- `queryShowIndexes`: 118-138. The name of the index is not a parameter. -/
def selectIndexColumns (v : Views) (t : Str) : List IndexColumnRow :=
  (((joinIndexes v t).filter fun p =>
    decide (p.1.type ≠ s%"PRIMARY_KEY" ∧ p.2.index ≠ s%"PRIMARY_KEY")).map Prod.snd).insertionSort indexLe

/-- `informationSchemaColumn.String`: 49-58. -/
def columnStr (c : ColumnRow) : Str :=
  c.column ++ s%" " ++ c.spannerType ++
    (match c.default with
      | some d => s%" DEFAULT (" ++ d ++ s%")"
      | none => []) ++
    (if c.isNullable = s%"NO" then s%" NOT NULL" else [])

/-- `informationSchemaColumnOption.String`: 70-72. -/
def optionStr (o : OptionRow) : Str := o.name ++ s%" = " ++ o.value

/-- The options of a column: 203-220. -/
def optionsStr (opts : List OptionRow) (c : ColumnRow) : Str :=
  let l := opts.filter fun o => decide (c.column = o.column)
  if l = [] then [] else s%" OPTIONS (" ++ join s%", " (l.map optionStr) ++ s%")"

/-- The loop over the columns: 200-227; the last column carries no comma. -/
def columnLines (opts : List OptionRow) : List ColumnRow → Str
  | [] => []
  | [c] => s%"    " ++ columnStr c ++ optionsStr opts c ++ s%"\n"
  | c :: d :: r => s%"    " ++ columnStr c ++ optionsStr opts c ++ s%",\n" ++ columnLines opts (d :: r)

/-- The primary key: 235-245. -/
def keyStr (cols : List Str) : Str := if cols = [] then [] else s%" PRIMARY KEY (" ++ join s%", " cols ++ s%")"

/-- The row deletion policy: 252-258. -/
def policyStr (l : List Str) : Str := if l = [] then [] else s%",\nROW DELETION POLICY (" ++ l.flatten ++ s%")"

/-- `CREATE TABLE`: 188-261. -/
def tableStr (v : Views) (t : Str) : Res Str := do
  let cols := selectColumns v t
  let opts := selectOptions v t
  let key ← scanIndexColumns (selectPrimaryKey v t)
  .ok (s%"CREATE TABLE " ++ t ++ s%" (\n" ++ columnLines opts cols ++ s%")" ++ keyStr key ++ policyStr (selectPolicy v t) ++
    s%";\n")

/-- One `CREATE INDEX`: 270-291. -/
def indexStr (v : Views) (t : Str) (i : Str × Bool) : Res Str := do
  let cols ← scanIndexColumns (selectIndexColumns v t)
  .ok (s%"CREATE " ++ (if i.2 then s%"UNIQUE " else []) ++ s%"INDEX " ++ i.1 ++ s%" ON " ++ t ++ s%" (" ++ join s%", " cols ++
    s%");\n")

/-- The loop over the indexes: 269-292. -/
def indexLines (v : Views) (t : Str) : List (Str × Bool) → Res Str
  | [] => .ok []
  | i :: r => do
    let a ← indexStr v t i
    let b ← indexLines v t r
    .ok (a ++ b)

/-- The loop over the tables: 185-297; an empty line stands between two tables. -/
def tableLines (v : Views) : List TableRow → Res Str
  | [] => .ok []
  | t :: r => do
    let a ← tableStr v t.table
    let b ← indexLines v t.table (selectIndexes v t.table)
    let c ← tableLines v r
    .ok (a ++ b ++ (if r = [] then [] else s%"\n") ++ c)

/-- `ShowCreateAllTables`: 170-300. The option `schema` (151-167, 173-178) has no effect. -/
def showTables (v : Views) : Res Str := tableLines v (selectTables v)

end Ddl.Sp.Show
