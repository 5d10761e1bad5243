import Verif.Basic
import Verif.Ident
import Mathlib.Data.List.Sort

/-!
# PostgreSQL: `ShowCreateAllTables` (`pkg/show/postgres/show_create_all_tables.go`)

The database is the contents of the views that the queries read, each a list of rows in the order in which the database delivers
them.  The queries are filters, joins, groupings and sorts of these lists.  `ORDER BY` compares by code points and keeps the order of rows that
agree in the key; an aggregate without `ORDER BY` takes the rows in the order of the list (SQL leaves both open).  Failing connections and
queries are not modelled.  Line numbers are those of the file above.
-/

namespace Ddl.Pg.Show

/-- A row of `information_schema.columns`, the columns used at 24-42. -/
structure ColumnRow where
  schema : Str
  table : Str
  column : Str
  dataType : Str
  /-- `character_maximum_length`, in decimal -/
  maxLength : Option Str
  isNullable : Str
  default : Option Str
  position : Nat
deriving DecidableEq, Repr

/-- A row of `information_schema.table_constraints`, the columns used at 46-73, 103-106. -/
structure ConstraintRow where
  schema : Str
  table : Str
  name : Str
  type : Str
deriving DecidableEq, Repr

/-- A row of `information_schema.key_column_usage`, the columns used at 60-68. -/
structure KeyRow where
  schema : Str
  table : Str
  name : Str
  column : Str
  position : Nat
deriving DecidableEq, Repr

/-- A row of `information_schema.referential_constraints`, the columns used at 51-52, 71. -/
structure RuleRow where
  schema : Str
  name : Str
  update : Str
  delete : Str
deriving DecidableEq, Repr

/-- A row of `pg_indexes`, the columns used at 96-107. -/
structure IndexRow where
  schema : Str
  name : Str
  definition : Str
deriving DecidableEq, Repr

/-- The views. `pkg/show/postgres/show_create_all_tables.go:37, 56, 66, 71, 99`. -/
structure Views where
  columns : List ColumnRow
  constraints : List ConstraintRow
  keys : List KeyRow
  rules : List RuleRow
  indexes : List IndexRow
deriving DecidableEq, Repr

/-- The text of a column: 30-33. -/
def columnDef (c : ColumnRow) : Str :=
  c.column ++ s%" " ++ c.dataType ++
    (match c.maxLength with
      | some n => s%"(" ++ n ++ s%")"
      | none => []) ++
    (if c.isNullable = s%"NO" then s%" NOT NULL" else []) ++
    (match c.default with
      | some d => s%" DEFAULT " ++ d
      | none => [])

/-- The separator `',' || E'\n' || '  '`: 34, 53. -/
def between : Str := s%",\n  "

/-- `column_defs` of one group of the subquery `clmn`: 26-42. -/
def columnDefs (v : Views) (schema table : Str) : Str :=
  join between (((v.columns.filter fun c => decide (c.schema = schema ∧ c.table = table)).insertionSort
    fun a b => a.position ≤ b.position).map columnDef)

/-- The groups of the subquery `clmn`, 36-41: the names of the tables that have columns. -/
def tableNames (v : Views) (schema : Str) : List Str :=
  ((v.columns.filter fun c => decide (c.schema = schema)).map (·.table)).dedup

/-- `column_names` of the subquery `kcu` for one constraint, 57-69; `none` if there is no such group, for which the join has no row. -/
def keyColumns (v : Views) (c : ConstraintRow) : Option Str :=
  match v.keys.filter fun k => decide (k.schema = c.schema ∧ k.table = c.table ∧ k.name = c.name) with
  | [] => none
  | l => some (join s%", " ((l.insertionSort fun a b => a.position ≤ b.position).map (·.column)))

/-- The left join with `referential_constraints`, by the name alone: 70-71. -/
def constraintRules (v : Views) (c : ConstraintRow) : List (Option RuleRow) :=
  match v.rules.filter fun r => decide (c.name = r.name) with
  | [] => [none]
  | l => l.map some

/-- The text of a constraint: 50-52.  The two rules are never null in the view. -/
def constraintDef (c : ConstraintRow) (columns : Str) (r : Option RuleRow) : Str :=
  s%"CONSTRAINT " ++ c.name ++ s%" " ++ c.type ++ s%" (" ++ columns ++ s%")" ++
    (match r with
      | some r => s%" ON UPDATE " ++ r.update ++ (s%" ON DELETE " ++ r.delete)
      | none => [])

/-- The texts of the constraints of a table, the rows that the subquery `cnst` aggregates: 46-76. -/
def constraintTexts (v : Views) (schema table : Str) : List Str :=
  (v.constraints.filter fun c => decide (c.schema = schema ∧ c.table = table ∧
    c.type ∈ [s%"PRIMARY KEY", s%"FOREIGN KEY", s%"UNIQUE"])).flatMap fun c =>
      match keyColumns v c with
      | none => []
      | some cols => (constraintRules v c).map (constraintDef c cols)

/-- `create_statement` of one row of the first query: 20-22. -/
def createStatement (v : Views) (schema table : Str) : Str :=
  s%"CREATE TABLE " ++ schema ++ s%"." ++ table ++ s%" (" ++ s%"\n" ++ s%"  " ++ columnDefs v schema table ++
    (match constraintTexts v schema table with
      | [] => []
      | l => s%"," ++ s%"\n" ++ s%"  " ++ join between l) ++ s%"\n" ++ s%");"

/-- `formatShowCreateAllTables`, 18-80, with the order at 77-78. -/
def selectTables (v : Views) (schema : Str) : List Str :=
  ((tableNames v schema).insertionSort fun a b => a ≤ b).map (createStatement v schema)

/-- `formatShowCreateAllIndexes`: 95-107. -/
def selectIndexes (v : Views) (schema : Str) : List Str :=
  (v.indexes.filter fun i => decide (i.schema = schema ∧
    i.name ∉ (v.constraints.filter fun c => decide (c.schema = schema)).map (·.name))).map (·.definition)

/-- `ShowCreateAllTables`: 128-159.  The name of the schema is put into the queries as it is (143, 151); a name with a quote, which would
end the string there, is not modelled. -/
def showTables (v : Views) (schema : Str) : Str :=
  (selectTables v schema).flatMap (fun s => s ++ s%"\n") ++ (selectIndexes v schema).flatMap (fun s => s ++ s%";\n")

end Ddl.Pg.Show
