import Verif.Spec.ShowText
import Verif.Pg.Show
import Verif.Pg.Ast
import Verif.Spec.Variants

/-!
# Specification vocabulary: what a PostgreSQL database holds, and the schema it has

A catalogue is given twice: as the rows of the views (`Holds`) and as the statements that create it (`stmts`).
-/

namespace Ddl.Pg.Show
open Spec

/-! ## Default values -/

/-- The type of a token is a comparison sign. -/
def IsCmp (t : Token) : Prop := t.type ∈ [.EQUAL, .GREATER, .LESS]

/-- A name without quotes. -/
def plain (s : Str) : Ident := ⟨s, [], s⟩

/-- The constants `NULL`, `TRUE` and `FALSE`. -/
def IsConstant (t : Token) : Prop := t.type ∈ [.NULL, .TRUE, .FALSE]

instance (t : Token) : Decidable (IsConstant t) := by unfold IsConstant; infer_instance

/-- A token within brackets, as a word. -/
def innerWord (t : Token) : Ident := if IsConstant t then plain t.type.str else newRawIdent .postgres t.lit

/-- `Inner ts ws`: the tokens `ts`, with brackets around them, are read as the words `ws`.  Two comparison signs are one word. -/
inductive Inner : List Token → List Ident → Prop
  | nil : Inner [] []
  | word (t : Token) (r : List Token) (w : List Ident) : ¬ IsCmp t → t.type ∉ [.OPEN_PAREN, .CLOSE_PAREN, .EOF] → Inner r w →
      Inner (t :: r) (innerWord t :: w)
  | sign (t : Token) (r : List Token) (w : List Ident) : IsCmp t → (∀ u ∈ r.head?, ¬ IsCmp u) → Inner r w →
      Inner (t :: r) (newRawIdent .postgres t.lit :: w)
  | signs (t u : Token) (r : List Token) (w : List Ident) : IsCmp t → IsCmp u → Inner r w →
      Inner (t :: u :: r) (newRawIdent .postgres (t.lit ++ u.lit) :: w)
  | group (a b : List Token) (v w : List Ident) : Inner a v → Inner b w →
      Inner (⟨.OPEN_PAREN, s%"("⟩ :: (a ++ ⟨.CLOSE_PAREN, s%")"⟩ :: b)) (plain s%"(" :: (v ++ plain s%")" :: w))

/-- Tokens of a default value that are words by themselves: names, operators, and, behind another token, types. -/
def valueTypes (first : Bool) : List TokType :=
  [.IDENT, .EQUAL, .GREATER, .LESS, .PLUS, .MINUS, .ASTERISK, .SLASH, .STRING_CONCAT, .TYPECAST] ++
    if first then [] else [.BOOLEAN, .SMALLINT, .INTEGER, .BIGINT, .DECIMAL, .NUMERIC, .REAL, .DOUBLE, .SMALLSERIAL, .SERIAL, .BIGSERIAL,
      .UUID, .JSONB, .CHARACTER, .VARYING, .TEXT, .TIMESTAMP, .TIMESTAMPTZ]

/-- `Outer first ts ws`: the tokens `ts` are, as a default value or a part of it, the words `ws`. -/
inductive Outer : Bool → List Token → List Ident → Prop
  | nil : Outer false [] []
  | word (f : Bool) (t : Token) (r : List Token) (w : List Ident) : t.type ∈ valueTypes f → Outer false r w →
      Outer f (t :: r) (newRawIdent .postgres t.lit :: w)
  | constant (f : Bool) (t : Token) (r : List Token) (w : List Ident) : IsConstant t → Outer false r w →
      Outer f (t :: r) (⟨t.type.str, [], t.lit⟩ :: w)
  | group (f : Bool) (a b : List Token) (v w : List Ident) : Inner a v → Outer false b w →
      Outer f (⟨.OPEN_PAREN, s%"("⟩ :: (a ++ ⟨.CLOSE_PAREN, s%")"⟩ :: b)) (plain s%"(" :: (v ++ plain s%")" :: w))

/-- A default value: its text and its words. -/
structure Value where
  text : Str
  words : List Ident
deriving DecidableEq, Repr

/-- The text consists of the words. -/
def Value.Ok (e : Value) : Prop := (∀ c ∈ e.text, c ≠ nul) ∧ ∃ ts, Writes .postgres false e.text ts ∧ Outer true ts e.words

/-! ## Databases -/

/-- The types that the parser knows, as `information_schema` names them. -/
def typeNames : List (Str × TokType) :=
  [(s%"boolean", .BOOLEAN), (s%"smallint", .SMALLINT), (s%"integer", .INTEGER), (s%"bigint", .BIGINT), (s%"numeric", .NUMERIC),
    (s%"real", .REAL), (s%"double precision", .DOUBLE_PRECISION), (s%"uuid", .UUID), (s%"jsonb", .JSONB),
    (s%"character varying", .CHARACTER_VARYING), (s%"text", .TEXT), (s%"timestamp with time zone", .TIMESTAMP_WITH_TIME_ZONE)]

/-- A column. -/
structure Col where
  name : Str
  type : Str × TokType
  /-- the length of a text -/
  size : Option Str
  /-- precision and scale of a number -/
  precision : Option (Str × Str)
  default : Option Value
  notNull : Bool
deriving DecidableEq, Repr

/-- A constraint. -/
inductive Con where
  | primaryKey (name : Str) (columns : List Str)
  | unique (name : Str) (columns : List Str)
  | foreignKey (name : Str) (columns : List Str) (ref : Str) (refColumns : List Str) (update delete : Str)
  | check (name : Str) (words : List Ident)
deriving DecidableEq, Repr

/-- A table, or a view. -/
structure Tbl where
  name : Str
  view : Bool
  columns : List Col
  constraints : List Con
deriving DecidableEq, Repr

/-- An index that does not belong to a constraint. -/
structure Idx where
  name : Str
  table : Str
  unique : Bool
  method : Str
  columns : List Str
deriving DecidableEq, Repr

/-- The schema `public` of a database. -/
structure Db where
  tables : List Tbl
  indexes : List Idx
deriving DecidableEq, Repr

/-- The name of a constraint. -/
def Con.name : Con → Str
  | .primaryKey n _ | .unique n _ | .foreignKey n _ _ _ _ _ | .check n _ => n

/-- The columns listed in `key_column_usage`. -/
def Con.columns : Con → List Str
  | .primaryKey _ l | .unique _ l | .foreignKey _ l _ _ _ _ => l
  | .check _ _ => []

/-- The type of a constraint. -/
def Con.type : Con → Str
  | .primaryKey _ _ => s%"PRIMARY KEY"
  | .unique _ _ => s%"UNIQUE"
  | .foreignKey _ _ _ _ _ _ => s%"FOREIGN KEY"
  | .check _ _ => s%"CHECK"

/-- A primary key or a unique constraint; these have an index. -/
def Con.IsKey : Con → Prop
  | .primaryKey _ _ | .unique _ _ => True
  | _ => False

instance (c : Con) : Decidable c.IsKey := by cases c <;> unfold Con.IsKey <;> infer_instance

/-! ## The rows -/

/-- `public`. -/
def pub : Str := s%"public"

/-- The rows of `columns`, numbered from 1. -/
def Tbl.columnRows (t : Tbl) : List ColumnRow := (t.columns.zipIdx 1).map fun p =>
  ⟨pub, t.name, p.1.name, p.1.type.1, p.1.size, if p.1.notNull then s%"NO" else s%"YES", p.1.default.map (·.text), p.2⟩

/-- The row of `table_constraints`. -/
def Con.row (t : Str) (c : Con) : ConstraintRow := ⟨pub, t, c.name, c.type⟩

/-- The rows of `key_column_usage`, numbered from 1. -/
def Con.keyRows (t : Str) (c : Con) : List KeyRow := (c.columns.zipIdx 1).map fun p => ⟨pub, t, c.name, p.1, p.2⟩

/-- What `update_rule` and `delete_rule` may be. -/
def ruleNames : List Str := [s%"CASCADE", s%"SET NULL", s%"SET DEFAULT", s%"RESTRICT", s%"NO ACTION"]

/-- The row of `referential_constraints`. -/
def Con.ruleRow : Con → Option RuleRow
  | .foreignKey n _ _ _ u d => some ⟨pub, n, u, d⟩
  | _ => none

/-- The row of `pg_indexes`, for names that need no quotes. -/
def Idx.row (i : Idx) : IndexRow := ⟨pub, i.name, s%"CREATE " ++ (if i.unique then s%"UNIQUE " else []) ++ s%"INDEX " ++ i.name ++ s%" ON public." ++
  i.table ++ s%" USING " ++ i.method ++ s%" (" ++ join s%", " i.columns ++ s%")"⟩

/-- The views hold the database.  Rows of other schemas may be there too, and `NOT NULL` shows as `CHECK` constraints of its own. -/
structure Holds (v : Views) (db : Db) : Prop where
  columns : ∀ t ∈ db.tables, (v.columns.filter fun r => decide (r.schema = pub ∧ r.table = t.name)).Perm t.columnRows
  tables : ∀ r ∈ v.columns, r.schema = pub → ∃ t ∈ db.tables, t.name = r.table
  constraints : ∀ t ∈ db.tables, (v.constraints.filter fun r => decide (r.schema = pub ∧ r.table = t.name ∧ r.type ≠ s%"CHECK")) =
    (t.constraints.filter fun c => decide (c.type ≠ s%"CHECK")).map (Con.row t.name)
  constraint : ∀ t ∈ db.tables, ∀ c ∈ t.constraints, c.row t.name ∈ v.constraints
  noConstraint : ∀ r ∈ v.constraints, r.schema = pub → (∃ t ∈ db.tables, ∃ c ∈ t.constraints, r = c.row t.name) ∨
    r.type = s%"CHECK" ∧ s%"_not_null" <:+ r.name
  keys : ∀ t ∈ db.tables, ∀ c ∈ t.constraints,
    (v.keys.filter fun k => decide (k.schema = pub ∧ k.table = t.name ∧ k.name = c.name)).Perm (c.keyRows t.name)
  rules : (v.rules.filter fun r => decide (r.schema = pub)).Perm (db.tables.flatMap fun t => t.constraints.filterMap Con.ruleRow)
  actions : ∀ r ∈ v.rules, r.update ∈ ruleNames ∧ r.delete ∈ ruleNames
  indexes : (v.indexes.filter fun r => decide (r.schema = pub ∧ r.name ∈ db.indexes.map (·.name))) = db.indexes.map Idx.row
  noIndex : ∀ r ∈ v.indexes, r.schema = pub → r.name ∈ db.indexes.map (·.name) ∨
    ∃ t ∈ db.tables, ∃ c ∈ t.constraints, c.IsKey ∧ c.name = r.name

/-- Views with the rows of the database and no others, apart from the indexes of the constraints. -/
def Db.views (db : Db) : Views where
  columns := db.tables.flatMap Tbl.columnRows
  constraints := db.tables.flatMap fun t => t.constraints.map (Con.row t.name)
  keys := db.tables.flatMap fun t => t.constraints.flatMap (Con.keyRows t.name)
  rules := db.tables.flatMap fun t => t.constraints.filterMap Con.ruleRow
  indexes := db.indexes.map Idx.row

/-! ## The statements -/

/-- The name of a table with its schema. -/
def qualified (s : Str) : ObjectName := ⟨some (plain pub), plain s⟩

/-- The column as the parser reads it. -/
def Col.column (c : Col) : Column :=
  ⟨plain c.name, ⟨c.type.1, c.type.2, (c.size.map plain).toList ++
      match c.precision with
      | some p => [plain p.1, plain s%",", plain p.2]
      | none => []⟩,
    c.default.map fun e => ⟨some e.words⟩, c.notNull⟩

/-- The constraint as the parser reads it. -/
def Con.constraint : Con → Constraint
  | .primaryKey n l => .primaryKey (plain n) (l.map plain)
  | .unique n l => .unique (plain n) (l.map plain)
  | .foreignKey n l r m u d => .foreignKey (plain n) (l.map plain) (plain r) (m.map plain) (s%"ON UPDATE " ++ u ++ s%" ON DELETE " ++ d)
  | .check n e => .check (plain n) e

/-- `CREATE TABLE` of the table. -/
def Tbl.createTable (t : Tbl) : CreateTable := ⟨[], false, qualified t.name, t.columns.map Col.column, t.constraints.map Con.constraint, []⟩

/-- `CREATE INDEX` of the index. -/
def Idx.createIndex (i : Idx) : CreateIndex := ⟨[], i.unique, false, plain i.name, qualified i.table, [plain i.method], i.columns.map plain⟩

/-- The statements that create the database: the tables, then the indexes. -/
def stmts (db : Db) : List PStmt :=
  (db.tables.filter fun t => !t.view).map (fun t => .createTable t.createTable) ++ db.indexes.map (fun i => .createIndex i.createIndex)

/-! ## Which databases -/

/-- The text can be written without quotes: a word without dots and without capital letters that is no keyword of `ddlctl`.  (The server has
more keywords, such as `order`; they are read back all the same.) -/
def IsPlain (s : Str) : Prop := s ≠ [] ∧ (∀ c ∈ s, WordChar c ∧ c ≠ '.' ∧ ¬ c.isUpper) ∧ ¬ IsKeyword .postgres s

/-- The column can be shown: its name needs no quotes, and the parser knows its type. -/
structure Col.Plain (c : Col) : Prop where
  name : IsPlain c.name
  type : c.type ∈ typeNames
  size : ∀ n ∈ c.size, IsPlain n
  default : ∀ e ∈ c.default, e.Ok

/-- The table can be shown. -/
structure Tbl.Plain (t : Tbl) : Prop where
  name : IsPlain t.name
  columns : t.columns ≠ [] ∧ ∀ c ∈ t.columns, c.Plain
  constraint : ∀ c ∈ t.constraints, IsPlain c.name ∧ ∀ x ∈ c.columns, IsPlain x
  constraintColumns : ∀ c ∈ t.constraints, c.type ≠ s%"CHECK" → c.columns ≠ []
  constraintNames : (t.constraints.map (·.name)).Nodup

/-- The database can be shown.  Tables come in the order of their names. -/
structure Db.Plain (db : Db) : Prop where
  tables : ∀ t ∈ db.tables, t.Plain
  sorted : (db.tables.map (·.name)).Pairwise (· < ·)
  index : ∀ i ∈ db.indexes, IsPlain i.name ∧ IsPlain i.table ∧ IsPlain i.method ∧ (∀ c ∈ i.columns, IsPlain c) ∧ ¬ s%"_not_null" <:+ i.name
  indexKey : ∀ i ∈ db.indexes, ∀ t ∈ db.tables, ∀ c ∈ t.constraints, c.IsKey → c.name ≠ i.name

/-- There is no foreign key. -/
def Db.NoForeignKey (db : Db) : Prop := ∀ t ∈ db.tables, ∀ c ∈ t.constraints, c.type ≠ s%"FOREIGN KEY"

/-- No foreign key of any schema has the name of a key of this one. -/
def Undisturbed (v : Views) (db : Db) : Prop := ∀ r ∈ v.rules, ∀ t ∈ db.tables, ∀ c ∈ t.constraints, c.IsKey → c.name ≠ r.name

/-- No foreign key and no check constraint, no number with precision, and no view. -/
structure Db.Simple (db : Db) : Prop where
  constraints : ∀ t ∈ db.tables, ∀ c ∈ t.constraints, c.IsKey
  precision : ∀ t ∈ db.tables, ∀ c ∈ t.columns, c.precision = none
  view : ∀ t ∈ db.tables, t.view = false

/-! ## What is seen of a database -/

/-- The table without precisions and without constraints other than keys. -/
def Tbl.seen (t : Tbl) : CreateTable :=
  ⟨[], false, qualified t.name, t.columns.map fun c => { c with precision := none : Col }.column,
    (t.constraints.filter fun c => decide c.IsKey).map Con.constraint, []⟩

/-- Views are seen as tables, and indexes that bear the name of a constraint are not seen. -/
def seen (db : Db) : List PStmt :=
  db.tables.map (fun t => .createTable t.seen) ++
    (db.indexes.filter fun i => decide (∀ t ∈ db.tables, ∀ c ∈ t.constraints, c.name ≠ i.name)).map (fun i => .createIndex i.createIndex)

end Ddl.Pg.Show
