import Verif.Spec.RoundTrip
import Verif.Sp.Show
import Verif.Sp.Ast

/-!
# Specification vocabulary: what a database holds, and the schema it has

Spanner. A catalogue is given twice: as the rows of `INFORMATION_SCHEMA` (`Holds`) and as the statements that create it
(`Db.stmts`).
-/

namespace Ddl.Sp.Show
open Spec

/-- The type of a token is a comparison sign. -/
def IsCmp (t : Token) : Prop := t.type ∈ [.EQUAL, .GREATER, .LESS]

/-- Opening and closing brackets match. -/
inductive Balanced : List Token → Prop
  | nil : Balanced []
  | cons (t : Token) (r : List Token) : t.type ∉ [.OPEN_PAREN, .CLOSE_PAREN] → Balanced r → Balanced (t :: r)
  | group (a b : List Token) : Balanced a → Balanced b →
      Balanced (⟨.OPEN_PAREN, s%"("⟩ :: (a ++ ⟨.CLOSE_PAREN, s%")"⟩ :: b))

/-- An expression stored in the database: its text and the tokens the text consists of. -/
structure Text where
  text : Str
  tokens : List Token
deriving DecidableEq, Repr

/-- The text consists of the tokens, brackets match, the text holds no NUL and no operator of two comparison signs. -/
structure Text.Ok (e : Text) : Prop where
  writes : Writes .spanner false e.text e.tokens
  balanced : Balanced e.tokens
  noEof : ∀ t ∈ e.tokens, t.type ≠ .EOF
  noPair : e.tokens.IsChain fun a b => ¬ (IsCmp a ∧ IsCmp b)

/-- The names of the types that the parser knows. -/
def typeNames : List (Str × TokType) :=
  [(s%"BOOL", .BOOL), (s%"INT64", .INT64), (s%"NUMERIC", .NUMERIC), (s%"FLOAT64", .FLOAT64), (s%"JSON", .JSON),
    (s%"STRING", .STRING), (s%"TIMESTAMP", .TIMESTAMP)]

/-- A column. -/
structure Col where
  name : Str
  type : Str × TokType
  size : Option Str
  default : Option Text
  notNull : Bool
  options : List (Str × Text)
deriving DecidableEq, Repr

/-- A secondary index; `true` beside a column means descending. -/
structure Idx where
  name : Str
  unique : Bool
  columns : List (Str × Bool)
  stored : List Str
deriving DecidableEq, Repr

/-- A table. -/
structure Tbl where
  name : Str
  columns : List Col
  key : List (Str × Bool)
  parent : Option Str
  checks : List (Str × Text)
  /-- the column and the number of days -/
  policy : Option (Str × Str)
  indexes : List Idx
deriving DecidableEq, Repr

/-- A database. -/
abbrev Db := List Tbl

/-! ## The rows -/

/-- `SPANNER_TYPE`. -/
def Col.typeText (c : Col) : Str := c.type.1 ++ (match c.size with | some n => s%"(" ++ n ++ s%")" | none => [])

/-- The expression of a row deletion policy. -/
def policyText (p : Str × Str) : Str := s%"OLDER_THAN(" ++ p.1 ++ s%", INTERVAL " ++ p.2 ++ s%" DAY)"

/-- The row of `TABLES`. -/
def Tbl.tableRow (t : Tbl) : TableRow := ⟨[], t.name, t.policy.map policyText⟩

/-- The rows of `COLUMNS`, numbered from 1. -/
def Tbl.columnRows (t : Tbl) : List ColumnRow := (t.columns.zipIdx 1).map fun p =>
  ⟨t.name, p.1.name, p.1.default.map (·.text), if p.1.notNull then s%"NO" else s%"YES", p.1.typeText, p.2⟩

/-- The rows of `COLUMN_OPTIONS`. -/
def Tbl.optionRows (t : Tbl) : List OptionRow :=
  t.columns.flatMap fun c => c.options.map fun o => ⟨t.name, c.name, o.1, o.2.text⟩

/-- The rows of `INDEXES`. -/
def Tbl.indexRows (t : Tbl) : List IndexRow :=
  ⟨t.name, s%"PRIMARY_KEY", s%"PRIMARY_KEY", true⟩ :: t.indexes.map fun i => ⟨t.name, i.name, s%"INDEX", i.unique⟩

/-- The rows of `INDEX_COLUMNS` for the columns of one index, numbered from 1. -/
def partRows (table index type : Str) (cols : List (Str × Bool)) : List IndexColumnRow :=
  (cols.zipIdx 1).map fun p => ⟨table, index, type, p.1.1, some (if p.1.2 then s%"DESC" else s%"ASC"), some p.2⟩

/-- The rows of `INDEX_COLUMNS`. -/
def Tbl.indexColumnRows (t : Tbl) : List IndexColumnRow :=
  partRows t.name s%"PRIMARY_KEY" s%"PRIMARY_KEY" t.key ++ t.indexes.flatMap fun i =>
    partRows t.name i.name s%"INDEX" i.columns ++ i.stored.map fun c => ⟨t.name, i.name, s%"INDEX", c, none, none⟩

/-- The views hold the database: its tables are those of the schema `''`, and the rows about its tables are those given above, in
any order where the queries order them. There may be rows about other tables (those of `INFORMATION_SCHEMA` itself). -/
structure Holds (v : Views) (db : Db) : Prop where
  tables : v.tables.filter (fun r => decide (r.schema = [])) = db.map Tbl.tableRow
  columns : ∀ t ∈ db, (v.columns.filter fun r => decide (r.table = t.name)).Perm t.columnRows
  options : ∀ t ∈ db, v.options.filter (fun r => decide (r.table = t.name)) = t.optionRows
  indexes : ∀ t ∈ db, v.indexes.filter (fun r => decide (r.table = t.name)) = t.indexRows
  indexColumns : ∀ t ∈ db, (v.indexColumns.filter fun r => decide (r.table = t.name)).Perm t.indexColumnRows

/-- Views with the rows of the database and no others. -/
def Db.views (db : Db) : Views :=
  ⟨db.map Tbl.tableRow, db.flatMap Tbl.columnRows, db.flatMap Tbl.optionRows, db.flatMap Tbl.indexRows, db.flatMap Tbl.indexColumnRows⟩

/-! ## The statements -/

/-- A name without quotes. -/
def plain (s : Str) : Ident := ⟨s, [], s⟩

/-- The word that stands for a token in an expression. -/
def wordOf (t : Token) : Ident :=
  match t.type with
  | .NULL => plain s%"NULL"
  | .TRUE => plain s%"TRUE"
  | .FALSE => plain s%"FALSE"
  | _ => newRawIdent .spanner t.lit

/-- Brackets around words. -/
def bracketed (l : List Ident) : List Ident := plain s%"(" :: (l ++ [plain s%")"])

/-- Lists of words with commas between them. -/
def commaSep : List (List Ident) → List Ident
  | [] => []
  | [a] => a
  | a :: b :: r => a ++ plain s%"," :: commaSep (b :: r)

/-- The column as the parser reads it. -/
def Col.column (c : Col) : Column :=
  ⟨plain c.name, ⟨c.type.1, c.type.2, (c.size.map plain).toList⟩, c.default.map fun e => ⟨some (bracketed (e.tokens.map wordOf))⟩,
    c.notNull,
    if c.options = [] then none
    else some (bracketed (commaSep (c.options.map fun o => plain o.1 :: plain s%"=" :: o.2.tokens.map wordOf)))⟩

/-- The primary key. -/
def keyOption (key : List (Str × Bool)) : TableOption :=
  ⟨s%"PRIMARY KEY", bracketed (commaSep (key.map fun k => plain k.1 :: if k.2 then [plain s%"DESC"] else []))⟩

/-- The table in which the table is interleaved. -/
def parentOption (p : Str) : TableOption := ⟨s%"INTERLEAVE IN PARENT", [plain p]⟩

/-- The row deletion policy. -/
def policyOption (p : Str × Str) : TableOption :=
  ⟨s%"ROW DELETION POLICY", [plain s%"(", plain s%"OLDER_THAN", plain s%"(", plain p.1, plain s%",", plain s%"INTERVAL", plain p.2,
    plain s%"DAY", plain s%")", plain s%")"]⟩

/-- `CREATE TABLE` of the table. -/
def Tbl.createTable (t : Tbl) : CreateTable :=
  ⟨[], false, ⟨none, plain t.name⟩, t.columns.map Col.column,
    t.checks.map fun c => .check (some (plain c.1)) (bracketed (c.2.tokens.map wordOf)),
    keyOption t.key :: (t.parent.map parentOption).toList, t.policy.map policyOption⟩

/-- `CREATE INDEX` of an index of the table. `STORING` is no part of the syntax tree. -/
def Tbl.createIndex (t : Tbl) (i : Idx) : CreateIndex :=
  ⟨[], i.unique, false, ⟨none, plain i.name⟩, ⟨none, plain t.name⟩, [],
    i.columns.map fun c => ⟨plain c.1, if c.2 then some true else none⟩⟩

/-- The statements that create the database: each table, followed by its indexes. -/
def stmts (db : Db) : List (Stmt CreateTable CreateIndex AlterTable ObjectName) :=
  db.flatMap fun t => .createTable t.createTable :: t.indexes.map fun i => .createIndex (t.createIndex i)

/-! ## Which databases -/

/-- The text can be written without quotes: a word without dots that is no keyword. -/
def IsPlain (s : Str) : Prop := s ≠ [] ∧ (∀ c ∈ s, WordChar c ∧ c ≠ '.') ∧ ¬ IsKeyword .spanner s

/-- The column can be shown: its names need no quotes, the parser knows its type, and it has no default together with options
unless it is `NOT NULL`. -/
structure Col.Plain (c : Col) : Prop where
  name : IsPlain c.name
  type : c.type ∈ typeNames
  size : ∀ n ∈ c.size, IsPlain n
  default : ∀ e ∈ c.default, e.Ok
  optionName : ∀ o ∈ c.options, IsPlain o.1
  option : ∀ o ∈ c.options, o.2.Ok ∧ ∀ t ∈ o.2.tokens.head?, ¬ IsCmp t
  optionsBehind : c.default = none ∨ c.options = [] ∨ c.notNull = true

/-- The table can be shown: names need no quotes, columns have different names, so have indexes, there is a primary key, and
no index stores further columns. -/
structure Tbl.Plain (t : Tbl) : Prop where
  name : IsPlain t.name
  columns : ∀ c ∈ t.columns, c.Plain
  columnNames : (t.columns.map (·.name)).Nodup
  key : t.key ≠ [] ∧ ∀ k ∈ t.key, IsPlain k.1
  policy : ∀ p ∈ t.policy, IsPlain p.1 ∧ IsPlain p.2
  indexNames : (t.indexes.map (·.name)).Nodup
  index : ∀ i ∈ t.indexes, IsPlain i.name ∧ i.name ≠ s%"PRIMARY_KEY" ∧ ∀ c ∈ i.columns, IsPlain c.1
  stored : ∀ i ∈ t.indexes, i.stored = []

/-- The table has at most one secondary index, no column in descending order, no `CHECK`, and is not interleaved. -/
structure Tbl.Simple (t : Tbl) : Prop where
  indexes : t.indexes.length ≤ 1
  key : ∀ k ∈ t.key, k.2 = false
  index : ∀ i ∈ t.indexes, ∀ c ∈ i.columns, c.2 = false
  checks : t.checks = []
  parent : t.parent = none

/-- The database can be shown, and its tables have different names. -/
structure Db.Plain (db : Db) : Prop where
  tables : ∀ t ∈ db, t.Plain
  names : (db.map (·.name)).Nodup

end Ddl.Sp.Show
