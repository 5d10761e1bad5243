import Verif.Stmt

/-!
# MySQL: syntax tree and printing

`pkg/ddl/mysql/ddl.go`, `ddl_table.go`, `ddl_table_create.go`, `ddl_table_alter.go`, `ddl_index_create.go`.
Line numbers are those of `pkg/ddl/mysql`.
-/

namespace Ddl.My

/-- `ColumnIdent` and `Order`: `ddl.go:82-87`; `order = some desc`. -/
structure ColumnIdent where
  ident : Ident
  order : Option Bool
deriving DecidableEq, Repr

/-- `ColumnIdent.String`: `ddl.go:91-103`. -/
def ColumnIdent.str (i : ColumnIdent) : Str :=
  i.ident.str ++ (if i.order = some true then s%" DESC" else [])

/-- `ColumnIdent.StringForDiff`: `ddl.go:105-115`. -/
def ColumnIdent.diffStr (i : ColumnIdent) : Str :=
  i.ident.diffStr ++ (if i.order = some true then s%" DESC" else [])

/-- `DataType`: `ddl.go:117-121`.  `Expr` nil and `Expr` empty are treated alike by all code that reads it, hence a list.
`Type` is never the empty string when built by the parser. -/
structure DataType where
  name : Str
  type : TokType
  expr : Expr
deriving DecidableEq, Repr

/-- The cases of the switch in `Expr.String` (`ddl_table.go:295-305`) for neighbouring identifiers: what is printed between
`a` and `b`. -/
def exprSep (a b : Ident) : Str :=
  if a.str = s%"(" ∨ b.str = s%"(" ∨ b.str = s%")" ∨ a.str = s%"::" ∨ b.str = s%"::" ∨
    a.str = s%":::" ∨ b.str = s%":::" ∨ b.str = s%"," then []
  else s%" "

/-- `Expr.String`: `ddl_table.go:288-310`; the loop over indices with a look at the predecessor is a recursion that carries the
predecessor. -/
def exprStrFrom (prev : Ident) : Expr → Str
  | [] => []
  | i :: r => exprSep prev i ++ i.str ++ exprStrFrom i r

/-- `Expr.String`: `ddl_table.go:288-310`: from the first word on. -/
def exprStr : Expr → Str
  | [] => []
  | i :: r => i.str ++ exprStrFrom i r

/-- `DataType.String`: `ddl.go:123-132`. -/
def DataType.str (t : DataType) : Str :=
  t.name ++ (if t.expr = [] then [] else s%"(" ++ exprStr t.expr ++ s%")")

/-- `DataType.StringForDiff`: `ddl.go:134-154`. -/
def DataType.diffStr (t : DataType) : Str :=
  t.type.str ++ (if t.expr = [] then [] else s%"(" ++ (t.expr.map Ident.diffStr).flatten ++ s%")")

/-- `Default`: `ddl_table.go:270-272`; `value = none` is the nil `*Expr` (`DEFAULT` without a value). -/
structure Default where
  value : Option Expr
deriving DecidableEq, Repr

/-- `Default.String`: `ddl_table.go:314-322`; the outer `none` is the nil pointer. -/
def defaultStr : Option Default → Str
  | some ⟨some e⟩ => s%"DEFAULT " ++ exprStr e
  | _ => []

/-- `Default.StringForDiff`: `ddl_table.go:324-339`. -/
def defaultDiffStr : Option Default → Str
  | some ⟨some e⟩ => s%"DEFAULT " ++ join s%" " (e.map Ident.diffStr)
  | _ => []

/-- `Ident.String` of a pointer that may be nil: `ddl.go:68-73`. -/
def identStr : Option Ident → Str
  | some i => i.str
  | none => []

/-- `Ident.StringForDiff` of a pointer that may be nil: `ddl.go:75-80`. -/
def identDiffStr : Option Ident → Str
  | some i => i.diffStr
  | none => []

/-- `Column`: `ddl_table.go:258-268`. The parser always sets `Name` and `DataType`. -/
structure Column where
  name : Ident
  dataType : DataType
  characterSet : Option Ident
  collate : Option Ident
  default : Option Default
  notNull : Bool
  autoIncrement : Bool
  onAction : Str
  comment : Str
deriving DecidableEq, Repr

/-- `Column.String`: `ddl_table.go:341-367`. -/
def Column.str (c : Column) : Str :=
  c.name.str ++ s%" " ++ c.dataType.str ++
    (if identStr c.characterSet = [] then [] else s%" CHARACTER SET " ++ identStr c.characterSet) ++
    (if identStr c.collate = [] then [] else s%" COLLATE " ++ identStr c.collate) ++
    (if c.notNull then s%" NOT NULL" else s%" NULL") ++
    (if defaultStr c.default = [] then [] else s%" " ++ defaultStr c.default) ++
    (if c.autoIncrement then s%" AUTO_INCREMENT" else []) ++
    (if c.onAction = [] then [] else s%" " ++ c.onAction) ++
    (if c.comment = [] then [] else s%" COMMENT " ++ c.comment)

/-- `Constraint`: `ddl_table.go:12-18` with its implementations `PrimaryKeyConstraint` (45-48), `ForeignKeyConstraint` (85-91),
`IndexConstraint` (137-141), `CheckConstraint` (180-183).  The parser always sets `Name`, `Ref` and `Expr`. -/
inductive Constraint where
  | primaryKey (name : Ident) (columns : List ColumnIdent)
  | foreignKey (name : Ident) (columns : List ColumnIdent) (ref : Ident) (refColumns : List ColumnIdent) (onAction : Str)
  | index (name : Ident) (isUnique : Bool) (columns : List ColumnIdent)
  | check (name : Ident) (expr : Expr)
deriving DecidableEq, Repr

/-- `GetName`: `ddl_table.go:53,96,146,188`. -/
def Constraint.name : Constraint → Ident
  | .primaryKey n _ => n
  | .foreignKey n _ _ _ _ => n
  | .index n _ _ => n
  | .check n _ => n

/-- `stringz.JoinStringers(", ", columns...)`. `ddl_table.go:62, 104, 106, 156`, `ddl_index_create.go:53`. -/
def columnsStr (l : List ColumnIdent) : Str := join s%", " (l.map ColumnIdent.str)

/-- The loops joining `StringForDiff` of columns with ", ", e.g. `ddl_table.go:74-79`. -/
def columnsDiffStr (l : List ColumnIdent) : Str := join s%", " (l.map ColumnIdent.diffStr)

/-- `Constraint.String`: `ddl_table.go:55-64` (primary key), `98-108` (foreign key, without `OnAction`), `148-158` (index),
`190-198` (check). -/
def Constraint.str : Constraint → Str
  | .primaryKey _ cs => s%"PRIMARY KEY" ++ s%" (" ++ columnsStr cs ++ s%")"
  | .foreignKey n cs r rcs _ =>
    s%"CONSTRAINT " ++ n.str ++ s%" " ++ s%"FOREIGN KEY" ++ s%" (" ++ columnsStr cs ++ s%")" ++
      s%" REFERENCES " ++ r.str ++ s%" (" ++ columnsStr rcs ++ s%")"
  | .index n uq cs => (if uq then s%"UNIQUE " else []) ++ s%"KEY " ++ n.str ++ s%" " ++ s%"(" ++ columnsStr cs ++ s%")"
  | .check n e => s%"CONSTRAINT " ++ n.str ++ s%" " ++ s%"CHECK " ++ exprStr e

/-- `Constraint.StringForDiff`: `ddl_table.go:66-82`, `110-134`, `160-177`, `200-213`. -/
def Constraint.diffStr : Constraint → Str
  | .primaryKey _ cs => s%"PRIMARY KEY" ++ s%" (" ++ columnsDiffStr cs ++ s%")"
  | .foreignKey n cs r rcs _ =>
    s%"CONSTRAINT " ++ n.diffStr ++ s%" " ++ s%"FOREIGN KEY" ++ s%" (" ++ columnsDiffStr cs ++ s%")" ++
      s%" REFERENCES " ++ r.name ++ s%" (" ++ columnsDiffStr rcs ++ s%")"
  | .index n uq cs =>
    (if uq then s%"UNIQUE " else []) ++ s%"KEY " ++ n.diffStr ++ s%" " ++ s%"(" ++ columnsDiffStr cs ++ s%")"
  | .check n e => s%"CONSTRAINT " ++ n.diffStr ++ s%" " ++ s%"CHECK " ++ join s%" " (e.map Ident.diffStr)

/-- The type test of the sort in `Constraints.Append`: `ddl_table.go:32`. -/
def Constraint.isPrimaryKey : Constraint → Bool
  | .primaryKey .. => true
  | _ => false

/-- `sort.Slice` with `less(left, _) = left is a primary key`: `ddl_table.go:31-39`.  Go sorts slices of at most 12 elements by
insertion: each element in turn is moved down while it is "less" than its left neighbour, so a primary key moves to
the front.  For longer slices Go uses pattern-defeating quicksort, which is not modelled: the comparison is no strict order and
the result is then unspecified. -/
def sortPrimaryKey (l : List Constraint) : List Constraint :=
  l.foldl (fun acc c => if c.isPrimaryKey then c :: acc else acc ++ [c]) []

/-- The loop of `Constraints.Append`: `ddl_table.go:23-28`; `none` if no constraint has that name. -/
def replaceConstraint : List Constraint → Constraint → Option (List Constraint)
  | [], _ => none
  | x :: r, c =>
    if x.name.name = c.name.name then some (c :: r) else (replaceConstraint r c).map (x :: ·)

/-- `Constraints.Append`: `ddl_table.go:22-42`. -/
def appendConstraint (l : List Constraint) (c : Constraint) : List Constraint :=
  match replaceConstraint l c with
  | some l' => l'
  | none => sortPrimaryKey (l ++ [c])

/-- `Option`: `ddl_table.go:371-374`; the parser always sets `Value`. -/
structure TableOption where
  name : Str
  value : Expr
deriving DecidableEq, Repr

/-- `Option.String`: `ddl_table.go:376-381`. -/
def TableOption.str (o : TableOption) : Str := o.name ++ s%"=" ++ exprStr o.value

/-- `Option.StringForDiff`: `ddl_table.go:383-395`. -/
def TableOption.diffStr (o : TableOption) : Str := o.name ++ s%"=" ++ join s%" " (o.value.map Ident.diffStr)

/-- `CreateTableStmt`: `ddl_table_create.go:13-21`, without `Indent`, which is never read. -/
structure CreateTable where
  comment : Str
  ifNotExists : Bool
  name : ObjectName
  columns : List Column
  constraints : List Constraint
  options : List TableOption
deriving DecidableEq, Repr

/-- Lines of an item list: each item indented, followed by ",\n" or, for the last one, by `last`.
`ddl_table_create.go:45-65`. -/
def itemLines (last : Str) : List Str → Str
  | [] => []
  | [a] => indent ++ a ++ last
  | a :: b :: r => indent ++ a ++ s%",\n" ++ itemLines last (b :: r)

/-- `CreateTableStmt.String`: `ddl_table_create.go:28-73`; `Options.String`: `ddl_table.go:401-410`. -/
def CreateTable.str (t : CreateTable) : Str :=
  commentStr t.comment ++ s%"CREATE TABLE " ++ (if t.ifNotExists then s%"IF NOT EXISTS " else []) ++
    t.name.str ++ s%" (\n" ++
    itemLines (if t.constraints = [] then s%"\n" else s%",\n") (t.columns.map Column.str) ++
    itemLines s%"\n" (t.constraints.map Constraint.str) ++ s%")" ++
    (if t.options = [] then [] else s%" " ++ join s%" " (t.options.map TableOption.str)) ++ s%";\n"

/-- `CreateIndexStmt`: `ddl_index_create.go:16-24`. -/
structure CreateIndex where
  comment : Str
  isUnique : Bool
  ifNotExists : Bool
  name : ObjectName
  tableName : ObjectName
  using_ : List Ident
  columns : List ColumnIdent
deriving DecidableEq, Repr

/-- `CreateIndexStmt.String`: `ddl_index_create.go:30-55`. -/
def CreateIndex.str (i : CreateIndex) : Str :=
  commentStr i.comment ++ s%"CREATE " ++ (if i.isUnique then s%"UNIQUE " else []) ++ s%"INDEX " ++
    (if i.ifNotExists then s%"IF NOT EXISTS " else []) ++ i.name.str ++ s%" ON " ++ i.tableName.str ++
    (if i.using_ = [] then [] else s%" USING " ++ join s%" " (i.using_.map Ident.str)) ++
    s%" (" ++ columnsStr i.columns ++ s%");\n"

/-- `CreateIndexStmt.StringForDiff`: `ddl_index_create.go:57-74`. -/
def CreateIndex.diffStr (i : CreateIndex) : Str :=
  s%"CREATE " ++ (if i.isUnique then s%"UNIQUE " else []) ++ s%"INDEX " ++ i.name.diffStr ++ s%" ON " ++
    i.tableName.diffStr ++ s%" (" ++ columnsDiffStr i.columns ++ s%");\n"

/-- `ModifyColumn`: `ddl_table_alter.go:166-176`. -/
structure Modify where
  name : Ident
  dataType : DataType
  characterSet : Option Ident
  collate : Option Ident
  notNull : Bool
  autoIncrement : Bool
  default : Option Default
  onAction : Str
  comment : Str
deriving DecidableEq, Repr

/-- `AlterTableAction`: `ddl_table_alter.go:112-234`. -/
inductive Action where
  | renameTable (newName : ObjectName)
  | renameConstraint (name newName : Ident)
  | renameColumn (name newName : Ident)
  | addColumn (column : Column)
  | dropColumn (name : Ident)
  | modifyColumn (m : Modify)
  | dropDefault (name : Ident)
  | addConstraint (constraint : Constraint) (notValid : Bool)
  | dropConstraint (name : Ident)
  | alterConstraint (name : Ident) (deferrable initiallyDeferred : Bool)
  | tableOption (o : TableOption)
deriving DecidableEq, Repr

/-- `AlterTableStmt`: `ddl_table_alter.go:14-19`, without `Indent`, which is never read. -/
structure AlterTable where
  comment : Str
  name : ObjectName
  action : Action
deriving DecidableEq, Repr

/-- The case `ModifyColumn` of `AlterTableStmt.String`: `ddl_table_alter.go:52-76`. -/
def Modify.str (a : Modify) : Str :=
  s%"MODIFY " ++ a.name.str ++ s%" " ++ a.dataType.str ++
    (if a.characterSet = none then [] else s%" CHARACTER SET " ++ identStr a.characterSet) ++
    (if a.collate = none then [] else s%" COLLATE " ++ identStr a.collate) ++
    (if a.notNull then s%" NOT NULL" else s%" NULL") ++
    (if a.autoIncrement then s%" AUTO_INCREMENT" else []) ++
    (if a.default = none then [] else s%" " ++ defaultStr a.default) ++
    (if a.onAction = [] then [] else s%" " ++ a.onAction) ++
    (if a.comment = [] then [] else s%" COMMENT " ++ a.comment)

/-- The type switch of `AlterTableStmt.String`: `ddl_table_alter.go:40-105`. -/
def Action.str : Action → Str
  | .renameTable n => s%"RENAME TO " ++ n.str
  | .renameColumn n m => s%"RENAME COLUMN " ++ n.str ++ s%" TO " ++ m.str
  | .renameConstraint n m => s%"RENAME CONSTRAINT " ++ n.str ++ s%" TO " ++ m.str
  | .addColumn c => s%"ADD COLUMN " ++ c.str
  | .dropColumn n => s%"DROP COLUMN " ++ n.str
  | .modifyColumn m => m.str
  | .dropDefault n => s%"ALTER " ++ n.str ++ s%" " ++ s%"DROP DEFAULT"
  | .addConstraint c nv => s%"ADD " ++ c.str ++ (if nv then s%" NOT VALID" else [])
  | .dropConstraint n =>
    s%"DROP " ++ (if n.str = s%"PRIMARY KEY" then s%"PRIMARY KEY" else s%"CONSTRAINT " ++ n.str)
  | .alterConstraint n df idf => s%"ALTER CONSTRAINT " ++ n.str ++ s%" " ++
      (if df then s%"DEFERRABLE" else s%"NOT DEFERRABLE") ++
      (if idf then s%" INITIALLY DEFERRED" else s%" INITIALLY IMMEDIATE")
  | .tableOption o => o.str

/-- `AlterTableStmt.String`: `ddl_table_alter.go:28-108`. -/
def AlterTable.str (a : AlterTable) : Str :=
  commentStr a.comment ++ s%"ALTER TABLE " ++ a.name.str ++ s%" " ++ a.action.str ++ s%";\n"

/-- Statements of the MySQL dialect. `Stmt`: `pkg/ddl/mysql/ddl.go:43-47`. -/
abbrev MStmt := Stmt CreateTable CreateIndex AlterTable ObjectName

end Ddl.My
