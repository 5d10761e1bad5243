import Verif.Stmt

/-!
# PostgreSQL: syntax tree and printing

`pkg/ddl/postgres/ddl.go`, `ddl_table.go`, `ddl_table_create.go`, `ddl_table_alter.go`, `ddl_index_create.go`.
`ColumnIdent` (`ddl.go:82-96`) is a wrapper around one `Ident` without further content; it is modelled by `Ident`.
-/

namespace Ddl.Pg

/-- `DataType`: `ddl.go:98-102`.  `Expr` nil and `Expr` empty are treated alike by all code that reads it, hence a list.
`Type` is never the empty string when built by the parser. -/
structure DataType where
  name : Str
  type : TokType
  expr : Expr
deriving DecidableEq, Repr

/-- The cases of the switch in `Expr.String` (`ddl_table.go:277-288`) for neighbouring identifiers: what is printed between
`a` and `b`. -/
def exprSep (a b : Ident) : Str :=
  if a.str = s%"||" ∨ b.str = s%"||" then s%" "
  else if a.str = s%"(" ∨ b.str = s%"(" ∨ b.str = s%")" ∨ a.str = s%"::" ∨ b.str = s%"::" ∨ b.str = s%"," then []
  else s%" "

/-- `Expr.String`: `ddl_table.go:270-293`; the loop over indices with a look at the predecessor is a recursion that carries the
predecessor. -/
def exprStrFrom (prev : Ident) : Expr → Str
  | [] => []
  | i :: r => exprSep prev i ++ i.str ++ exprStrFrom i r

/-- `Expr.String`: `ddl_table.go:270-293`: from the first word on. -/
def exprStr : Expr → Str
  | [] => []
  | i :: r => i.str ++ exprStrFrom i r

/-- `DataType.String`: `ddl.go:104-113`. -/
def DataType.str (t : DataType) : Str :=
  t.name ++ (if t.expr = [] then [] else s%"(" ++ exprStr t.expr ++ s%")")

/-- `DataType.StringForDiff`: `ddl.go:115-135`. -/
def DataType.diffStr (t : DataType) : Str :=
  t.type.str ++ (if t.expr = [] then [] else s%"(" ++ (t.expr.map Ident.diffStr).flatten ++ s%")")

/-- `Default`: `ddl_table.go:252-254`; `value = none` is the nil `*Expr` (`DEFAULT` without a value). -/
structure Default where
  value : Option Expr
deriving DecidableEq, Repr

/-- `Default.String`: `ddl_table.go:297-305`; the outer `none` is the nil pointer. -/
def defaultStr : Option Default → Str
  | some ⟨some e⟩ => s%"DEFAULT " ++ exprStr e
  | _ => []

/-- `Default.StringForDiff`: `ddl_table.go:307-322`. -/
def defaultDiffStr : Option Default → Str
  | some ⟨some e⟩ => s%"DEFAULT " ++ join s%" " (e.map Ident.diffStr)
  | _ => []

/-- `Column`: `ddl_table.go:245-250`. The parser always sets `Name` and `DataType`. -/
structure Column where
  name : Ident
  dataType : DataType
  default : Option Default
  notNull : Bool
deriving DecidableEq, Repr

/-- `Column.String`: `ddl_table.go:324-334`. -/
def Column.str (c : Column) : Str :=
  c.name.str ++ s%" " ++ c.dataType.str ++
    (if defaultStr c.default = [] then [] else s%" " ++ defaultStr c.default) ++
    (if c.notNull then s%" NOT NULL" else [])

/-- `Constraint`: `ddl_table.go:11-17` with its implementations `PrimaryKeyConstraint` (32-36), `ForeignKeyConstraint` (70-77),
`UniqueConstraint` (128-132), `CheckConstraint` (166-170).  The parser always sets `Name`, `Ref` and `Expr`. -/
inductive Constraint where
  | primaryKey (name : Ident) (columns : List Ident)
  | foreignKey (name : Ident) (columns : List Ident) (ref : Ident) (refColumns : List Ident) (onAction : Str)
  | unique (name : Ident) (columns : List Ident)
  | check (name : Ident) (expr : Expr)
deriving DecidableEq, Repr

/-- `GetName`: `ddl_table.go:41,82,137,175`. -/
def Constraint.name : Constraint → Ident
  | .primaryKey n _ => n
  | .foreignKey n _ _ _ _ => n
  | .unique n _ => n
  | .check n _ => n

/-- `stringz.JoinStringers(", ", columns...)`. `ddl_table.go:49, 90, 92, 145`, `ddl_index_create.go:52`. -/
def columnsStr (l : List Ident) : Str := join s%", " (l.map Ident.str)

/-- The loops joining `StringForDiff` of columns with ", ", e.g. `ddl_table.go:60-65`. -/
def columnsDiffStr (l : List Ident) : Str := join s%", " (l.map Ident.diffStr)

/-- `Constraint.String`: `ddl_table.go:43-51` (primary key), `84-97` (foreign key), `139-147` (unique), `177-185` (check). -/
def Constraint.str : Constraint → Str
  | .primaryKey n cs => s%"CONSTRAINT " ++ n.str ++ s%" " ++ s%"PRIMARY KEY" ++ s%" (" ++ columnsStr cs ++ s%")"
  | .foreignKey n cs r rcs act =>
    s%"CONSTRAINT " ++ n.str ++ s%" " ++ s%"FOREIGN KEY" ++ s%" (" ++ columnsStr cs ++ s%")" ++
      s%" REFERENCES " ++ r.str ++ s%" (" ++ columnsStr rcs ++ s%")" ++ (if act = [] then [] else s%" " ++ act)
  | .unique n cs => s%"CONSTRAINT " ++ n.str ++ s%" " ++ s%"UNIQUE " ++ s%"(" ++ columnsStr cs ++ s%")"
  | .check n e => s%"CONSTRAINT " ++ n.str ++ s%" " ++ s%"CHECK " ++ exprStr e

/-- `Constraint.StringForDiff`: `ddl_table.go:53-68`, `99-126`, `149-164`, `187-200`. -/
def Constraint.diffStr : Constraint → Str
  | .primaryKey n cs => s%"CONSTRAINT " ++ n.diffStr ++ s%" " ++ s%"PRIMARY KEY" ++ s%" (" ++ columnsDiffStr cs ++ s%")"
  | .foreignKey n cs r rcs act =>
    s%"CONSTRAINT " ++ n.diffStr ++ s%" " ++ s%"FOREIGN KEY" ++ s%" (" ++ columnsDiffStr cs ++ s%")" ++
      s%" REFERENCES " ++ r.name ++ s%" (" ++ columnsDiffStr rcs ++ s%")" ++ (if act = [] then [] else s%" " ++ act)
  | .unique n cs => s%"CONSTRAINT " ++ n.diffStr ++ s%" " ++ s%"UNIQUE " ++ s%"(" ++ columnsDiffStr cs ++ s%")"
  | .check n e => s%"CONSTRAINT " ++ n.diffStr ++ s%" " ++ s%"CHECK " ++ join s%" " (e.map Ident.diffStr)

/-- `Constraints.Append`: `ddl_table.go:21-30`: replace the first constraint of that name, otherwise append. -/
def appendConstraint : List Constraint → Constraint → List Constraint
  | [], c => [c]
  | x :: r, c => if x.name.name = c.name.name then c :: r else x :: appendConstraint r c

/-- `Option`: `ddl_table.go:338-341`; the parser never produces one. -/
structure TableOption where
  name : Str
  value : Option Ident
deriving DecidableEq, Repr

/-- `Option.String`: `ddl_table.go:343-348`. -/
def TableOption.str (o : TableOption) : Str :=
  match o.value with
  | none => []
  | some v => o.name ++ s%" " ++ v.str

/-- `CreateTableStmt`: `ddl_table_create.go:13-21`, without `Indent`, which is never read. -/
structure CreateTable where
  comment : Str
  ifNotExists : Bool
  name : ObjectName
  columns : List Column
  constraints : List Constraint
  options : List TableOption
deriving DecidableEq, Repr

/-- Lines of an item list: each item indented, followed by ",\n" or, for the last one, by `last`.
`ddl_table_create.go:45-65`. -/
def itemLines (last : Str) : List Str → Str
  | [] => []
  | [a] => indent ++ a ++ last
  | a :: b :: r => indent ++ a ++ s%",\n" ++ itemLines last (b :: r)

/-- `CreateTableStmt.String`: `ddl_table_create.go:28-80`. -/
def CreateTable.str (t : CreateTable) : Str :=
  commentStr t.comment ++ s%"CREATE TABLE " ++ (if t.ifNotExists then s%"IF NOT EXISTS " else []) ++
    t.name.str ++ s%" (\n" ++
    itemLines (if t.constraints = [] then s%"\n" else s%",\n") (t.columns.map Column.str) ++
    itemLines s%"\n" (t.constraints.map Constraint.str) ++ s%")" ++
    (if t.options = [] then [] else s%"\n" ++ join s%",\n" (t.options.map TableOption.str)) ++ s%";\n"

/-- `CreateIndexStmt`: `ddl_index_create.go:15-23`. -/
structure CreateIndex where
  comment : Str
  isUnique : Bool
  ifNotExists : Bool
  name : Ident
  tableName : ObjectName
  using_ : List Ident
  columns : List Ident
deriving DecidableEq, Repr

/-- `CreateIndexStmt.String`: `ddl_index_create.go:29-54`. -/
def CreateIndex.str (i : CreateIndex) : Str :=
  commentStr i.comment ++ s%"CREATE " ++ (if i.isUnique then s%"UNIQUE " else []) ++ s%"INDEX " ++
    (if i.ifNotExists then s%"IF NOT EXISTS " else []) ++ i.name.str ++ s%" ON " ++ i.tableName.str ++
    (if i.using_ = [] then [] else s%" USING " ++ join s%" " (i.using_.map Ident.str)) ++
    s%" (" ++ columnsStr i.columns ++ s%");\n"

/-- `CreateIndexStmt.StringForDiff`: `ddl_index_create.go:56-73`. -/
def CreateIndex.diffStr (i : CreateIndex) : Str :=
  s%"CREATE " ++ (if i.isUnique then s%"UNIQUE " else []) ++ s%"INDEX " ++ i.name.diffStr ++ s%" ON " ++
    i.tableName.diffStr ++ s%" (" ++ columnsDiffStr i.columns ++ s%");\n"

/-- `AlterTableAction`: `ddl_table_alter.go:87-214`. -/
inductive Action where
  | renameTable (newName : ObjectName)
  | renameConstraint (name newName : Ident)
  | renameColumn (name newName : Ident)
  | addColumn (column : Column)
  | dropColumn (name : Ident)
  | setDataType (name : Ident) (dataType : DataType)
  | setDefault (name : Ident) (default : Option Default)
  | dropDefault (name : Ident)
  | setNotNull (name : Ident)
  | dropNotNull (name : Ident)
  | addConstraint (constraint : Constraint) (notValid : Bool)
  | dropConstraint (name : Ident)
  | alterConstraint (name : Ident) (deferrable initiallyDeferred : Bool)
deriving DecidableEq, Repr

/-- `AlterTableStmt`: `ddl_table_alter.go:13-18`, without `Indent`, which is never read. -/
structure AlterTable where
  comment : Str
  name : ObjectName
  action : Action
deriving DecidableEq, Repr

/-- The type switch of `AlterTableStmt.String`: `ddl_table_alter.go:39-80`. -/
def Action.str : Action → Str
  | .renameTable n => s%"RENAME TO " ++ n.str
  | .renameColumn n m => s%"RENAME COLUMN " ++ n.str ++ s%" TO " ++ m.str
  | .renameConstraint n m => s%"RENAME CONSTRAINT " ++ n.str ++ s%" TO " ++ m.str
  | .addColumn c => s%"ADD COLUMN " ++ c.str
  | .dropColumn n => s%"DROP COLUMN " ++ n.str
  | .setDataType n t => s%"ALTER COLUMN " ++ n.str ++ s%" SET DATA TYPE " ++ t.str
  | .setDefault n d => s%"ALTER COLUMN " ++ n.str ++ s%" SET " ++ defaultStr d
  | .dropDefault n => s%"ALTER COLUMN " ++ n.str ++ s%" DROP DEFAULT"
  | .setNotNull n => s%"ALTER COLUMN " ++ n.str ++ s%" SET NOT NULL"
  | .dropNotNull n => s%"ALTER COLUMN " ++ n.str ++ s%" DROP NOT NULL"
  | .addConstraint c nv => s%"ADD " ++ c.str ++ (if nv then s%" NOT VALID" else [])
  | .dropConstraint n => s%"DROP CONSTRAINT " ++ n.str
  | .alterConstraint n df idf => s%"ALTER CONSTRAINT " ++ n.str ++ s%" " ++
      (if df then s%"DEFERRABLE" else s%"NOT DEFERRABLE") ++
      (if idf then s%" INITIALLY DEFERRED" else s%" INITIALLY IMMEDIATE")

/-- `AlterTableStmt.String`: `ddl_table_alter.go:27-83`. -/
def AlterTable.str (a : AlterTable) : Str :=
  commentStr a.comment ++ s%"ALTER TABLE " ++ a.name.str ++ s%" " ++ a.action.str ++ s%";\n"

/-- Statements of the PostgreSQL dialect. `Stmt`: `pkg/ddl/postgres/ddl.go:43-47`. -/
abbrev PStmt := Stmt CreateTable CreateIndex AlterTable Ident

end Ddl.Pg
