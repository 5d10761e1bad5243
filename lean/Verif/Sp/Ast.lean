import Verif.Stmt

/-!
# Spanner: syntax tree and printing

`pkg/ddl/spanner/ddl.go`, `ddl_table.go`, `ddl_table_create.go`, `ddl_table_alter.go`, `ddl_index_create.go`.
Line numbers are those of `pkg/ddl/spanner`.
-/

namespace Ddl.Sp

/-- `ColumnIdent` and `Order`: `ddl.go:82-87`; `order = some desc`. -/
structure ColumnIdent where
  ident : Ident
  order : Option Bool
deriving DecidableEq, Repr

/-- `ColumnIdent.String`: `ddl.go:91-101`. -/
def ColumnIdent.str (i : ColumnIdent) : Str :=
  i.ident.str ++ (match i.order with
    | none => []
    | some true => s%" DESC"
    | some false => s%" ASC")

/-- `ColumnIdent.StringForDiff`: `ddl.go:103-111`. -/
def ColumnIdent.diffStr (i : ColumnIdent) : Str :=
  i.ident.diffStr ++ (if i.order = some true then s%" DESC" else s%" ASC")

/-- `DataType`: `ddl.go:113-117`.  `Expr` nil and `Expr` empty are treated alike by all code that reads it, hence a list.
`Type` is never the empty string when built by the parser. -/
structure DataType where
  name : Str
  type : TokType
  expr : Expr
deriving DecidableEq, Repr

/-- The cases of the switch in `Expr.String` (`ddl_table.go:206-219`) for neighbouring identifiers: what is printed between
`a` and `b`. -/
def exprSep (a b : Ident) : Str :=
  if a.str = s%"(" ∨ b.str = s%"(" ∨ b.str = s%")" ∨ a.str = s%"::" ∨ b.str = s%"::" ∨
    a.str = s%":::" ∨ b.str = s%":::" ∨ b.str = s%"," then []
  else s%" "

/-- `Expr.String`: `ddl_table.go:199-224`; the loop over indices with a look at the predecessor is a recursion that carries the
predecessor. -/
def exprStrFrom (prev : Ident) : Expr → Str
  | [] => []
  | i :: r => exprSep prev i ++ i.str ++ exprStrFrom i r

/-- `Expr.String`: `ddl_table.go:199-224`: from the first word on. -/
def exprStr : Expr → Str
  | [] => []
  | i :: r => i.str ++ exprStrFrom i r

/-- `Expr.StringForDiff`: `ddl_table.go:226-240`. -/
def exprDiffStr (e : Expr) : Str := join s%" " (e.map Ident.diffStr)

/-- `DataType.String`: `ddl.go:119-128`. -/
def DataType.str (t : DataType) : Str :=
  t.name ++ (if t.expr = [] then [] else s%"(" ++ exprStr t.expr ++ s%")")

/-- `DataType.StringForDiff`: `ddl.go:130-150`. -/
def DataType.diffStr (t : DataType) : Str :=
  t.type.str ++ (if t.expr = [] then [] else s%"(" ++ (t.expr.map Ident.diffStr).flatten ++ s%")")

/-- `Default`: `ddl_table.go:179-181`; `value = none` is the nil `*Expr` (`DEFAULT` without a value). -/
structure Default where
  value : Option Expr
deriving DecidableEq, Repr

/-- `Default.String`: `ddl_table.go:244-252`; the outer `none` is the nil pointer. -/
def defaultStr : Option Default → Str
  | some ⟨some e⟩ => s%"DEFAULT " ++ exprStr e
  | _ => []

/-- `Default.StringForDiff`: `ddl_table.go:254-270`. -/
def defaultDiffStr : Option Default → Str
  | some ⟨some e⟩ => s%"DEFAULT (" ++ join s%" " (e.map Ident.diffStr) ++ s%")"
  | _ => []

/-- `Column`: `ddl_table.go:171-177`. The parser always sets `Name` and `DataType`. -/
structure Column where
  name : Ident
  dataType : DataType
  default : Option Default
  notNull : Bool
  options : Option Expr
deriving DecidableEq, Repr

/-- `Expr.String` of a pointer that may be nil: `ddl_table.go:199-202`. -/
def optExprStr (e : Option Expr) : Str := exprStr (e.getD [])

/-- `Expr.StringForDiff` of a pointer that may be nil: `ddl_table.go:226-229`. -/
def optExprDiffStr (e : Option Expr) : Str := exprDiffStr (e.getD [])

/-- `Column.String`: `ddl_table.go:272-285`. -/
def Column.str (c : Column) : Str :=
  c.name.str ++ s%" " ++ c.dataType.str ++ (if c.notNull then s%" NOT NULL" else []) ++
    (if defaultStr c.default = [] then [] else s%" " ++ defaultStr c.default) ++
    (if optExprStr c.options = [] then [] else s%" OPTIONS " ++ optExprStr c.options)

/-- `Constraint`: `ddl_table.go:12-18` with its implementations `ForeignKeyConstraint` (35-40) and `CheckConstraint` (93-96).
The name of a check constraint may be nil (`parser.go:679-692`). `IndexConstraint` (86-90) does not implement the interface. -/
inductive Constraint where
  | foreignKey (name : Ident) (columns : List ColumnIdent) (ref : Ident) (refColumns : List ColumnIdent)
  | check (name : Option Ident) (expr : Expr)
deriving DecidableEq, Repr

/-- `GetName`: `ddl_table.go:45,101`; `none` is the nil pointer. -/
def Constraint.name : Constraint → Option Ident
  | .foreignKey n _ _ _ => some n
  | .check n _ => n

/-- `c.GetName().Name`: a nil name panics. `ddl_table.go:24`, `diff_create_table.go:84, 101, 288, 298`. -/
def Constraint.nameStr (c : Constraint) : Res Str :=
  match c.name with
  | some n => .ok n.name
  | none => .panic .nilDeref

/-- `stringz.JoinStringers(", ", columns...)`. `ddl_table.go:53, 55`, `ddl_index_create.go:52`. -/
def columnsStr (l : List ColumnIdent) : Str := join s%", " (l.map ColumnIdent.str)

/-- The loops joining `StringForDiff` of columns with ", ", e.g. `ddl_table.go:66-71`. -/
def columnsDiffStr (l : List ColumnIdent) : Str := join s%", " (l.map ColumnIdent.diffStr)

/-- `Constraint.String`: `ddl_table.go:47-57` (foreign key), `103-111` (check). -/
def Constraint.str : Constraint → Str
  | .foreignKey n cs r rcs =>
    s%"CONSTRAINT " ++ n.str ++ s%" " ++ s%"FOREIGN KEY" ++ s%" (" ++ columnsStr cs ++ s%")" ++
      s%" REFERENCES " ++ r.str ++ s%" (" ++ columnsStr rcs ++ s%")"
  | .check n e => (match n with
    | some n => s%"CONSTRAINT " ++ n.str ++ s%" "
    | none => []) ++ s%"CHECK " ++ exprStr e

/-- `Constraint.StringForDiff`: `ddl_table.go:59-83`, `113-126`. -/
def Constraint.diffStr : Constraint → Str
  | .foreignKey n cs r rcs =>
    s%"CONSTRAINT " ++ n.diffStr ++ s%" " ++ s%"FOREIGN KEY" ++ s%" (" ++ columnsDiffStr cs ++ s%")" ++
      s%" REFERENCES " ++ r.name ++ s%" (" ++ columnsDiffStr rcs ++ s%")"
  | .check n e => (match n with
    | some n => s%"CONSTRAINT " ++ n.diffStr ++ s%" "
    | none => []) ++ s%"CHECK " ++ join s%" " (e.map Ident.diffStr)

/-- `Constraints.Append`: `ddl_table.go:22-32`; comparing names panics if one of them is nil. -/
def appendConstraint : List Constraint → Constraint → Res (List Constraint)
  | [], c => .ok [c]
  | x :: r, c => do
    let a ← x.nameStr
    let b ← c.nameStr
    if a = b then .ok (c :: r)
    else
      let r' ← appendConstraint r c
      .ok (x :: r')

/-- `for _, c := range more { l = l.Append(c) }`, e.g. `parser.go:170-172`. -/
def appendAll : List Constraint → List Constraint → Res (List Constraint)
  | l, [] => .ok l
  | l, c :: more => do
    let l ← appendConstraint l c
    appendAll l more

/-- `Option`: `ddl_table.go:289-292`; the parser always sets `Value`. -/
structure TableOption where
  name : Str
  value : Expr
deriving DecidableEq, Repr

/-- `Option.String`: `ddl_table.go:294-299`. -/
def TableOption.str (o : TableOption) : Str := o.name ++ s%" " ++ exprStr o.value

/-- `Option.StringForDiff`: `ddl_table.go:301-306`. -/
def TableOption.diffStr (o : TableOption) : Str := o.name ++ s%" " ++ exprDiffStr o.value

/-- `Option.StringForDiff` of a pointer that may be nil: `ddl_table.go:301-306`. -/
def optionDiffStr : Option TableOption → Str
  | some o => o.diffStr
  | none => []

/-- `Options.String`: `ddl_table.go:312-321`; also inlined at `ddl_table_create.go:70-76`. -/
def optionsStr (l : List TableOption) : Str := join s%",\n" (l.map TableOption.str)

/-- `Options.StringForDiff`: `ddl_table.go:323-332`. -/
def optionsDiffStr (l : List TableOption) : Str := join s%", " (l.map TableOption.diffStr)

/-- `CreateTableStmt`: `ddl_table_create.go:13-22`, without `Indent`, which is never read. -/
structure CreateTable where
  comment : Str
  ifNotExists : Bool
  name : ObjectName
  columns : List Column
  constraints : List Constraint
  options : List TableOption
  rowDeletionPolicy : Option TableOption
deriving DecidableEq, Repr

/-- Lines of an item list: each item indented, followed by ",\n" or, for the last one, by `last`.
`ddl_table_create.go:46-66`. -/
def itemLines (last : Str) : List Str → Str
  | [] => []
  | [a] => indent ++ a ++ last
  | a :: b :: r => indent ++ a ++ s%",\n" ++ itemLines last (b :: r)

/-- `CreateTableStmt.String`: `ddl_table_create.go:29-84`. -/
def CreateTable.str (t : CreateTable) : Str :=
  commentStr t.comment ++ s%"CREATE TABLE " ++ (if t.ifNotExists then s%"IF NOT EXISTS " else []) ++
    t.name.str ++ s%" (\n" ++
    itemLines (if t.constraints = [] then s%"\n" else s%",\n") (t.columns.map Column.str) ++
    itemLines s%"\n" (t.constraints.map Constraint.str) ++ s%")" ++
    (if t.options = [] then [] else s%" " ++ optionsStr t.options) ++
    (match t.rowDeletionPolicy with
      | some o => s%",\n" ++ o.str
      | none => []) ++ s%";\n"

/-- `CreateIndexStmt`: `ddl_index_create.go:15-23`. -/
structure CreateIndex where
  comment : Str
  isUnique : Bool
  ifNotExists : Bool
  name : ObjectName
  tableName : ObjectName
  using_ : List Ident
  columns : List ColumnIdent
deriving DecidableEq, Repr

/-- `CreateIndexStmt.String`: `ddl_index_create.go:29-54`. -/
def CreateIndex.str (i : CreateIndex) : Str :=
  commentStr i.comment ++ s%"CREATE " ++ (if i.isUnique then s%"UNIQUE " else []) ++ s%"INDEX " ++
    (if i.ifNotExists then s%"IF NOT EXISTS " else []) ++ i.name.str ++ s%" ON " ++ i.tableName.str ++
    (if i.using_ = [] then [] else s%" USING " ++ join s%" " (i.using_.map Ident.str)) ++
    s%" (" ++ columnsStr i.columns ++ s%");\n"

/-- `CreateIndexStmt.StringForDiff`: `ddl_index_create.go:56-73`. -/
def CreateIndex.diffStr (i : CreateIndex) : Str :=
  s%"CREATE " ++ (if i.isUnique then s%"UNIQUE " else []) ++ s%"INDEX " ++ i.name.diffStr ++ s%" ON " ++
    i.tableName.diffStr ++ s%" (" ++ columnsDiffStr i.columns ++ s%");\n"

/-- `AlterTableAction`: `ddl_table_alter.go:96-250`. The name in `DropConstraint` may be nil. -/
inductive Action where
  | renameTable (newName : ObjectName)
  | renameConstraint (name newName : Ident)
  | renameColumn (name newName : Ident)
  | addColumn (column : Column)
  | dropColumn (name : Ident)
  | alterDataType (name : Ident) (dataType : DataType) (notNull : Bool)
  | setDefault (name : Ident) (default : Option Default)
  | dropDefault (name : Ident)
  | setOptions (name : Ident) (options : Option Expr)
  | dropOptions (name : Ident)
  | addConstraint (constraint : Constraint) (notValid : Bool)
  | dropConstraint (name : Option Ident)
  | alterConstraint (name : Ident) (deferrable initiallyDeferred : Bool)
  | addRowDeletionPolicy (o : TableOption)
  | replaceRowDeletionPolicy (o : TableOption)
  | dropRowDeletionPolicy
deriving DecidableEq, Repr

/-- `AlterTableStmt`: `ddl_table_alter.go:13-18`, without `Indent`, which is never read. -/
structure AlterTable where
  comment : Str
  name : ObjectName
  action : Action
deriving DecidableEq, Repr

/-- The type switch of `AlterTableStmt.String`: `ddl_table_alter.go:39-89`. -/
def Action.str : Action → Str
  | .renameTable n => s%"RENAME TO " ++ n.str
  | .renameColumn n m => s%"RENAME COLUMN " ++ n.str ++ s%" TO " ++ m.str
  | .renameConstraint n m => s%"RENAME CONSTRAINT " ++ n.str ++ s%" TO " ++ m.str
  | .addColumn c => s%"ADD COLUMN " ++ c.str
  | .dropColumn n => s%"DROP COLUMN " ++ n.str
  | .alterDataType n t nn => s%"ALTER COLUMN " ++ n.str ++ s%" " ++ t.str ++ (if nn then s%" NOT NULL" else [])
  | .setDefault n d => s%"ALTER COLUMN " ++ n.str ++ s%" SET " ++ defaultStr d
  | .dropDefault n => s%"ALTER COLUMN " ++ n.str ++ s%" DROP DEFAULT"
  | .setOptions n o => s%"ALTER COLUMN " ++ n.str ++ s%" SET OPTIONS " ++ optExprStr o
  | .dropOptions n => s%"ALTER COLUMN " ++ n.str ++ s%" DROP OPTIONS"
  | .addConstraint c nv => s%"ADD " ++ c.str ++ (if nv then s%" NOT VALID" else [])
  | .dropConstraint n => s%"DROP CONSTRAINT " ++ (match n with
    | some n => n.str
    | none => [])
  | .alterConstraint n df idf => s%"ALTER CONSTRAINT " ++ n.str ++ s%" " ++
      (if df then s%"DEFERRABLE" else s%"NOT DEFERRABLE") ++
      (if idf then s%" INITIALLY DEFERRED" else s%" INITIALLY IMMEDIATE")
  | .addRowDeletionPolicy o => s%"ADD " ++ o.str
  | .replaceRowDeletionPolicy o => s%"REPLACE " ++ o.str
  | .dropRowDeletionPolicy => s%"DROP ROW DELETION POLICY"

/-- `AlterTableStmt.String`: `ddl_table_alter.go:27-92`. -/
def AlterTable.str (a : AlterTable) : Str :=
  commentStr a.comment ++ s%"ALTER TABLE " ++ a.name.str ++ s%" " ++ a.action.str ++ s%";\n"

/-- Statements of the Spanner dialect. `Stmt`: `pkg/ddl/spanner/ddl.go:43-47`. -/
abbrev SStmt := Stmt CreateTable CreateIndex AlterTable ObjectName

end Ddl.Sp
