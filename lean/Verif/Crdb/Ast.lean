import Verif.Stmt

/-!
# CockroachDB: syntax tree and printing

`pkg/ddl/cockroachdb/ddl.go`, `ddl_table.go`, `ddl_table_create.go`, `ddl_table_alter.go`, `ddl_index_create.go`.
Most of it repeats `pkg/ddl/postgres`; line numbers are those of `pkg/ddl/cockroachdb`.
-/

namespace Ddl.Crdb

/-- `ColumnIdent` and `Order`: `ddl.go:82-87`; `order = some desc`. -/
structure ColumnIdent where
  ident : Ident
  order : Option Bool
deriving DecidableEq, Repr

/-- `ColumnIdent.String`: `ddl.go:91-101`. -/
def ColumnIdent.str (i : ColumnIdent) : Str :=
  i.ident.str ++ (match i.order with
    | none => []
    | some true => s%" DESC"
    | some false => s%" ASC")

/-- `ColumnIdent.StringForDiff`: `ddl.go:103-111`. -/
def ColumnIdent.diffStr (i : ColumnIdent) : Str :=
  i.ident.diffStr ++ (if i.order = some true then s%" DESC" else s%" ASC")

/-- `DataType`: `ddl.go:113-117`.  `Expr` nil and `Expr` empty are treated alike by all code that reads it, hence a list.
`Type` is never the empty string when built by the parser. -/
structure DataType where
  name : Str
  type : TokType
  expr : Expr
deriving DecidableEq, Repr

/-- The cases of the switch in `Expr.String` (`ddl_table.go:310-322`) for neighbouring identifiers: what is printed between
`a` and `b`. -/
def exprSep (a b : Ident) : Str :=
  if a.str = s%"||" ∨ b.str = s%"||" then s%" "
  else if a.str = s%"(" ∨ b.str = s%"(" ∨ b.str = s%")" ∨ a.str = s%"::" ∨ b.str = s%"::" ∨
    a.str = s%":::" ∨ b.str = s%":::" ∨ b.str = s%"," then []
  else s%" "

/-- `Expr.String`: `ddl_table.go:303-327`; the loop over indices with a look at the predecessor is a recursion that carries the
predecessor. -/
def exprStrFrom (prev : Ident) : Expr → Str
  | [] => []
  | i :: r => exprSep prev i ++ i.str ++ exprStrFrom i r

/-- `Expr.String`: `ddl_table.go:303-327`: from the first word on. -/
def exprStr : Expr → Str
  | [] => []
  | i :: r => i.str ++ exprStrFrom i r

/-- `DataType.String`: `ddl.go:119-128`. -/
def DataType.str (t : DataType) : Str :=
  t.name ++ (if t.expr = [] then [] else s%"(" ++ exprStr t.expr ++ s%")")

/-- `DataType.StringForDiff`: `ddl.go:130-150`. -/
def DataType.diffStr (t : DataType) : Str :=
  t.type.str ++ (if t.expr = [] then [] else s%"(" ++ (t.expr.map Ident.diffStr).flatten ++ s%")")

/-- `Default`: `ddl_table.go:285-287`; `value = none` is the nil `*Expr` (`DEFAULT` without a value). -/
structure Default where
  value : Option Expr
deriving DecidableEq, Repr

/-- `Default.String`: `ddl_table.go:331-339`; the outer `none` is the nil pointer. -/
def defaultStr : Option Default → Str
  | some ⟨some e⟩ => s%"DEFAULT " ++ exprStr e
  | _ => []

/-- `Default.StringForDiff`: `ddl_table.go:341-356`. -/
def defaultDiffStr : Option Default → Str
  | some ⟨some e⟩ => s%"DEFAULT " ++ join s%" " (e.map Ident.diffStr)
  | _ => []

/-- `As`: `ddl_table.go:358-361`; `type = none` is the empty token type. -/
structure As where
  value : Option Expr
  type : Option TokType
deriving DecidableEq, Repr

/-- `As.String`: `ddl_table.go:365-380`, for a non-nil receiver. -/
def As.str (a : As) : Str :=
  match a.value with
  | some e => s%"AS " ++ exprStr e ++ (match a.type with
    | some t => s%" " ++ t.str
    | none => [])
  | none => []

/-- `Column`: `ddl_table.go:276-283`. The parser always sets `Name` and `DataType`. -/
structure Column where
  name : Ident
  dataType : DataType
  default : Option Default
  notNull : Bool
  notVisible : Bool
  as_ : Option As
deriving DecidableEq, Repr

/-- `Column.String`: `ddl_table.go:406-422`. -/
def Column.str (c : Column) : Str :=
  c.name.str ++ s%" " ++ c.dataType.str ++
    (if c.notVisible then s%" NOT VISIBLE" else []) ++
    (if c.notNull then s%" NOT NULL" else []) ++
    (if defaultStr c.default = [] then [] else s%" " ++ defaultStr c.default) ++
    (match c.as_ with
      | some a => s%" " ++ a.str
      | none => [])

/-- `Using` and `With`: `ddl.go:152-155`, `169-171`. -/
structure Using where
  value : Option Expr
  with_ : Option Expr
deriving DecidableEq, Repr

/-- `Using.String` and `With.String`: `ddl.go:157-167`, `173-179`, for a non-nil receiver. -/
def Using.str (u : Using) : Str :=
  s%"USING " ++ exprStr (u.value.getD []) ++ (match u.with_ with
    | some w => s%" " ++ s%"WITH " ++ exprStr w
    | none => [])

/-- `" " + u.String()` if `u` is not nil, e.g. `ddl_table.go:162-164`. -/
def usingStr : Option Using → Str
  | some u => s%" " ++ u.str
  | none => []

/-- `Constraint`: `ddl_table.go:12-18` with its implementations `PrimaryKeyConstraint` (45-48), `ForeignKeyConstraint` (83-89),
`IndexConstraint` (141-147), `CheckConstraint` (198-201).  The parser always sets `Name`, `Ref` and `Expr`. -/
inductive Constraint where
  | primaryKey (name : Ident) (columns : List ColumnIdent)
  | foreignKey (name : Ident) (columns : List ColumnIdent) (ref : Ident) (refColumns : List ColumnIdent) (onAction : Str)
  | index (name : Ident) (isUnique : Bool) (usingPre : Option Using) (columns : List ColumnIdent) (usingPost : Option Using)
  | check (name : Ident) (expr : Expr)
deriving DecidableEq, Repr

/-- `GetName`: `ddl_table.go:53,94,152,206`. -/
def Constraint.name : Constraint → Ident
  | .primaryKey n _ => n
  | .foreignKey n _ _ _ _ => n
  | .index n _ _ _ _ => n
  | .check n _ => n

/-- `stringz.JoinStringers(", ", columns...)`. `ddl_table.go:61, 102, 104, 165`, `ddl_index_create.go:52`. -/
def columnsStr (l : List ColumnIdent) : Str := join s%", " (l.map ColumnIdent.str)

/-- The loops joining `StringForDiff` of columns with ", ", e.g. `ddl_table.go:72-77`. -/
def columnsDiffStr (l : List ColumnIdent) : Str := join s%", " (l.map ColumnIdent.diffStr)

/-- `Constraint.String`: `ddl_table.go:55-63` (primary key), `96-109` (foreign key), `154-170` (index), `208-216` (check). -/
def Constraint.str : Constraint → Str
  | .primaryKey n cs => s%"CONSTRAINT " ++ n.str ++ s%" " ++ s%"PRIMARY KEY" ++ s%" (" ++ columnsStr cs ++ s%")"
  | .foreignKey n cs r rcs act =>
    s%"CONSTRAINT " ++ n.str ++ s%" " ++ s%"FOREIGN KEY" ++ s%" (" ++ columnsStr cs ++ s%")" ++
      s%" REFERENCES " ++ r.str ++ s%" (" ++ columnsStr rcs ++ s%")" ++ (if act = [] then [] else s%" " ++ act)
  | .index n uq pre cs post =>
    (if uq then s%"UNIQUE " else []) ++ s%"INDEX " ++ n.str ++ s%" " ++ usingStr pre ++
      s%"(" ++ columnsStr cs ++ s%")" ++ usingStr post
  | .check n e => s%"CONSTRAINT " ++ n.str ++ s%" " ++ s%"CHECK " ++ exprStr e

/-- `Constraint.StringForDiff`: `ddl_table.go:65-80`, `111-138`, `172-195`, `218-231`. -/
def Constraint.diffStr : Constraint → Str
  | .primaryKey n cs => s%"CONSTRAINT " ++ n.diffStr ++ s%" " ++ s%"PRIMARY KEY" ++ s%" (" ++ columnsDiffStr cs ++ s%")"
  | .foreignKey n cs r rcs act =>
    s%"CONSTRAINT " ++ n.diffStr ++ s%" " ++ s%"FOREIGN KEY" ++ s%" (" ++ columnsDiffStr cs ++ s%")" ++
      s%" REFERENCES " ++ r.name ++ s%" (" ++ columnsDiffStr rcs ++ s%")" ++ (if act = [] then [] else s%" " ++ act)
  | .index n uq pre cs post =>
    (if uq then s%"UNIQUE " else []) ++ s%"INDEX " ++ n.diffStr ++ s%" " ++ usingStr pre ++
      s%"(" ++ columnsDiffStr cs ++ s%")" ++ usingStr post
  | .check n e => s%"CONSTRAINT " ++ n.diffStr ++ s%" " ++ s%"CHECK " ++ join s%" " (e.map Ident.diffStr)

/-- The type test of the sort in `Constraints.Append`: `ddl_table.go:32`. -/
def Constraint.isPrimaryKey : Constraint → Bool
  | .primaryKey .. => true
  | _ => false

/-- `sort.Slice` with `less(left, _) = left is a primary key`: `ddl_table.go:31-39`.  Go sorts slices of at most 12 elements by
insertion: each element in turn is moved down while it is "less" than its left neighbour, so a primary key moves to
the front.  For longer slices Go uses pattern-defeating quicksort, which is not modelled: the comparison is no strict order and
the result is then unspecified. -/
def sortPrimaryKey (l : List Constraint) : List Constraint :=
  l.foldl (fun acc c => if c.isPrimaryKey then c :: acc else acc ++ [c]) []

/-- The loop of `Constraints.Append`: `ddl_table.go:23-28`; `none` if no constraint has that name. -/
def replaceConstraint : List Constraint → Constraint → Option (List Constraint)
  | [], _ => none
  | x :: r, c =>
    if x.name.name = c.name.name then some (c :: r) else (replaceConstraint r c).map (x :: ·)

/-- `Constraints.Append`: `ddl_table.go:22-42`. -/
def appendConstraint (l : List Constraint) (c : Constraint) : List Constraint :=
  match replaceConstraint l c with
  | some l' => l'
  | none => sortPrimaryKey (l ++ [c])

/-- `Option`: `ddl_table.go:426-429`; the parser never produces one. -/
structure TableOption where
  name : Str
  value : Option Ident
deriving DecidableEq, Repr

/-- `Option.String`: `ddl_table.go:431-436`. -/
def TableOption.str (o : TableOption) : Str :=
  match o.value with
  | none => []
  | some v => o.name ++ s%" " ++ v.str

/-- `CreateTableStmt`: `ddl_table_create.go:13-21`, without `Indent`, which is never read. -/
structure CreateTable where
  comment : Str
  ifNotExists : Bool
  name : ObjectName
  columns : List Column
  constraints : List Constraint
  options : List TableOption
deriving DecidableEq, Repr

/-- Lines of an item list: each item indented, followed by ",\n" or, for the last one, by `last`.
`ddl_table_create.go:45-65`. -/
def itemLines (last : Str) : List Str → Str
  | [] => []
  | [a] => indent ++ a ++ last
  | a :: b :: r => indent ++ a ++ s%",\n" ++ itemLines last (b :: r)

/-- `CreateTableStmt.String`: `ddl_table_create.go:28-80`. -/
def CreateTable.str (t : CreateTable) : Str :=
  commentStr t.comment ++ s%"CREATE TABLE " ++ (if t.ifNotExists then s%"IF NOT EXISTS " else []) ++
    t.name.str ++ s%" (\n" ++
    itemLines (if t.constraints = [] then s%"\n" else s%",\n") (t.columns.map Column.str) ++
    itemLines s%"\n" (t.constraints.map Constraint.str) ++ s%")" ++
    (if t.options = [] then [] else s%"\n" ++ join s%",\n" (t.options.map TableOption.str)) ++ s%";\n"

/-- `CreateIndexStmt`: `ddl_index_create.go:15-24`. -/
structure CreateIndex where
  comment : Str
  isUnique : Bool
  ifNotExists : Bool
  name : Ident
  tableName : ObjectName
  usingPre : Option Using
  columns : List ColumnIdent
  usingPost : Option Using
deriving DecidableEq, Repr

/-- `CreateIndexStmt.String`: `ddl_index_create.go:30-58`. -/
def CreateIndex.str (i : CreateIndex) : Str :=
  commentStr i.comment ++ s%"CREATE " ++ (if i.isUnique then s%"UNIQUE " else []) ++ s%"INDEX " ++
    (if i.ifNotExists then s%"IF NOT EXISTS " else []) ++ i.name.str ++ s%" ON " ++ i.tableName.str ++
    usingStr i.usingPre ++ s%" (" ++ columnsStr i.columns ++ s%")" ++ usingStr i.usingPost ++ s%";\n"

/-- `CreateIndexStmt.StringForDiff`: `ddl_index_create.go:60-83`. -/
def CreateIndex.diffStr (i : CreateIndex) : Str :=
  s%"CREATE " ++ (if i.isUnique then s%"UNIQUE " else []) ++ s%"INDEX " ++ i.name.diffStr ++ s%" ON " ++
    i.tableName.diffStr ++ usingStr i.usingPre ++ s%" (" ++ columnsDiffStr i.columns ++ s%")" ++ usingStr i.usingPost ++ s%";\n"

/-- `AlterTableAction`: `ddl_table_alter.go:87-214`. -/
inductive Action where
  | renameTable (newName : ObjectName)
  | renameConstraint (name newName : Ident)
  | renameColumn (name newName : Ident)
  | addColumn (column : Column)
  | dropColumn (name : Ident)
  | setDataType (name : Ident) (dataType : DataType)
  | setDefault (name : Ident) (default : Option Default)
  | dropDefault (name : Ident)
  | setNotNull (name : Ident)
  | dropNotNull (name : Ident)
  | addConstraint (constraint : Constraint) (notValid : Bool)
  | dropConstraint (name : Ident)
  | alterConstraint (name : Ident) (deferrable initiallyDeferred : Bool)
deriving DecidableEq, Repr

/-- `AlterTableStmt`: `ddl_table_alter.go:13-18`, without `Indent`, which is never read. -/
structure AlterTable where
  comment : Str
  name : ObjectName
  action : Action
deriving DecidableEq, Repr

/-- The type switch of `AlterTableStmt.String`: `ddl_table_alter.go:39-80`. -/
def Action.str : Action → Str
  | .renameTable n => s%"RENAME TO " ++ n.str
  | .renameColumn n m => s%"RENAME COLUMN " ++ n.str ++ s%" TO " ++ m.str
  | .renameConstraint n m => s%"RENAME CONSTRAINT " ++ n.str ++ s%" TO " ++ m.str
  | .addColumn c => s%"ADD COLUMN " ++ c.str
  | .dropColumn n => s%"DROP COLUMN " ++ n.str
  | .setDataType n t => s%"ALTER COLUMN " ++ n.str ++ s%" SET DATA TYPE " ++ t.str
  | .setDefault n d => s%"ALTER COLUMN " ++ n.str ++ s%" SET " ++ defaultStr d
  | .dropDefault n => s%"ALTER COLUMN " ++ n.str ++ s%" DROP DEFAULT"
  | .setNotNull n => s%"ALTER COLUMN " ++ n.str ++ s%" SET NOT NULL"
  | .dropNotNull n => s%"ALTER COLUMN " ++ n.str ++ s%" DROP NOT NULL"
  | .addConstraint c nv => s%"ADD " ++ c.str ++ (if nv then s%" NOT VALID" else [])
  | .dropConstraint n => s%"DROP CONSTRAINT " ++ n.str
  | .alterConstraint n df idf => s%"ALTER CONSTRAINT " ++ n.str ++ s%" " ++
      (if df then s%"DEFERRABLE" else s%"NOT DEFERRABLE") ++
      (if idf then s%" INITIALLY DEFERRED" else s%" INITIALLY IMMEDIATE")

/-- `AlterTableStmt.String`: `ddl_table_alter.go:27-83`. -/
def AlterTable.str (a : AlterTable) : Str :=
  commentStr a.comment ++ s%"ALTER TABLE " ++ a.name.str ++ s%" " ++ a.action.str ++ s%";\n"

/-- Statements of the CockroachDB dialect. `Stmt`: `pkg/ddl/cockroachdb/ddl.go:43-47`. -/
abbrev CStmt := Stmt CreateTable CreateIndex AlterTable Ident

end Ddl.Crdb
