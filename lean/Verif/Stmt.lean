import Verif.Ident

/-!
# Statements and `Diff`, generic over the dialect

`pkg/ddl/{postgres,cockroachdb,mysql,spanner}/diff.go` are identical up to the package name.  `Diff` is therefore modelled once,
over the types of the dialect (`T` = `CreateTableStmt`, `I` = `CreateIndexStmt`, `A` = `AlterTableStmt`,
`N` = type of index names) and the dialect's operations on them (`Ops`).
-/

namespace Ddl

/-- `Stmt` (`pkg/ddl/postgres/ddl.go:43-47`): the statement types of a dialect.
`DropTableStmt`: `ddl_table_drop.go:13-17`; `DropIndexStmt`: `ddl_index_drop.go:13-17`. -/
inductive Stmt (T I A N : Type) where
  | createTable (t : T)
  | createIndex (i : I)
  | alterTable (a : A)
  | dropTable (comment : Str) (ifExists : Bool) (name : ObjectName)
  | dropIndex (comment : Str) (ifExists : Bool) (name : N)
deriving DecidableEq, Repr

/-- The operations of a dialect that `Diff` uses. `pkg/ddl/postgres/diff.go:15-126`. -/
structure Ops (T I A N : Type) where
  /-- `CreateTableStmt.Name` -/
  tableName : T → ObjectName
  /-- `CreateTableStmt.String` -/
  tableStr : T → Str
  /-- `CreateIndexStmt.Name` -/
  indexName : I → N
  /-- `CreateIndexStmt.String` -/
  indexStr : I → Str
  /-- `CreateIndexStmt.StringForDiff` -/
  indexDiffStr : I → Str
  /-- `String` of an index name -/
  nStr : N → Str
  /-- `StringForDiff` of an index name -/
  nDiffStr : N → Str
  /-- `AlterTableStmt.Name` -/
  alterName : A → ObjectName
  /-- `AlterTableStmt.String` -/
  alterStr : A → Str
  /-- `DiffCreateTable(before, after)` for non-nil arguments, without options -/
  diffTable : T → T → Res (List (Stmt T I A N))
  /-- `simplediff.Diff(a, b).String()` of github.com/kunitsucom/util.go, not part of /repo -/
  sd : Str → Str → Str

section
variable {T I A N : Type} (o : Ops T I A N)

/-- `Stmt.GetNameForDiff`: `ddl_table_create.go:23-25`, `ddl_index_create.go:25-27`, `ddl_table_alter.go:22-24`,
`ddl_table_drop.go:19-21`, `ddl_index_drop.go:19-21`. -/
def nameForDiff : Stmt T I A N → Str
  | .createTable t => (o.tableName t).diffStr
  | .createIndex i => o.nDiffStr (o.indexName i)
  | .alterTable a => (o.alterName a).diffStr
  | .dropTable _ _ n => n.diffStr
  | .dropIndex _ _ n => o.nDiffStr n

/-- `Stmt.String`. `DropTableStmt.String`: `ddl_table_drop.go:23-39`; `DropIndexStmt.String`: `ddl_index_drop.go:23-39`. -/
def stmtStr : Stmt T I A N → Str
  | .createTable t => o.tableStr t
  | .createIndex i => o.indexStr i
  | .alterTable a => o.alterStr a
  | .dropTable c ie n =>
    commentStr c ++ s%"DROP TABLE " ++ (if ie then s%"IF EXISTS " else []) ++ n.str ++ s%";\n"
  | .dropIndex c ie n =>
    commentStr c ++ s%"DROP INDEX " ++ (if ie then s%"IF EXISTS " else []) ++ o.nStr n ++ s%";\n"

/-- `DDL.String`: `pkg/ddl/postgres/ddl.go:53-58` (`stringz.JoinStringers("", ...)`). -/
def ddlStr (l : List (Stmt T I A N)) : Str := (l.map (stmtStr o)).flatten

/-- `reflect.TypeOf(a) == reflect.TypeOf(b)`. `pkg/ddl/postgres/diff.go:121`. -/
def sameType : Stmt T I A N → Stmt T I A N → Bool
  | .createTable _, .createTable _ => true
  | .createIndex _, .createIndex _ => true
  | .alterTable _, .alterTable _ => true
  | .dropTable .., .dropTable .. => true
  | .dropIndex .., .dropIndex .. => true
  | _, _ => false

/-- `findStmtByTypeAndName`: `pkg/ddl/postgres/diff.go:119-126`. -/
def findStmt (s : Stmt T I A N) (l : List (Stmt T I A N)) : Option (Stmt T I A N) :=
  l.find? (fun x => sameType s x && nameForDiff o s == nameForDiff o x)

/-- `onlyLeftStmt`: `pkg/ddl/postgres/diff.go:107-117`. -/
def onlyLeftStmt (left right : List (Stmt T I A N)) : List (Stmt T I A N) :=
  left.filter (fun s => (findStmt o s right).isNone)

/-- A `for` loop that appends results and returns at the first error. `pkg/ddl/postgres/diff.go:23-36, 43-56, 59-68`. -/
def mapRes {α β : Type} (f : α → Res β) : List α → Res (List β)
  | [] => .ok []
  | a :: l => do
    let b ← f a
    let bs ← mapRes f l
    .ok (b :: bs)

/-- As `mapRes`, appending several results per round. `pkg/ddl/postgres/diff.go:72-98`. -/
def flatMapRes {α β : Type} (f : α → Res (List β)) : List α → Res (List β)
  | [] => .ok []
  | a :: l => do
    let b ← f a
    let bs ← flatMapRes f l
    .ok (b ++ bs)

/-- The body of the DROP loops: `pkg/ddl/postgres/diff.go:24-35` and `44-55`. -/
def dropOf : Stmt T I A N → Res (Stmt T I A N)
  | .createTable t => .ok (.dropTable [] false (o.tableName t))
  | .createIndex i => .ok (.dropIndex [] false (o.indexName i))
  | _ => .err .notSupported

/-- The body of the CREATE loop: `pkg/ddl/postgres/diff.go:60-67`. -/
def createOf : Stmt T I A N → Res (Stmt T I A N)
  | .createTable t => .ok (.createTable t)
  | .createIndex i => .ok (.createIndex i)
  | _ => .err .notSupported

/-- The body of the ALTER loop: `pkg/ddl/postgres/diff.go:72-98`.
`errorz.PanicOrIgnore(err, ddl.ErrNoDifference)` panics on any other error. -/
def alterOf (after : List (Stmt T I A N)) : Stmt T I A N → Res (List (Stmt T I A N))
  | .createTable t =>
    match findStmt o (.createTable t) after with
    | some (.createTable t') =>
      match o.diffTable t t' with
      | .ok l => .ok l
      | .err .noDifference => .ok []
      | .err _ => .panic .nilDeref
      | .panic p => .panic p
      | .outOfFuel => .outOfFuel
    | _ => .ok []
  | .createIndex i =>
    match findStmt o (.createIndex i) after with
    | some (.createIndex i') =>
      if o.indexDiffStr i ≠ o.indexDiffStr i' then
        .ok [.dropIndex (o.sd (o.indexDiffStr i) (o.indexDiffStr i')) false (o.indexName i), .createIndex i']
      else .ok []
    | _ => .ok []
  | _ => .ok []

/-- `Diff`: `pkg/ddl/{postgres,cockroachdb,mysql,spanner}/diff.go:15-105`; `none` is the nil `*DDL`.
`reflect.DeepEqual(before, after)` (line 38) implies `before.String() == after.String()` and is left out. -/
def diff (before after : Option (List (Stmt T I A N))) : Res (List (Stmt T I A N)) :=
  match before, after with
  | none, some a => .ok a
  | some b, none => mapRes (dropOf o) b
  | none, none => .err .noDifference
  | some b, some a =>
    if ddlStr o b = ddlStr o a then .err .noDifference
    else do
      let drops ← mapRes (dropOf o) (onlyLeftStmt o b a)
      let creates ← mapRes createOf (onlyLeftStmt o a b)
      let alters ← flatMapRes (alterOf o a) b
      let result := drops ++ creates ++ alters
      if result.isEmpty then .err .noDifference else .ok result

end
end Ddl
