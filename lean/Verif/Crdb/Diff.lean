import Verif.Crdb.Ast

/-! # CockroachDB: diff of two table definitions (`pkg/ddl/cockroachdb/diff_create_table.go`) -/

namespace Ddl.Crdb

/-- `findColumnByName`: `diff_create_table.go:285-292`. -/
def findColumn (name : Str) (l : List Column) : Option Column := l.find? (fun c => c.name.name == name)

/-- `findConstraintByName`: `diff_create_table.go:305-312`. -/
def findConstraint (name : Str) (l : List Constraint) : Option Constraint := l.find? (fun c => c.name.name == name)

/-- `onlyLeftColumn`: `diff_create_table.go:274-283`. -/
def onlyLeftColumn (left right : List Column) : List Column :=
  left.filter (fun c => (findColumn c.name.name right).isNone)

/-- `onlyLeftConstraint`: `diff_create_table.go:294-303`; note that it collects with `Append`, which replaces. -/
def onlyLeftConstraint (left right : List Constraint) : List Constraint :=
  (left.filter (fun c => (findConstraint c.name.name right).isNone)).foldl appendConstraint []

section
variable (sd : Str → Str → Str)

/-- Alterations of a column present on both sides: `diff_create_table.go:206-259`.
`tn` is the name of the table in `after`. -/
def alterColumn (tn : ObjectName) (b a : Column) : List AlterTable :=
  (if b.dataType.diffStr ≠ a.dataType.diffStr then
    [⟨sd b.str a.str, tn, .setDataType a.name a.dataType⟩] else []) ++
  (if b.default.isSome ∧ a.default.isNone then
    [⟨sd b.str a.str, tn, .dropDefault a.name⟩]
  else if a.default.isSome ∧ defaultDiffStr b.default ≠ defaultDiffStr a.default then
    [⟨sd b.str a.str, tn, .setDefault a.name a.default⟩]
  else []) ++
  (if b.notNull ∧ ¬ a.notNull then [⟨sd b.str a.str, tn, .dropNotNull a.name⟩]
  else if ¬ b.notNull ∧ a.notNull then [⟨sd b.str a.str, tn, .setNotNull a.name⟩]
  else [])

/-- One round of the first loop of `diffCreateTableColumn`: `diff_create_table.go:187-260`. -/
def columnRound (tn : ObjectName) (after : List Column) (b : Column) : List AlterTable :=
  match findColumn b.name.name after with
  | none =>
    if b.notVisible ∧ b.as_.any (fun a => a.type = some .VIRTUAL) then []
    else [⟨sd b.str [], tn, .dropColumn b.name⟩]
  | some a => alterColumn sd tn b a

/-- `diffCreateTableColumn`: `diff_create_table.go:186-272`. -/
def diffColumns (tn : ObjectName) (before after : List Column) : List AlterTable :=
  before.flatMap (columnRound sd tn after) ++
    (onlyLeftColumn after before).map (fun c => ⟨sd [] c.str, tn, .addColumn c⟩)

/-- The index of an `IndexConstraint` as a statement, `diff_create_table.go:116-123` and `156-164`. -/
def indexStmt (comment : Str) (tn : ObjectName) (n : Ident) (uq : Bool) (pre : Option Using) (cs : List ColumnIdent)
    (post : Option Using) : CStmt :=
  .createIndex ⟨comment, uq, false, n, tn, pre, cs, post⟩

/-- Dropping the constraints that are gone: `diff_create_table.go:76-98`. -/
def dropConstraints (tn : ObjectName) (before after : List Constraint) : List CStmt :=
  before.flatMap (fun b =>
    match findConstraint b.name.name after with
    | none =>
      match b with
      | .index .. => [.dropIndex (sd b.diffStr []) false b.name]
      | _ => [.alterTable ⟨sd b.str [], tn, .dropConstraint b.name⟩]
    | some _ => [])

/-- Replacing changed constraints: `diff_create_table.go:102-150`; `nv` is `UseAlterTableAddConstraintNotValid`.
The type switch looks at the constraint of `after` only. -/
def replaceConstraints (nv : Bool) (tn : ObjectName) (before after : List Constraint) : List CStmt :=
  before.flatMap (fun b =>
    match findConstraint b.name.name after with
    | none => []
    | some a =>
      if b.diffStr ≠ a.diffStr then
        match a with
        | .index n uq pre cs post => [.dropIndex (sd b.str a.str) false b.name, indexStmt [] tn n uq pre cs post]
        | _ => [.alterTable ⟨sd b.str [], tn, .dropConstraint b.name⟩, .alterTable ⟨sd [] a.str, tn, .addConstraint a nv⟩]
      else [])

/-- Adding new constraints: `diff_create_table.go:152-176`. -/
def addConstraints (nv : Bool) (tn : ObjectName) (before after : List Constraint) : List CStmt :=
  (onlyLeftConstraint after before).map (fun c =>
    match c with
    | .index n uq pre cs post => indexStmt (sd [] c.diffStr) tn n uq pre cs post
    | _ => .alterTable ⟨sd [] c.str, tn, .addConstraint c nv⟩)

/-- The name of `after` as it is after the rename branch (`diff_create_table.go:61-68`): through the pointer
`rename.NewName`, which is `after.Name`, the schema of `before` is written into `after.Name`. -/
def renamedName (before after : ObjectName) : ObjectName :=
  if before.diffStr ≠ after.diffStr ∧ after.schema = none then ⟨before.schema, after.name⟩ else after

/-- The RENAME statement: `diff_create_table.go:61-74`. The comment is computed after the schema was written. -/
def renameTable (before after : ObjectName) : List AlterTable :=
  if before.diffStr ≠ after.diffStr then
    [⟨sd before.diffStr (renamedName before after).diffStr, before, .renameTable (renamedName before after)⟩]
  else []

/-- `DiffCreateTable`: `diff_create_table.go:37-183`; `none` is the nil pointer; `nv` is the option
`UseAlterTableAddConstraintNotValid`.  `reflect.DeepEqual` implies equal strings and is left out.
With two nil arguments line 58 calls `before.GetNameForDiff()` on a nil pointer, which panics. -/
def diffCreateTable (nv : Bool) (before after : Option CreateTable) : Res (List CStmt) :=
  match before, after with
  | none, some a => .ok [.createTable a]
  | some b, none => .ok [.dropTable [] false b.name]
  | none, none => .panic .nilDeref
  | some b, some a =>
    if b.str = a.str then .err .noDifference
    else
      let tn := renamedName b.name a.name
      let r := (renameTable sd b.name a.name).map Stmt.alterTable ++ dropConstraints sd tn b.constraints a.constraints ++
        (diffColumns sd tn b.columns a.columns).map Stmt.alterTable ++ replaceConstraints sd nv tn b.constraints a.constraints ++
        addConstraints sd nv tn b.constraints a.constraints
      if r.isEmpty then .err .noDifference else .ok r

/-- The operations of the CockroachDB dialect. They are used in `pkg/ddl/cockroachdb/diff.go:15-126`. -/
def ops : Ops CreateTable CreateIndex AlterTable Ident where
  tableName := CreateTable.name
  tableStr := CreateTable.str
  indexName := CreateIndex.name
  indexStr := CreateIndex.str
  indexDiffStr := CreateIndex.diffStr
  nStr := Ident.str
  nDiffStr := Ident.diffStr
  alterName := AlterTable.name
  alterStr := AlterTable.str
  diffTable := fun b a => diffCreateTable sd false (some b) (some a)
  sd := sd

end
end Ddl.Crdb
