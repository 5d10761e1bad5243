import Verif.My.Ast

/-! # MySQL: diff of two table definitions (`pkg/ddl/mysql/diff_create_table.go`) -/

namespace Ddl.My

/-- `findColumnByName`: `diff_create_table.go:309-316`. -/
def findColumn (name : Str) (l : List Column) : Option Column := l.find? (fun c => c.name.name == name)

/-- `findConstraintByName`: `diff_create_table.go:329-336`. -/
def findConstraint (name : Str) (l : List Constraint) : Option Constraint := l.find? (fun c => c.name.name == name)

/-- `findOptionByName`: `diff_create_table.go:349-356`. -/
def findOption (name : Str) (l : List TableOption) : Option TableOption := l.find? (fun c => c.name == name)

/-- `onlyLeftColumn`: `diff_create_table.go:298-307`. -/
def onlyLeftColumn (left right : List Column) : List Column :=
  left.filter (fun c => (findColumn c.name.name right).isNone)

/-- `onlyLeftConstraint`: `diff_create_table.go:318-327`; note that it collects with `Append`, which replaces and sorts. -/
def onlyLeftConstraint (left right : List Constraint) : List Constraint :=
  (left.filter (fun c => (findConstraint c.name.name right).isNone)).foldl appendConstraint []

/-- `onlyLeftOption`: `diff_create_table.go:338-347`. -/
def onlyLeftOption (left right : List TableOption) : List TableOption :=
  left.filter (fun c => (findOption c.name right).isNone)

section
variable (sd : Str → Str → Str)

/-- `dropDefault`: `diff_create_table.go:247`. -/
def dropDefault (b a : Column) : Bool := b.default.isSome && a.default.isNone

/-- The `ModifyColumn` built at `diff_create_table.go:261-270`: it has no `CharacterSet`. -/
def modifyOf (a : Column) : Modify :=
  ⟨a.name, a.dataType, none, a.collate, a.notNull, a.autoIncrement, a.default, a.onAction, a.comment⟩

/-- The condition at `diff_create_table.go:249-256`. -/
def needsModify (b a : Column) : Prop :=
  b.dataType.diffStr ≠ a.dataType.diffStr ∨ identDiffStr b.characterSet ≠ identDiffStr a.characterSet ∨
    identDiffStr b.collate ≠ identDiffStr a.collate ∨ b.notNull ≠ a.notNull ∨
    (¬ dropDefault b a ∧ defaultDiffStr b.default ≠ defaultDiffStr a.default) ∨
    b.autoIncrement ≠ a.autoIncrement ∨ b.onAction ≠ a.onAction ∨ b.comment ≠ a.comment

instance (b a : Column) : Decidable (needsModify b a) := by unfold needsModify; infer_instance

/-- Alterations of a column present on both sides: `diff_create_table.go:247-283`.
`tn` is the name of the table in `after`. -/
def alterColumn (tn : ObjectName) (b a : Column) : List AlterTable :=
  (if needsModify b a then [⟨sd b.str a.str, tn, .modifyColumn (modifyOf a)⟩] else []) ++
  (if dropDefault b a then [⟨sd b.str a.str, tn, .dropDefault a.name⟩] else [])

/-- One round of the first loop of `diffCreateTableColumn`: `diff_create_table.go:233-284`. -/
def columnRound (tn : ObjectName) (after : List Column) (b : Column) : List AlterTable :=
  match findColumn b.name.name after with
  | none => [⟨sd b.str [], tn, .dropColumn b.name⟩]
  | some a => alterColumn sd tn b a

/-- `diffCreateTableColumn`: `diff_create_table.go:232-296`. -/
def diffColumns (tn : ObjectName) (before after : List Column) : List AlterTable :=
  before.flatMap (columnRound sd tn after) ++
    (onlyLeftColumn after before).map (fun c => ⟨sd [] c.str, tn, .addColumn c⟩)

/-- The index of an `IndexConstraint` as a statement, `diff_create_table.go:121-129` and `162-171`. -/
def indexStmt (comment : Str) (tn : ObjectName) (n : Ident) (uq : Bool) (cs : List ColumnIdent) : MStmt :=
  .createIndex ⟨comment, uq, false, ⟨tn.schema, n⟩, tn, [], cs⟩

/-- Dropping the constraints that are gone: `diff_create_table.go:76-101`; `bs` is `before.Name.Schema`. -/
def dropConstraints (bs : Option Ident) (tn : ObjectName) (before after : List Constraint) : List MStmt :=
  before.flatMap (fun b =>
    match findConstraint b.name.name after with
    | none =>
      match b with
      | .index .. => [.dropIndex (sd b.diffStr []) false ⟨bs, b.name⟩]
      | _ => [.alterTable ⟨sd b.str [], tn, .dropConstraint b.name⟩]
    | some _ => [])

/-- Replacing changed constraints: `diff_create_table.go:105-156`; `nv` is `UseAlterTableAddConstraintNotValid`.
The type switch looks at the constraint of `after` only. -/
def replaceConstraints (nv : Bool) (bs : Option Ident) (tn : ObjectName) (before after : List Constraint) : List MStmt :=
  before.flatMap (fun b =>
    match findConstraint b.name.name after with
    | none => []
    | some a =>
      if b.diffStr ≠ a.diffStr then
        match a with
        | .index n uq cs => [.dropIndex [] false ⟨bs, b.name⟩, indexStmt [] tn n uq cs]
        | _ => [.alterTable ⟨sd b.str [], tn, .dropConstraint b.name⟩, .alterTable ⟨sd [] a.str, tn, .addConstraint a nv⟩]
      else [])

/-- Adding new constraints: `diff_create_table.go:158-183`. -/
def addConstraints (nv : Bool) (tn : ObjectName) (before after : List Constraint) : List MStmt :=
  (onlyLeftConstraint after before).map (fun c =>
    match c with
    | .index n uq cs => indexStmt (sd [] c.diffStr) tn n uq cs
    | _ => .alterTable ⟨sd [] c.str, tn, .addConstraint c nv⟩)

/-- Changing options: `diff_create_table.go:187-206`. -/
def changeOptions (tn : ObjectName) (before after : List TableOption) : List AlterTable :=
  before.flatMap (fun b =>
    if upper b.name = s%"AUTO_INCREMENT" then []
    else match findOption b.name after with
      | none => []
      | some a => if b.diffStr ≠ a.diffStr then [⟨sd b.str a.str, tn, .tableOption a⟩] else [])

/-- Adding options: `diff_create_table.go:208-222`. -/
def addOptions (tn : ObjectName) (before after : List TableOption) : List AlterTable :=
  (onlyLeftOption after before).flatMap (fun a =>
    if upper a.name = s%"AUTO_INCREMENT" then [] else [⟨sd [] a.str, tn, .tableOption a⟩])

/-- The name of `after` as it is after the rename branch (`diff_create_table.go:61-68`): through the pointer
`rename.NewName`, which is `after.Name`, the schema of `before` is written into `after.Name`. -/
def renamedName (before after : ObjectName) : ObjectName :=
  if before.diffStr ≠ after.diffStr ∧ after.schema = none then ⟨before.schema, after.name⟩ else after

/-- The RENAME statement: `diff_create_table.go:61-74`. The comment is computed after the schema was written. -/
def renameTable (before after : ObjectName) : List AlterTable :=
  if before.diffStr ≠ after.diffStr then
    [⟨sd before.diffStr (renamedName before after).diffStr, before, .renameTable (renamedName before after)⟩]
  else []

/-- `DiffCreateTable`: `diff_create_table.go:37-229`; `none` is the nil pointer; `nv` is the option
`UseAlterTableAddConstraintNotValid`.  `reflect.DeepEqual` implies equal strings and is left out.
With two nil arguments line 58 calls `before.GetNameForDiff()` on a nil pointer, which panics. -/
def diffCreateTable (nv : Bool) (before after : Option CreateTable) : Res (List MStmt) :=
  match before, after with
  | none, some a => .ok [.createTable a]
  | some b, none => .ok [.dropTable [] false b.name]
  | none, none => .panic .nilDeref
  | some b, some a =>
    if b.str = a.str then .err .noDifference
    else
      let tn := renamedName b.name a.name
      let r := (renameTable sd b.name a.name).map Stmt.alterTable ++
        dropConstraints sd b.name.schema tn b.constraints a.constraints ++
        (diffColumns sd tn b.columns a.columns).map Stmt.alterTable ++
        replaceConstraints sd nv b.name.schema tn b.constraints a.constraints ++
        addConstraints sd nv tn b.constraints a.constraints ++
        (changeOptions sd tn b.options a.options ++ addOptions sd tn b.options a.options).map Stmt.alterTable
      if r.isEmpty then .err .noDifference else .ok r

/-- The operations of the MySQL dialect. They are used in `pkg/ddl/mysql/diff.go:15-126`. -/
def ops : Ops CreateTable CreateIndex AlterTable ObjectName where
  tableName := CreateTable.name
  tableStr := CreateTable.str
  indexName := CreateIndex.name
  indexStr := CreateIndex.str
  indexDiffStr := CreateIndex.diffStr
  nStr := ObjectName.str
  nDiffStr := ObjectName.diffStr
  alterName := AlterTable.name
  alterStr := AlterTable.str
  diffTable := fun b a => diffCreateTable sd false (some b) (some a)
  sd := sd

end
end Ddl.My
