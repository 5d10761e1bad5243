import Verif.Sp.Ast

/-! # Spanner: diff of two table definitions (`pkg/ddl/spanner/diff_create_table.go`) -/

namespace Ddl.Sp

/-- `findColumnByName`: `diff_create_table.go:276-283`. -/
def findColumn (name : Str) (l : List Column) : Option Column := l.find? (fun c => c.name.name == name)

/-- `findConstraintByName`: `diff_create_table.go:296-303`; a nil name on the way panics. -/
def findConstraint (name : Str) : List Constraint → Res (Option Constraint)
  | [] => .ok none
  | c :: r => do
    let n ← c.nameStr
    if n = name then .ok (some c) else findConstraint name r

/-- `onlyLeftColumn`: `diff_create_table.go:265-274`. -/
def onlyLeftColumn (left right : List Column) : List Column :=
  left.filter (fun c => (findColumn c.name.name right).isNone)

/-- `onlyLeftConstraint`: `diff_create_table.go:285-294`; `acc` is the result so far, collected with `Append`, which replaces. -/
def onlyLeftConstraint (right : List Constraint) : List Constraint → List Constraint → Res (List Constraint)
  | acc, [] => .ok acc
  | acc, c :: left => do
    let n ← c.nameStr
    let f ← findConstraint n right
    match f with
    | none =>
      let acc ← appendConstraint acc c
      onlyLeftConstraint right acc left
    | some _ => onlyLeftConstraint right acc left

section
variable (sd : Str → Str → Str)

/-- Alterations of a column present on both sides: `diff_create_table.go:194-250`.
`tn` is the name of the table in `after`. -/
def alterColumn (tn : ObjectName) (b a : Column) : List AlterTable :=
  (if b.dataType.diffStr ≠ a.dataType.diffStr ∨ b.notNull ≠ a.notNull then
    [⟨sd b.str a.str, tn, .alterDataType a.name a.dataType a.notNull⟩] else []) ++
  (if b.default.isSome ∧ a.default.isNone then
    [⟨sd b.str a.str, tn, .dropDefault a.name⟩]
  else if a.default.isSome ∧ defaultDiffStr b.default ≠ defaultDiffStr a.default then
    [⟨sd b.str a.str, tn, .setDefault a.name a.default⟩]
  else []) ++
  (if b.options.isSome ∧ a.options.isNone then
    [⟨sd b.str a.str, tn, .dropOptions a.name⟩]
  else if a.options.isSome ∧ optExprDiffStr b.options ≠ optExprDiffStr a.options then
    [⟨sd b.str a.str, tn, .setOptions a.name a.options⟩]
  else [])

/-- One round of the first loop of `diffCreateTableColumn`: `diff_create_table.go:180-251`. -/
def columnRound (tn : ObjectName) (after : List Column) (b : Column) : List AlterTable :=
  match findColumn b.name.name after with
  | none => [⟨sd b.str [], tn, .dropColumn b.name⟩]
  | some a => alterColumn sd tn b a

/-- `diffCreateTableColumn`: `diff_create_table.go:179-263`. -/
def diffColumns (tn : ObjectName) (before after : List Column) : List AlterTable :=
  before.flatMap (columnRound sd tn after) ++
    (onlyLeftColumn after before).map (fun c => ⟨sd [] c.str, tn, .addColumn c⟩)

/-- One round of dropping the constraints that are gone: `diff_create_table.go:83-96`. -/
def dropConstraint (tn : ObjectName) (after : List Constraint) (b : Constraint) : Res (List AlterTable) := do
  let n ← b.nameStr
  let f ← findConstraint n after
  match f with
  | none => .ok [⟨sd b.str [], tn, .dropConstraint b.name⟩]
  | some _ => .ok []

/-- One round of replacing changed constraints: `diff_create_table.go:100-127`;
`nv` is `UseAlterTableAddConstraintNotValid`. -/
def replaceConstraint (nv : Bool) (tn : ObjectName) (after : List Constraint) (b : Constraint) : Res (List AlterTable) := do
  let n ← b.nameStr
  let f ← findConstraint n after
  match f with
  | none => .ok []
  | some a =>
    if b.diffStr ≠ a.diffStr then
      .ok [⟨sd b.str [], tn, .dropConstraint b.name⟩, ⟨sd [] a.str, tn, .addConstraint a nv⟩]
    else .ok []

/-- The row deletion policy: `diff_create_table.go:141-169`. The last case cannot occur: then both texts would be empty. -/
def diffRowDeletionPolicy (tn : ObjectName) (before after : Option TableOption) : List AlterTable :=
  if optionDiffStr before ≠ optionDiffStr after then
    match before, after with
    | none, some a => [⟨sd [] a.str, tn, .addRowDeletionPolicy a⟩]
    | some b, none => [⟨sd b.str [], tn, .dropRowDeletionPolicy⟩]
    | some b, some a => [⟨sd b.str a.str, tn, .replaceRowDeletionPolicy a⟩]
    | none, none => []
  else []

/-- The name of `after` as it is after the rename branch (`diff_create_table.go:68-75`): through the pointer
`rename.NewName`, which is `after.Name`, the schema of `before` is written into `after.Name`. -/
def renamedName (before after : ObjectName) : ObjectName :=
  if before.diffStr ≠ after.diffStr ∧ after.schema = none then ⟨before.schema, after.name⟩ else after

/-- The RENAME statement: `diff_create_table.go:68-81`. The comment is computed after the schema was written. -/
def renameTable (before after : ObjectName) : List AlterTable :=
  if before.diffStr ≠ after.diffStr then
    [⟨sd before.diffStr (renamedName before after).diffStr, before, .renameTable (renamedName before after)⟩]
  else []

/-- `DiffCreateTable`: `diff_create_table.go:35-176`; `none` is the nil pointer; `nv` is the option
`UseAlterTableAddConstraintNotValid`.  `reflect.DeepEqual` implies equal strings and is left out.
With two nil arguments line 55 reads `before.Options` through a nil pointer, which panics. -/
def diffCreateTable (nv : Bool) (before after : Option CreateTable) : Res (List SStmt) :=
  match before, after with
  | none, some a => .ok [.createTable a]
  | some b, none => .ok [.dropTable [] false b.name]
  | none, none => .panic .nilDeref
  | some b, some a =>
    if optionsDiffStr b.options ≠ optionsDiffStr a.options then
      .ok [.dropTable (sd (optionsStr b.options) (optionsStr a.options)) false b.name, .createTable a]
    else if b.str = a.str then .err .noDifference
    else do
      let tn := renamedName b.name a.name
      let dropped ← flatMapRes (dropConstraint sd tn a.constraints) b.constraints
      let replaced ← flatMapRes (replaceConstraint sd nv tn a.constraints) b.constraints
      let added ← onlyLeftConstraint b.constraints [] a.constraints
      let r := renameTable sd b.name a.name ++ dropped ++ diffColumns sd tn b.columns a.columns ++ replaced ++
        added.map (fun c => ⟨sd [] c.str, tn, .addConstraint c nv⟩) ++
        diffRowDeletionPolicy sd tn b.rowDeletionPolicy a.rowDeletionPolicy
      if r.isEmpty then .err .noDifference else .ok (r.map Stmt.alterTable)

/-- The operations of the Spanner dialect. They are used in `pkg/ddl/spanner/diff.go:15-126`. -/
def ops : Ops CreateTable CreateIndex AlterTable ObjectName where
  tableName := CreateTable.name
  tableStr := CreateTable.str
  indexName := CreateIndex.name
  indexStr := CreateIndex.str
  indexDiffStr := CreateIndex.diffStr
  nStr := ObjectName.str
  nDiffStr := ObjectName.diffStr
  alterName := AlterTable.name
  alterStr := AlterTable.str
  diffTable := fun b a => diffCreateTable sd false (some b) (some a)
  sd := sd

end
end Ddl.Sp
