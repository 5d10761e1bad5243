import Verif.Pg.Ast

/-! # PostgreSQL: diff of two table definitions (`pkg/ddl/postgres/diff_create_table.go`) -/

namespace Ddl.Pg

/-- `findColumnByName`: `diff_create_table.go:235-242`. -/
def findColumn (name : Str) (l : List Column) : Option Column := l.find? (fun c => c.name.name == name)

/-- `findConstraintByName`: `diff_create_table.go:255-262`. -/
def findConstraint (name : Str) (l : List Constraint) : Option Constraint := l.find? (fun c => c.name.name == name)

/-- `onlyLeftColumn`: `diff_create_table.go:224-233`. -/
def onlyLeftColumn (left right : List Column) : List Column :=
  left.filter (fun c => (findColumn c.name.name right).isNone)

/-- `onlyLeftConstraint`: `diff_create_table.go:244-253`; note that it collects with `Append`, which replaces. -/
def onlyLeftConstraint (left right : List Constraint) : List Constraint :=
  (left.filter (fun c => (findConstraint c.name.name right).isNone)).foldl appendConstraint []

section
variable (sd : Str → Str → Str)

/-- Alterations of a column present on both sides: `diff_create_table.go:156-209`.
`tn` is the name of the table in `after`. -/
def alterColumn (tn : ObjectName) (b a : Column) : List AlterTable :=
  (if b.dataType.diffStr ≠ a.dataType.diffStr then
    [⟨sd b.str a.str, tn, .setDataType a.name a.dataType⟩] else []) ++
  (if b.default.isSome ∧ a.default.isNone then
    [⟨sd b.str a.str, tn, .dropDefault a.name⟩]
  else if a.default.isSome ∧ defaultDiffStr b.default ≠ defaultDiffStr a.default then
    [⟨sd b.str a.str, tn, .setDefault a.name a.default⟩]
  else []) ++
  (if b.notNull ∧ ¬ a.notNull then [⟨sd b.str a.str, tn, .dropNotNull a.name⟩]
  else if ¬ b.notNull ∧ a.notNull then [⟨sd b.str a.str, tn, .setNotNull a.name⟩]
  else [])

/-- One round of the first loop of `diffCreateTableColumn`: `diff_create_table.go:142-210`. -/
def columnRound (tn : ObjectName) (after : List Column) (b : Column) : List AlterTable :=
  match findColumn b.name.name after with
  | none => [⟨sd b.str [], tn, .dropColumn b.name⟩]
  | some a => alterColumn sd tn b a

/-- `diffCreateTableColumn`: `diff_create_table.go:141-222`. -/
def diffColumns (tn : ObjectName) (before after : List Column) : List AlterTable :=
  before.flatMap (columnRound sd tn after) ++
    (onlyLeftColumn after before).map (fun c => ⟨sd [] c.str, tn, .addColumn c⟩)

/-- Dropping the constraints that are gone: `diff_create_table.go:75-88`. -/
def dropConstraints (tn : ObjectName) (before after : List Constraint) : List AlterTable :=
  before.flatMap (fun b =>
    match findConstraint b.name.name after with
    | none => [⟨sd b.str [], tn, .dropConstraint b.name⟩]
    | some _ => [])

/-- Replacing changed constraints: `diff_create_table.go:92-119`; `nv` is `UseAlterTableAddConstraintNotValid`. -/
def replaceConstraints (nv : Bool) (tn : ObjectName) (before after : List Constraint) : List AlterTable :=
  before.flatMap (fun b =>
    match findConstraint b.name.name after with
    | none => []
    | some a =>
      if b.diffStr ≠ a.diffStr then
        [⟨sd b.str [], tn, .dropConstraint b.name⟩, ⟨sd [] a.str, tn, .addConstraint a nv⟩]
      else [])

/-- Adding new constraints: `diff_create_table.go:121-131`. -/
def addConstraints (nv : Bool) (tn : ObjectName) (before after : List Constraint) : List AlterTable :=
  (onlyLeftConstraint after before).map (fun c => ⟨sd [] c.str, tn, .addConstraint c nv⟩)

/-- The name of `after` as it is after the rename branch (`diff_create_table.go:60-67`): through the pointer
`rename.NewName`, which is `after.Name`, the schema of `before` is written into `after.Name`. -/
def renamedName (before after : ObjectName) : ObjectName :=
  if before.diffStr ≠ after.diffStr ∧ after.schema = none then ⟨before.schema, after.name⟩ else after

/-- The RENAME statement: `diff_create_table.go:60-73`. The comment is computed after the schema was written. -/
def renameTable (before after : ObjectName) : List AlterTable :=
  if before.diffStr ≠ after.diffStr then
    [⟨sd before.diffStr (renamedName before after).diffStr, before, .renameTable (renamedName before after)⟩]
  else []

/-- `DiffCreateTable`: `diff_create_table.go:36-138`; `none` is the nil pointer; `nv` is the option
`UseAlterTableAddConstraintNotValid`.  `reflect.DeepEqual` implies equal strings and is left out.
With two nil arguments line 57 calls `before.GetNameForDiff()` on a nil pointer, which panics. -/
def diffCreateTable (nv : Bool) (before after : Option CreateTable) : Res (List PStmt) :=
  match before, after with
  | none, some a => .ok [.createTable a]
  | some b, none => .ok [.dropTable [] false b.name]
  | none, none => .panic .nilDeref
  | some b, some a =>
    if b.str = a.str then .err .noDifference
    else
      let tn := renamedName b.name a.name
      let r := renameTable sd b.name a.name ++ dropConstraints sd tn b.constraints a.constraints ++
        diffColumns sd tn b.columns a.columns ++ replaceConstraints sd nv tn b.constraints a.constraints ++
        addConstraints sd nv tn b.constraints a.constraints
      if r.isEmpty then .err .noDifference else .ok (r.map Stmt.alterTable)

/-- The operations of the PostgreSQL dialect. They are used in `pkg/ddl/postgres/diff.go:15-126`. -/
def ops : Ops CreateTable CreateIndex AlterTable Ident where
  tableName := CreateTable.name
  tableStr := CreateTable.str
  indexName := CreateIndex.name
  indexStr := CreateIndex.str
  indexDiffStr := CreateIndex.diffStr
  nStr := Ident.str
  nDiffStr := Ident.diffStr
  alterName := AlterTable.name
  alterStr := AlterTable.str
  diffTable := fun b a => diffCreateTable sd false (some b) (some a)
  sd := sd

end
end Ddl.Pg
