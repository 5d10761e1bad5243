import Verif.Pg.Ast
import Verif.Crdb.Ast
import Verif.My.Ast
import Verif.Sp.Ast

/-!
# Specification vocabulary: when do two schemas describe the same thing?

A definition is made *bare* by forgetting everything that does not matter to the database: quoting of identifiers, spelling of
type names (the parser has already determined which type it is), comments and `IF NOT EXISTS`.
Two schemas are the same when they have the same bare definitions, in whatever order.
-/

namespace Ddl

/-- An identifier without its quoting. -/
def Ident.bare (i : Ident) : Ident := ⟨i.name, [], []⟩

/-- An object name without its quoting. -/
def ObjectName.bare (n : ObjectName) : ObjectName := ⟨n.schema.map Ident.bare, n.name.bare⟩

namespace Spec

/-- The two lists have the same elements. -/
def SameElems {α : Type} (l r : List α) : Prop := ∀ x, x ∈ l ↔ x ∈ r

section
variable {T I A N : Type}

/-- Two CREATE statements that define the same object. -/
inductive SameStmt (sameT : T → T → Prop) (sameI : I → I → Prop) : Stmt T I A N → Stmt T I A N → Prop where
  | table {t t' : T} : sameT t t' → SameStmt sameT sameI (.createTable t) (.createTable t')
  | index {i i' : I} : sameI i i' → SameStmt sameT sameI (.createIndex i) (.createIndex i')

/-- Two schemas that define the same objects. -/
def SameSchema (sameT : T → T → Prop) (sameI : I → I → Prop) (b a : List (Stmt T I A N)) : Prop :=
  (∀ s ∈ b, ∃ s' ∈ a, SameStmt sameT sameI s s') ∧ (∀ s' ∈ a, ∃ s ∈ b, SameStmt sameT sameI s s')

end
end Spec

open Spec

/-! ## PostgreSQL -/

namespace Pg

/-- `DataType` without quoting and spelling. -/
def DataType.bare (t : DataType) : DataType := ⟨[], t.type, t.expr.map Ident.bare⟩
/-- `Default` without quoting and spelling. -/
def Default.bare (d : Default) : Default := ⟨d.value.map (·.map Ident.bare)⟩
/-- `Column` without quoting and spelling. -/
def Column.bare (c : Column) : Column := ⟨c.name.bare, c.dataType.bare, c.default.map Default.bare, c.notNull⟩

/-- `Constraint` without quoting and spelling. -/
def Constraint.bare : Constraint → Constraint
  | .primaryKey n cs => .primaryKey n.bare (cs.map Ident.bare)
  | .foreignKey n cs r rcs act => .foreignKey n.bare (cs.map Ident.bare) r.bare (rcs.map Ident.bare) act
  | .unique n cs => .unique n.bare (cs.map Ident.bare)
  | .check n e => .check n.bare (e.map Ident.bare)

/-- `CreateIndex` without quoting and spelling. -/
def CreateIndex.bare (i : CreateIndex) : CreateIndex :=
  ⟨[], i.isUnique, false, i.name.bare, i.tableName.bare, i.using_.map Ident.bare, i.columns.map Ident.bare⟩

/-- The same table: name, columns and constraints. -/
def SameTable (t t' : CreateTable) : Prop :=
  t.name.bare = t'.name.bare ∧ SameElems (t.columns.map Column.bare) (t'.columns.map Column.bare) ∧
    SameElems (t.constraints.map Constraint.bare) (t'.constraints.map Constraint.bare)

/-- The same index. -/
def SameIndex (i i' : CreateIndex) : Prop := i.bare = i'.bare

/-- Column names and constraint names are distinct. -/
def DistinctNames (t : CreateTable) : Prop :=
  (t.columns.map (·.name.name)).Nodup ∧ (t.constraints.map (·.name.name)).Nodup

end Pg

/-! ## CockroachDB -/

namespace Crdb

/-- An index column; no order means ascending. -/
def ColumnIdent.bare (i : ColumnIdent) : ColumnIdent := ⟨i.ident.bare, some (i.order = some true)⟩
/-- `DataType` without quoting and spelling. -/
def DataType.bare (t : DataType) : DataType := ⟨[], t.type, t.expr.map Ident.bare⟩
/-- `Default` without quoting and spelling. -/
def Default.bare (d : Default) : Default := ⟨d.value.map (·.map Ident.bare)⟩
/-- `As` without quoting and spelling. -/
def As.bare (a : As) : As := ⟨a.value.map (·.map Ident.bare), a.type⟩
/-- `Column` without quoting and spelling. -/
def Column.bare (c : Column) : Column :=
  ⟨c.name.bare, c.dataType.bare, c.default.map Default.bare, c.notNull, c.notVisible, c.as_.map As.bare⟩

/-- The words behind `USING` and `WITH` are kept as written. -/
def Constraint.bare : Constraint → Constraint
  | .primaryKey n cs => .primaryKey n.bare (cs.map ColumnIdent.bare)
  | .foreignKey n cs r rcs act => .foreignKey n.bare (cs.map ColumnIdent.bare) r.bare (rcs.map ColumnIdent.bare) act
  | .index n uq pre cs post => .index n.bare uq pre (cs.map ColumnIdent.bare) post
  | .check n e => .check n.bare (e.map Ident.bare)

@[inherit_doc Constraint.bare]
def CreateIndex.bare (i : CreateIndex) : CreateIndex :=
  ⟨[], i.isUnique, false, i.name.bare, i.tableName.bare, i.usingPre, i.columns.map ColumnIdent.bare, i.usingPost⟩

/-- The same table: name, columns and constraints. -/
def SameTable (t t' : CreateTable) : Prop :=
  t.name.bare = t'.name.bare ∧ SameElems (t.columns.map Column.bare) (t'.columns.map Column.bare) ∧
    SameElems (t.constraints.map Constraint.bare) (t'.constraints.map Constraint.bare)

/-- The same index. -/
def SameIndex (i i' : CreateIndex) : Prop := i.bare = i'.bare

/-- Column names and constraint names are distinct. -/
def DistinctNames (t : CreateTable) : Prop :=
  (t.columns.map (·.name.name)).Nodup ∧ (t.constraints.map (·.name.name)).Nodup

end Crdb

/-! ## MySQL -/

namespace My

/-- An index column; no order means ascending. -/
def ColumnIdent.bare (i : ColumnIdent) : ColumnIdent := ⟨i.ident.bare, some (i.order = some true)⟩
/-- `DataType` without quoting and spelling. -/
def DataType.bare (t : DataType) : DataType := ⟨[], t.type, t.expr.map Ident.bare⟩
/-- `Default` without quoting and spelling. -/
def Default.bare (d : Default) : Default := ⟨d.value.map (·.map Ident.bare)⟩
/-- `Column` without quoting and spelling. -/
def Column.bare (c : Column) : Column :=
  ⟨c.name.bare, c.dataType.bare, c.characterSet.map Ident.bare, c.collate.map Ident.bare, c.default.map Default.bare, c.notNull,
    c.autoIncrement, c.onAction, c.comment⟩

/-- `Constraint` without quoting and spelling. -/
def Constraint.bare : Constraint → Constraint
  | .primaryKey n cs => .primaryKey n.bare (cs.map ColumnIdent.bare)
  | .foreignKey n cs r rcs act => .foreignKey n.bare (cs.map ColumnIdent.bare) r.bare (rcs.map ColumnIdent.bare) act
  | .index n uq cs => .index n.bare uq (cs.map ColumnIdent.bare)
  | .check n e => .check n.bare (e.map Ident.bare)

/-- `CreateIndex` without quoting and spelling. -/
def CreateIndex.bare (i : CreateIndex) : CreateIndex :=
  ⟨[], i.isUnique, false, i.name.bare, i.tableName.bare, i.using_.map Ident.bare, i.columns.map ColumnIdent.bare⟩

/-- `TableOption` without quoting and spelling. -/
def TableOption.bare (o : TableOption) : TableOption := ⟨o.name, o.value.map Ident.bare⟩

/-- The same table: name, columns, constraints and options. -/
def SameTable (t t' : CreateTable) : Prop :=
  t.name.bare = t'.name.bare ∧ SameElems (t.columns.map Column.bare) (t'.columns.map Column.bare) ∧
    SameElems (t.constraints.map Constraint.bare) (t'.constraints.map Constraint.bare) ∧
    SameElems (t.options.map TableOption.bare) (t'.options.map TableOption.bare)

/-- The same index. -/
def SameIndex (i i' : CreateIndex) : Prop := i.bare = i'.bare

/-- Column names, constraint names and option names are distinct. -/
def DistinctNames (t : CreateTable) : Prop :=
  (t.columns.map (·.name.name)).Nodup ∧ (t.constraints.map (·.name.name)).Nodup ∧ (t.options.map (·.name)).Nodup

end My

/-! ## Spanner -/

namespace Sp

/-- An index column; no order means ascending. -/
def ColumnIdent.bare (i : ColumnIdent) : ColumnIdent := ⟨i.ident.bare, some (i.order = some true)⟩
/-- `DataType` without quoting and spelling. -/
def DataType.bare (t : DataType) : DataType := ⟨[], t.type, t.expr.map Ident.bare⟩
/-- `Default` without quoting and spelling. -/
def Default.bare (d : Default) : Default := ⟨d.value.map (·.map Ident.bare)⟩
/-- `Column` without quoting and spelling. -/
def Column.bare (c : Column) : Column :=
  ⟨c.name.bare, c.dataType.bare, c.default.map Default.bare, c.notNull, c.options.map (·.map Ident.bare)⟩

/-- `Constraint` without quoting and spelling. -/
def Constraint.bare : Constraint → Constraint
  | .foreignKey n cs r rcs => .foreignKey n.bare (cs.map ColumnIdent.bare) r.bare (rcs.map ColumnIdent.bare)
  | .check n e => .check (n.map Ident.bare) (e.map Ident.bare)

/-- `CreateIndex` without quoting and spelling. -/
def CreateIndex.bare (i : CreateIndex) : CreateIndex :=
  ⟨[], i.isUnique, false, i.name.bare, i.tableName.bare, i.using_.map Ident.bare, i.columns.map ColumnIdent.bare⟩

/-- `TableOption` without quoting and spelling. -/
def TableOption.bare (o : TableOption) : TableOption := ⟨o.name, o.value.map Ident.bare⟩

/-- The same table: name, columns, constraints, options (in the same order) and row deletion policy. -/
def SameTable (t t' : CreateTable) : Prop :=
  t.name.bare = t'.name.bare ∧ SameElems (t.columns.map Column.bare) (t'.columns.map Column.bare) ∧
    SameElems (t.constraints.map Constraint.bare) (t'.constraints.map Constraint.bare) ∧
    t.options.map TableOption.bare = t'.options.map TableOption.bare ∧
    t.rowDeletionPolicy.map TableOption.bare = t'.rowDeletionPolicy.map TableOption.bare

/-- The same index. -/
def SameIndex (i i' : CreateIndex) : Prop := i.bare = i'.bare

/-- Column names and constraint names are distinct and no constraint is nameless. -/
def DistinctNames (t : CreateTable) : Prop :=
  (t.columns.map (·.name.name)).Nodup ∧ (t.constraints.map (fun k => k.name.map Ident.name)).Nodup ∧
    ∀ k ∈ t.constraints, k.name ≠ none

end Sp

end Ddl
