import Verif.Stmt
import Verif.Spec.Once
import Verif.Pg.Ast
import Verif.Crdb.Ast
import Verif.My.Ast
import Verif.Sp.Ast

/-!
# Specification vocabulary: the reason for a statement of a migration

What a statement states is so in the new schema and not in the old one.  Names are compared without quotes, definitions by the text without quotes and
with types in their usual spelling (`diffStr`).
-/

namespace Ddl.Spec
set_option autoImplicit false

/-- The list has no definition with the name of `k`, or another one. -/
def Differs {K M : Type} (name : K → M) (text : K → Str) (k : K) (l : List K) : Prop :=
  (∀ x ∈ l, name x ≠ name k) ∨ ∃ x ∈ l, name x = name k ∧ text x ≠ text k

/-- The indexes that are defined by statements. -/
def indexDefs {T I A N : Type} (l : List (Stmt T I A N)) : List I :=
  l.filterMap fun
    | .createIndex i => some i
    | _ => none

/-- The reasons for changes inside a table, given the old and the new definition. -/
structure Reasons (T I A N : Type) where
  alter : T → T → A → Prop
  recreate : T → T → Prop
  dropIndex : T → T → N → Prop
  createIndex : T → T → I → Prop

/-- The reason for a statement of a migration from `b` to `a`: a table or index is created as the new schema defines it, if the old one does not have it
or has another one; it is dropped if the new schema does not have it or has another one; a change in a table of both schemas has a reason there. -/
def HasReason {T I A N : Type} (o : Ops T I A N) (w : Reasons T I A N) (b a : List (Stmt T I A N)) : Stmt T I A N → Prop
  | .createTable t => t ∈ tableDefs a ∧ ((∀ t₀ ∈ tableDefs b, (o.tableName t₀).diffStr ≠ (o.tableName t).diffStr) ∨
      ∃ t₀ ∈ tableDefs b, (o.tableName t₀).diffStr = (o.tableName t).diffStr ∧ w.recreate t₀ t)
  | .dropTable _ ifExists n => ifExists = false ∧ ∃ t ∈ tableDefs b, o.tableName t = n ∧
      ((∀ t' ∈ tableDefs a, (o.tableName t').diffStr ≠ n.diffStr) ∨ ∃ t' ∈ tableDefs a, (o.tableName t').diffStr = n.diffStr ∧ w.recreate t t')
  | .createIndex i => (i ∈ indexDefs a ∧ Differs (fun x => o.nDiffStr (o.indexName x)) o.indexDiffStr i (indexDefs b)) ∨
      ∃ t ∈ tableDefs b, ∃ t' ∈ tableDefs a, (o.tableName t).diffStr = (o.tableName t').diffStr ∧ w.createIndex t t' i
  | .dropIndex _ ifExists n => ifExists = false ∧
      ((∃ i ∈ indexDefs b, o.indexName i = n ∧ Differs (fun x => o.nDiffStr (o.indexName x)) o.indexDiffStr i (indexDefs a)) ∨
      ∃ t ∈ tableDefs b, ∃ t' ∈ tableDefs a, (o.tableName t).diffStr = (o.tableName t').diffStr ∧ w.dropIndex t t' n)
  | .alterTable x => ∃ t ∈ tableDefs b, ∃ t' ∈ tableDefs a, (o.tableName t).diffStr = (o.tableName t').diffStr ∧ w.alter t t' x

end Ddl.Spec

namespace Ddl
open Spec

namespace Pg

/-- The reason for an `ALTER TABLE`. -/
def alterReason (t t' : CreateTable) (x : AlterTable) : Prop := x.name = t'.name ∧ match x.action with
  | .addColumn c => c ∈ t'.columns ∧ ∀ c₀ ∈ t.columns, c₀.name.name ≠ c.name.name
  | .dropColumn n => (∃ c₀ ∈ t.columns, c₀.name = n) ∧ ∀ c ∈ t'.columns, c.name.name ≠ n.name
  | .setDataType n d => ∃ c₀ ∈ t.columns, ∃ c ∈ t'.columns, c₀.name.name = c.name.name ∧ c.name = n ∧ c.dataType = d ∧ c₀.dataType.diffStr ≠ d.diffStr
  | .setDefault n d => ∃ c₀ ∈ t.columns, ∃ c ∈ t'.columns, c₀.name.name = c.name.name ∧ c.name = n ∧ c.default = d ∧ d.isSome ∧ defaultDiffStr c₀.default ≠ defaultDiffStr d
  | .dropDefault n => ∃ c₀ ∈ t.columns, ∃ c ∈ t'.columns, c₀.name.name = c.name.name ∧ c.name = n ∧ c.default = none ∧ c₀.default.isSome
  | .setNotNull n => ∃ c₀ ∈ t.columns, ∃ c ∈ t'.columns, c₀.name.name = c.name.name ∧ c.name = n ∧ c.notNull = true ∧ c₀.notNull = false
  | .dropNotNull n => ∃ c₀ ∈ t.columns, ∃ c ∈ t'.columns, c₀.name.name = c.name.name ∧ c.name = n ∧ c.notNull = false ∧ c₀.notNull = true
  | .addConstraint k notValid => notValid = false ∧ k ∈ t'.constraints ∧ Differs (fun k : Constraint => k.name.name) Constraint.diffStr k t.constraints
  | .dropConstraint n => ∃ k ∈ t.constraints, k.name = n ∧ Differs (fun k : Constraint => k.name.name) Constraint.diffStr k t'.constraints
  | _ => False

/-- The reasons for changes of a table. A table is never created anew. -/
def reasons : Reasons CreateTable CreateIndex AlterTable Ident where
  alter := alterReason
  recreate _ _ := False
  dropIndex _ _ _ := False
  createIndex _ _ _ := False

end Pg

/-- The constraint is an index. -/
def Crdb.isIndex : Crdb.Constraint → Bool
  | .index .. => true
  | _ => false

/-- No constraint of a table becomes an index, and no index becomes another constraint. -/
def Crdb.SameKinds (b a : List Crdb.CStmt) : Prop :=
  ∀ t ∈ tableDefs b, ∀ t' ∈ tableDefs a, t.name.diffStr = t'.name.diffStr →
    ∀ k ∈ t.constraints, ∀ k' ∈ t'.constraints, k.name.name = k'.name.name → Crdb.isIndex k = Crdb.isIndex k'

namespace Crdb

/-- The reason for an `ALTER TABLE`. -/
def alterReason (t t' : CreateTable) (x : AlterTable) : Prop := x.name = t'.name ∧ match x.action with
  | .addColumn c => c ∈ t'.columns ∧ ∀ c₀ ∈ t.columns, c₀.name.name ≠ c.name.name
  | .dropColumn n => (∃ c₀ ∈ t.columns, c₀.name = n) ∧ ∀ c ∈ t'.columns, c.name.name ≠ n.name
  | .setDataType n d => ∃ c₀ ∈ t.columns, ∃ c ∈ t'.columns, c₀.name.name = c.name.name ∧ c.name = n ∧ c.dataType = d ∧ c₀.dataType.diffStr ≠ d.diffStr
  | .setDefault n d => ∃ c₀ ∈ t.columns, ∃ c ∈ t'.columns, c₀.name.name = c.name.name ∧ c.name = n ∧ c.default = d ∧ d.isSome ∧ defaultDiffStr c₀.default ≠ defaultDiffStr d
  | .dropDefault n => ∃ c₀ ∈ t.columns, ∃ c ∈ t'.columns, c₀.name.name = c.name.name ∧ c.name = n ∧ c.default = none ∧ c₀.default.isSome
  | .setNotNull n => ∃ c₀ ∈ t.columns, ∃ c ∈ t'.columns, c₀.name.name = c.name.name ∧ c.name = n ∧ c.notNull = true ∧ c₀.notNull = false
  | .dropNotNull n => ∃ c₀ ∈ t.columns, ∃ c ∈ t'.columns, c₀.name.name = c.name.name ∧ c.name = n ∧ c.notNull = false ∧ c₀.notNull = true
  | .addConstraint k notValid => notValid = false ∧ k ∈ t'.constraints ∧ Crdb.isIndex k = false ∧ Differs (fun k : Constraint => k.name.name) Constraint.diffStr k t.constraints
  | .dropConstraint n => ∃ k ∈ t.constraints, k.name = n ∧ Crdb.isIndex k = false ∧ Differs (fun k : Constraint => k.name.name) Constraint.diffStr k t'.constraints
  | _ => False

/-- The reasons for changes of a table. An index declared inside a table is dropped and created on its own. -/
def reasons : Reasons CreateTable CreateIndex AlterTable Ident where
  alter := alterReason
  recreate _ _ := False
  dropIndex t t' n := ∃ k ∈ t.constraints, k.name = n ∧ isIndex k = true ∧ Differs (fun k : Constraint => k.name.name) Constraint.diffStr k t'.constraints
  createIndex t t' i := i.tableName = t'.name ∧ i.ifNotExists = false ∧ .index i.name i.isUnique i.usingPre i.columns i.usingPost ∈ t'.constraints ∧
      Differs (fun k : Constraint => k.name.name) Constraint.diffStr (.index i.name i.isUnique i.usingPre i.columns i.usingPost) t.constraints

end Crdb

/-- The constraint is an index. -/
def My.isIndex : My.Constraint → Bool
  | .index .. => true
  | _ => false

/-- No constraint of a table becomes an index, and no index becomes another constraint. -/
def My.SameKinds (b a : List My.MStmt) : Prop :=
  ∀ t ∈ tableDefs b, ∀ t' ∈ tableDefs a, t.name.diffStr = t'.name.diffStr →
    ∀ k ∈ t.constraints, ∀ k' ∈ t'.constraints, k.name.name = k'.name.name → My.isIndex k = My.isIndex k'

namespace My

/-- The reason for an `ALTER TABLE`. What `MODIFY` says about the character set is left out. -/
def alterReason (t t' : CreateTable) (x : AlterTable) : Prop := x.name = t'.name ∧ match x.action with
  | .addColumn c => c ∈ t'.columns ∧ ∀ c₀ ∈ t.columns, c₀.name.name ≠ c.name.name
  | .dropColumn n => (∃ c₀ ∈ t.columns, c₀.name = n) ∧ ∀ c ∈ t'.columns, c.name.name ≠ n.name
  | .modifyColumn m => ∃ c₀ ∈ t.columns, ∃ c ∈ t'.columns, c₀.name.name = c.name.name ∧
      m.name = c.name ∧ m.dataType = c.dataType ∧ m.collate = c.collate ∧ m.notNull = c.notNull ∧ m.autoIncrement = c.autoIncrement ∧
      m.default = c.default ∧ m.onAction = c.onAction ∧ m.comment = c.comment ∧
      (c₀.dataType.diffStr ≠ c.dataType.diffStr ∨ identDiffStr c₀.characterSet ≠ identDiffStr c.characterSet ∨ identDiffStr c₀.collate ≠ identDiffStr c.collate ∨
        c₀.notNull ≠ c.notNull ∨ defaultDiffStr c₀.default ≠ defaultDiffStr c.default ∨ c₀.autoIncrement ≠ c.autoIncrement ∨ c₀.onAction ≠ c.onAction ∨ c₀.comment ≠ c.comment)
  | .dropDefault n => ∃ c₀ ∈ t.columns, ∃ c ∈ t'.columns, c₀.name.name = c.name.name ∧ c.name = n ∧ c.default = none ∧ c₀.default.isSome
  | .tableOption p => p ∈ t'.options ∧ upper p.name ≠ s%"AUTO_INCREMENT" ∧ Differs TableOption.name TableOption.diffStr p t.options
  | .addConstraint k notValid => notValid = false ∧ k ∈ t'.constraints ∧ My.isIndex k = false ∧ Differs (fun k : Constraint => k.name.name) Constraint.diffStr k t.constraints
  | .dropConstraint n => ∃ k ∈ t.constraints, k.name = n ∧ My.isIndex k = false ∧ Differs (fun k : Constraint => k.name.name) Constraint.diffStr k t'.constraints
  | _ => False

/-- The reasons for changes of a table. An index declared inside a table is dropped and created on its own. -/
def reasons : Reasons CreateTable CreateIndex AlterTable ObjectName where
  alter := alterReason
  recreate _ _ := False
  dropIndex t t' n := n.schema = t.name.schema ∧ ∃ k ∈ t.constraints, k.name = n.name ∧ isIndex k = true ∧ Differs (fun k : Constraint => k.name.name) Constraint.diffStr k t'.constraints
  createIndex t t' i := i.tableName = t'.name ∧ i.ifNotExists = false ∧ i.name.schema = t'.name.schema ∧ .index i.name.name i.isUnique i.columns ∈ t'.constraints ∧
      Differs (fun k : Constraint => k.name.name) Constraint.diffStr (.index i.name.name i.isUnique i.columns) t.constraints

end My

namespace Sp

/-- The reason for an `ALTER TABLE`. -/
def alterReason (t t' : CreateTable) (x : AlterTable) : Prop := x.name = t'.name ∧ match x.action with
  | .addColumn c => c ∈ t'.columns ∧ ∀ c₀ ∈ t.columns, c₀.name.name ≠ c.name.name
  | .dropColumn n => (∃ c₀ ∈ t.columns, c₀.name = n) ∧ ∀ c ∈ t'.columns, c.name.name ≠ n.name
  | .alterDataType n d nn => ∃ c₀ ∈ t.columns, ∃ c ∈ t'.columns, c₀.name.name = c.name.name ∧ c.name = n ∧ c.dataType = d ∧ c.notNull = nn ∧ (c₀.dataType.diffStr ≠ d.diffStr ∨ c₀.notNull ≠ nn)
  | .setDefault n d => ∃ c₀ ∈ t.columns, ∃ c ∈ t'.columns, c₀.name.name = c.name.name ∧ c.name = n ∧ c.default = d ∧ d.isSome ∧ defaultDiffStr c₀.default ≠ defaultDiffStr d
  | .dropDefault n => ∃ c₀ ∈ t.columns, ∃ c ∈ t'.columns, c₀.name.name = c.name.name ∧ c.name = n ∧ c.default = none ∧ c₀.default.isSome
  | .setOptions n e => ∃ c₀ ∈ t.columns, ∃ c ∈ t'.columns, c₀.name.name = c.name.name ∧ c.name = n ∧ c.options = e ∧ e.isSome ∧ optExprDiffStr c₀.options ≠ optExprDiffStr e
  | .dropOptions n => ∃ c₀ ∈ t.columns, ∃ c ∈ t'.columns, c₀.name.name = c.name.name ∧ c.name = n ∧ c.options = none ∧ c₀.options.isSome
  | .addRowDeletionPolicy p => t.rowDeletionPolicy = none ∧ t'.rowDeletionPolicy = some p
  | .replaceRowDeletionPolicy p => t'.rowDeletionPolicy = some p ∧ ∃ q, t.rowDeletionPolicy = some q ∧ q.diffStr ≠ p.diffStr
  | .dropRowDeletionPolicy => t.rowDeletionPolicy.isSome ∧ t'.rowDeletionPolicy = none
  | .addConstraint k notValid => notValid = false ∧ k ∈ t'.constraints ∧ Differs (fun k : Constraint => k.name.map (·.name)) Constraint.diffStr k t.constraints
  | .dropConstraint n => ∃ k ∈ t.constraints, k.name = n ∧ Differs (fun k : Constraint => k.name.map (·.name)) Constraint.diffStr k t'.constraints
  | _ => False

/-- The reasons for changes of a table. A table is created anew if its key or its options change. -/
def reasons : Reasons CreateTable CreateIndex AlterTable ObjectName where
  alter := alterReason
  recreate t t' := optionsDiffStr t.options ≠ optionsDiffStr t'.options
  dropIndex _ _ _ := False
  createIndex _ _ _ := False

end Sp

end Ddl
