import Verif.Stmt
import Verif.Spec.Reason

/-!
# Specification vocabulary: differences that a migration answers

The counterpart of `Verif/Spec/Reason.lean`: a difference between the columns of two tables, and what has to be said about it.
-/

namespace Ddl
open Spec
set_option autoImplicit false

/-- Every difference between the columns of two tables is answered by an action. -/
def Pg.ColumnsAnswered (t t' : Pg.CreateTable) (said : Pg.Action → Prop) : Prop :=
  (∀ c ∈ t'.columns, (∀ c₀ ∈ t.columns, c₀.name.name ≠ c.name.name) → said (.addColumn c)) ∧
  (∀ c₀ ∈ t.columns, (∀ c ∈ t'.columns, c.name.name ≠ c₀.name.name) → said (.dropColumn c₀.name)) ∧
  ∀ c₀ ∈ t.columns, ∀ c ∈ t'.columns, c₀.name.name = c.name.name →
    (c₀.dataType.diffStr ≠ c.dataType.diffStr → said (.setDataType c.name c.dataType)) ∧
    (c₀.default.isSome → c.default = none → said (.dropDefault c.name)) ∧
    (c.default.isSome → defaultDiffStr c₀.default ≠ defaultDiffStr c.default → said (.setDefault c.name c.default)) ∧
    (c₀.notNull = true → c.notNull = false → said (.dropNotNull c.name)) ∧
    (c₀.notNull = false → c.notNull = true → said (.setNotNull c.name))

/-- Every difference between the columns of two tables is answered by an action. A hidden virtual column that is gone is left alone (C38). -/
def Crdb.ColumnsAnswered (t t' : Crdb.CreateTable) (said : Crdb.Action → Prop) : Prop :=
  (∀ c ∈ t'.columns, (∀ c₀ ∈ t.columns, c₀.name.name ≠ c.name.name) → said (.addColumn c)) ∧
  (∀ c₀ ∈ t.columns, (∀ c ∈ t'.columns, c.name.name ≠ c₀.name.name) → ¬ (c₀.notVisible = true ∧ ∃ x, c₀.as_ = some x ∧ x.type = some .VIRTUAL) → said (.dropColumn c₀.name)) ∧
  ∀ c₀ ∈ t.columns, ∀ c ∈ t'.columns, c₀.name.name = c.name.name →
    (c₀.dataType.diffStr ≠ c.dataType.diffStr → said (.setDataType c.name c.dataType)) ∧
    (c₀.default.isSome → c.default = none → said (.dropDefault c.name)) ∧
    (c.default.isSome → defaultDiffStr c₀.default ≠ defaultDiffStr c.default → said (.setDefault c.name c.default)) ∧
    (c₀.notNull = true → c.notNull = false → said (.dropNotNull c.name)) ∧
    (c₀.notNull = false → c.notNull = true → said (.setNotNull c.name))

/-- Every difference between the columns of two tables is answered by an action. What `MODIFY` says about the character set is left out. -/
def My.ColumnsAnswered (t t' : My.CreateTable) (said : My.Action → Prop) : Prop :=
  (∀ c ∈ t'.columns, (∀ c₀ ∈ t.columns, c₀.name.name ≠ c.name.name) → said (.addColumn c)) ∧
  (∀ c₀ ∈ t.columns, (∀ c ∈ t'.columns, c.name.name ≠ c₀.name.name) → said (.dropColumn c₀.name)) ∧
  ∀ c₀ ∈ t.columns, ∀ c ∈ t'.columns, c₀.name.name = c.name.name →
    (c₀.dataType.diffStr ≠ c.dataType.diffStr ∨ identDiffStr c₀.characterSet ≠ identDiffStr c.characterSet ∨ identDiffStr c₀.collate ≠ identDiffStr c.collate ∨
        c₀.notNull ≠ c.notNull ∨ (c.default.isSome ∧ defaultDiffStr c₀.default ≠ defaultDiffStr c.default) ∨ c₀.autoIncrement ≠ c.autoIncrement ∨
        c₀.onAction ≠ c.onAction ∨ c₀.comment ≠ c.comment →
      ∃ m, said (.modifyColumn m) ∧ m.name = c.name ∧ m.dataType = c.dataType ∧ m.collate = c.collate ∧ m.notNull = c.notNull ∧
        m.autoIncrement = c.autoIncrement ∧ m.default = c.default ∧ m.onAction = c.onAction ∧ m.comment = c.comment) ∧
    (c₀.default.isSome → c.default = none → said (.dropDefault c.name))

/-- Every difference between the columns of two tables is answered by an action. -/
def Sp.ColumnsAnswered (t t' : Sp.CreateTable) (said : Sp.Action → Prop) : Prop :=
  (∀ c ∈ t'.columns, (∀ c₀ ∈ t.columns, c₀.name.name ≠ c.name.name) → said (.addColumn c)) ∧
  (∀ c₀ ∈ t.columns, (∀ c ∈ t'.columns, c.name.name ≠ c₀.name.name) → said (.dropColumn c₀.name)) ∧
  ∀ c₀ ∈ t.columns, ∀ c ∈ t'.columns, c₀.name.name = c.name.name →
    (c₀.dataType.diffStr ≠ c.dataType.diffStr ∨ c₀.notNull ≠ c.notNull → said (.alterDataType c.name c.dataType c.notNull)) ∧
    (c₀.default.isSome → c.default = none → said (.dropDefault c.name)) ∧
    (c.default.isSome → defaultDiffStr c₀.default ≠ defaultDiffStr c.default → said (.setDefault c.name c.default)) ∧
    (c₀.options.isSome → c.options = none → said (.dropOptions c.name)) ∧
    (c.options.isSome → optExprDiffStr c₀.options ≠ optExprDiffStr c.options → said (.setOptions c.name c.options))

/-- Every table option that is new or has another value is answered, except the counter `AUTO_INCREMENT`. -/
def My.OptionsAnswered (t t' : My.CreateTable) (said : My.Action → Prop) : Prop :=
  ∀ p ∈ t'.options, upper p.name ≠ s%"AUTO_INCREMENT" → Differs My.TableOption.name My.TableOption.diffStr p t.options → said (.tableOption p)

/-- Every difference between the row deletion policies is answered. -/
def Sp.PolicyAnswered (t t' : Sp.CreateTable) (said : Sp.Action → Prop) : Prop :=
  (∀ p, t.rowDeletionPolicy = none → t'.rowDeletionPolicy = some p → p.diffStr ≠ [] → said (.addRowDeletionPolicy p)) ∧
  (∀ q, t.rowDeletionPolicy = some q → t'.rowDeletionPolicy = none → q.diffStr ≠ [] → said .dropRowDeletionPolicy) ∧
  ∀ q p, t.rowDeletionPolicy = some q → t'.rowDeletionPolicy = some p → q.diffStr ≠ p.diffStr → said (.replaceRowDeletionPolicy p)

end Ddl
