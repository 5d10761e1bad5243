import Verif.Spec.NoDiff

/-! # Specification vocabulary: what is needed for a difference to be seen from both sides -/

namespace Ddl
open Spec
set_option autoImplicit false

namespace Pg

/-- There is no `DEFAULT` without a value. -/
def FullValues (t : CreateTable) : Prop := ∀ c ∈ t.columns, c.default ≠ some ⟨none⟩

end Pg

namespace Crdb

/-- There is no `DEFAULT` without a value. -/
def FullValues (t : CreateTable) : Prop := ∀ c ∈ t.columns, c.default ≠ some ⟨none⟩

/-- No hidden virtual column of `b` is gone in `a`. -/
def KeepsHidden (b a : List CStmt) : Prop :=
  ∀ t t', .createTable t ∈ b → .createTable t' ∈ a → t.name.diffStr = t'.name.diffStr →
    ∀ c ∈ t.columns, c.IsShard → ∃ c' ∈ t'.columns, c'.name.name = c.name.name

end Crdb

namespace My

/-- There is no `DEFAULT` without a value. -/
def FullValues (t : CreateTable) : Prop := ∀ c ∈ t.columns, c.default ≠ some ⟨none⟩

/-- No table option of `b`, but for the counter, is gone in `a`. -/
def KeepsOptions (b a : List MStmt) : Prop :=
  ∀ t t', .createTable t ∈ b → .createTable t' ∈ a → t.name.diffStr = t'.name.diffStr →
    ∀ o ∈ t.options, ¬ o.IsCounter → ∃ o' ∈ t'.options, o'.name = o.name

end My

namespace Sp

/-- There is no `DEFAULT` without a value, and no list of options of a column without a word in it. -/
def FullValues (t : CreateTable) : Prop :=
  ∀ c ∈ t.columns, c.default ≠ some ⟨none⟩ ∧ ∀ e, c.options = some e → ∃ i ∈ e, i.name ≠ []

end Sp

end Ddl
