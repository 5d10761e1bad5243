import Verif.Spec.Sides
import Verif.Lemmas.DecideContent

/-! # Deciding the conditions of C73 -/

namespace Ddl
open Spec
set_option autoImplicit false

instance (t : Pg.CreateTable) : Decidable (Pg.FullValues t) := by unfold Pg.FullValues; infer_instance
instance (t : Crdb.CreateTable) : Decidable (Crdb.FullValues t) := by unfold Crdb.FullValues; infer_instance
instance (t : My.CreateTable) : Decidable (My.FullValues t) := by unfold My.FullValues; infer_instance

instance (t : Sp.CreateTable) : Decidable (Sp.FullValues t) :=
  decidable_of_iff (∀ c ∈ t.columns, c.default ≠ some ⟨none⟩ ∧ ∀ e ∈ c.options, ∃ i ∈ e, i.name ≠ [])
    (forall₂_congr fun _ _ => and_congr_right fun _ => by simp [Option.mem_def])

instance (c : Crdb.Column) : Decidable c.IsShard :=
  decidable_of_iff (c.notVisible = true ∧ ∃ a ∈ c.as_, a.type = some .VIRTUAL) (by simp [Crdb.Column.IsShard, Option.mem_def])

instance (b a : List Crdb.CStmt) : Decidable (Crdb.KeepsHidden b a) :=
  decidable_of_iff (∀ t, .createTable t ∈ b → ∀ t', .createTable t' ∈ a → t.name.diffStr = t'.name.diffStr →
      ∀ c ∈ t.columns, c.IsShard → ∃ c' ∈ t'.columns, c'.name.name = c.name.name)
    ⟨fun h t t' ht ht' => h t ht t' ht', fun h t ht t' ht' => h t t' ht ht'⟩

instance (b a : List My.MStmt) : Decidable (My.KeepsOptions b a) :=
  decidable_of_iff (∀ t, .createTable t ∈ b → ∀ t', .createTable t' ∈ a → t.name.diffStr = t'.name.diffStr →
      ∀ o ∈ t.options, ¬ o.IsCounter → ∃ o' ∈ t'.options, o'.name = o.name)
    ⟨fun h t t' ht ht' => h t ht t' ht', fun h t ht t' ht' => h t t' ht ht'⟩

end Ddl
