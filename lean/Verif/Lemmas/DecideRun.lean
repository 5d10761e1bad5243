import Verif.Lemmas.DecideContent
import Verif.Lemmas.DecideTame
import Verif.Spec.Run

/-! # Deciding the hypotheses of C46 -/

namespace Ddl
open Spec
set_option autoImplicit false

instance (a : Str) : Decidable (OneWord a) :=
  decidable_of_iff ((a ≠ [] ∧ ' ' ∉ a ∧ a.head? ≠ some '\'') ∨ (a = '\'' :: (a.tail.dropLast ++ ['\'']) ∧ '\'' ∉ a.tail.dropLast)) (by
    unfold OneWord
    refine or_congr_right ⟨fun h => ⟨_, h.2, h.1⟩, ?_⟩
    rintro ⟨body, h, rfl⟩
    simpa using h)

instance (e : Expr) : Decidable (WordsOnly e) := by unfold WordsOnly; infer_instance

instance decideSome {α : Type} (o : Option α) (p : α → Prop) [DecidablePred p] : Decidable (∀ e, o = some e → p e) :=
  match o with
  | none => .isTrue (by simp)
  | some x => decidable_of_iff (p x) (by simp)

namespace Sp

instance (d : Option Default) : Decidable (∀ e, d = some ⟨some e⟩ → WordsOnly e) :=
  match d with
  | none => .isTrue (by simp)
  | some ⟨none⟩ => .isTrue (by simp)
  | some ⟨some e⟩ => decidable_of_iff (WordsOnly e) (by simp)

instance (c : Column) : Decidable c.Tame := by unfold Column.Tame; infer_instance
instance (c : Constraint) : Decidable c.Tame := by cases c <;> (unfold Constraint.Tame; infer_instance)
instance : DecidablePred PolicyTame := fun o => by unfold PolicyTame; infer_instance
instance (t : CreateTable) : Decidable t.Tame := by unfold CreateTable.Tame; infer_instance

namespace Run
instance (t : CreateTable) : Decidable (Good t) :=
  decidable_of_iff (DistinctNames t ∧ t.Tame ∧ ∀ c ∈ t.constraints, ∀ k ∈ c.columnNames, ∃ x ∈ t.columns, x.name.name = k)
    ⟨fun ⟨a, b, c⟩ => ⟨a, b, c⟩, fun ⟨a, b, c⟩ => ⟨a, b, c⟩⟩
instance (t t' : CreateTable) : Decidable (NoHazard t t') := by unfold NoHazard; infer_instance
end Run
end Sp

namespace Crdb

instance (d : Option Default) : Decidable (∀ e, d = some ⟨some e⟩ → WordsOnly e) :=
  match d with
  | none => .isTrue (by simp)
  | some ⟨none⟩ => .isTrue (by simp)
  | some ⟨some e⟩ => decidable_of_iff (WordsOnly e) (by simp)

instance (c : Column) : Decidable c.Tame := by unfold Column.Tame; infer_instance
instance (c : Constraint) : Decidable c.Tame := by cases c <;> (unfold Constraint.Tame; infer_instance)
instance (c : Constraint) : Decidable c.IsIndex := by cases c <;> (unfold Constraint.IsIndex; infer_instance)

instance (o : Option As) : Decidable (∃ a, o = some a ∧ a.type = some .VIRTUAL) :=
  match o with
  | none => .isFalse (by simp)
  | some x => decidable_of_iff (x.type = some .VIRTUAL) (by simp)

namespace Run
instance (t : CreateTable) : Decidable (Good t) :=
  decidable_of_iff (DistinctNames t ∧ (∀ c ∈ t.columns, c.Tame) ∧ (∀ c ∈ t.constraints, c.Tame) ∧
      ∀ c ∈ t.constraints, ∀ k ∈ c.columnNames, ∃ x ∈ t.columns, x.name.name = k)
    ⟨fun ⟨a, b, c, d⟩ => ⟨a, b, c, d⟩, fun ⟨a, b, c, d⟩ => ⟨a, b, c, d⟩⟩
instance (t t' : CreateTable) : Decidable (NoHazard t t') :=
  decidable_of_iff ((∀ c ∈ t.columns, (∀ c' ∈ t'.columns, c'.name.name ≠ c.name.name) →
      ∀ p ∈ t.constraints, ∀ p' ∈ t'.constraints, p.name.name = p'.name.name → c.name.name ∉ p.mentions) ∧
    (∀ c ∈ t.columns, (∀ c' ∈ t'.columns, c'.name.name ≠ c.name.name) →
      ¬ (c.notVisible = true ∧ ∃ a, c.as_ = some a ∧ a.type = some .VIRTUAL)) ∧
    (∀ c ∈ t.columns, ∀ c' ∈ t'.columns, c.name.name = c'.name.name →
      c.notVisible = c'.notVisible ∧ c.as_.map As.bare = c'.as_.map As.bare) ∧
    ∀ p ∈ t.constraints, ∀ p' ∈ t'.constraints, p.name.name = p'.name.name → (p.IsIndex ↔ p'.IsIndex))
    ⟨fun ⟨a, b, c, d⟩ => ⟨a, b, c, d⟩, fun ⟨a, b, c, d⟩ => ⟨a, b, c, d⟩⟩
end Run
end Crdb

namespace My

instance (d : Option Default) : Decidable (∀ e, d = some ⟨some e⟩ → WordsOnly e) :=
  match d with
  | none => .isTrue (by simp)
  | some ⟨none⟩ => .isTrue (by simp)
  | some ⟨some e⟩ => decidable_of_iff (WordsOnly e) (by simp)

instance (c : Column) : Decidable c.Tame := by unfold Column.Tame; infer_instance
instance (c : Constraint) : Decidable c.Tame := by cases c <;> (unfold Constraint.Tame; infer_instance)
instance (c : Constraint) : Decidable c.IsIndex := by cases c <;> (unfold Constraint.IsIndex; infer_instance)

namespace Run
instance (t : CreateTable) : Decidable (Good t) :=
  decidable_of_iff (DistinctNames t ∧ (∀ c ∈ t.columns, c.Tame) ∧ (∀ c ∈ t.constraints, c.Tame) ∧ (∀ o ∈ t.options, WordsOnly o.value) ∧
      ∀ c ∈ t.constraints, ∀ k ∈ c.columnNames, ∃ x ∈ t.columns, x.name.name = k)
    ⟨fun ⟨a, b, c, d, e⟩ => ⟨a, b, c, d, e⟩, fun ⟨a, b, c, d, e⟩ => ⟨a, b, c, d, e⟩⟩
instance (t t' : CreateTable) : Decidable (NoHazard t t') :=
  decidable_of_iff ((∀ c ∈ t.columns, (∀ c' ∈ t'.columns, c'.name.name ≠ c.name.name) →
      ∀ p ∈ t.constraints, ∀ p' ∈ t'.constraints, p.name.name = p'.name.name → c.name.name ∉ p.mentions) ∧
    (∀ c ∈ t.columns, ∀ c' ∈ t'.columns, c.name.name = c'.name.name → c.bare = c'.bare ∨ c'.characterSet = none) ∧
    (∀ p ∈ t.constraints, ∀ p' ∈ t'.constraints, p.name.name = p'.name.name → (p.IsIndex ↔ p'.IsIndex) ∧ p.action = p'.action) ∧
    ∀ o ∈ t.options, o.IsCounter ∨ ∃ o' ∈ t'.options, o'.name = o.name)
    ⟨fun ⟨a, b, c, d⟩ => ⟨a, b, c, d⟩, fun ⟨a, b, c, d⟩ => ⟨a, b, c, d⟩⟩
end Run
end My
end Ddl
