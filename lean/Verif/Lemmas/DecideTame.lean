import Verif.Lemmas.DecideContent
import Verif.Lemmas.DecideVariants
import Verif.Lemmas.LexSpec
import Verif.Spec.Tame

/-! # Deciding tameness of concrete schemas, for examples -/

namespace Ddl
open Spec
set_option autoImplicit false

theorem isName_iff (d : Dialect) (s : Str) : IsName d s ↔ (s ≠ [] ∧ (∀ c ∈ s, WordChar c) ∧ ¬ IsKeyword d s) ∨
    ∃ q ∈ quotes d, s = q :: s.tail.dropLast ++ [q] ∧ ∀ c ∈ s.tail.dropLast, c ≠ q ∧ c ≠ nul := by
  unfold IsName
  constructor
  · rintro (h | ⟨q, body, hq, rfl, hb⟩)
    · exact Or.inl h
    · exact Or.inr ⟨q, hq, by simp, by simpa using hb⟩
  · rintro (h | ⟨q, hq, e, hb⟩)
    · exact Or.inl h
    · exact Or.inr ⟨q, _, hq, e, hb⟩

instance (d : Dialect) (s : Str) : Decidable (IsName d s) := decidable_of_iff _ (isName_iff d s).symm

/-- A property of all created indexes, in a form that can be decided. -/
instance {T I A N : Type} (p : I → Prop) [∀ t, Decidable (p t)] (l : List (Stmt T I A N)) :
    Decidable (∀ t, Stmt.createIndex t ∈ l → p t) :=
  decidable_of_iff (∀ t ∈ l.filterMap (fun s : Stmt T I A N => match s with | .createIndex t => some t | _ => none), p t) (by
    constructor
    · intro h t ht
      exact h t (List.mem_filterMap.2 ⟨_, ht, rfl⟩)
    · intro h t ht
      obtain ⟨s, hs, e⟩ := List.mem_filterMap.1 ht
      cases s <;> simp at e
      subst e
      exact h _ hs)

namespace Pg

instance (s : Str) : Decidable (IsWord s) := by unfold IsWord; infer_instance
instance (e : Expr) : Decidable (TameExpr e) := by unfold TameExpr; infer_instance

instance decideTameParams : ∀ e : Expr, Decidable (TameParams e)
  | [] => .isTrue trivial
  | [i] => inferInstanceAs (Decidable (IsWord i.name))
  | i :: c :: r => by
    have := decideTameParams r
    unfold TameParams
    infer_instance

instance (d : Option Default) : Decidable (∀ e, d = some ⟨some e⟩ → TameExpr e) :=
  match d with
  | none => .isTrue (by simp)
  | some ⟨none⟩ => .isTrue (by simp)
  | some ⟨some e⟩ => decidable_of_iff (TameExpr e) (by simp)

instance (c : Column) : Decidable c.Tame := by unfold Column.Tame; infer_instance
instance (c : Constraint) : Decidable c.Tame := by cases c <;> (unfold Constraint.Tame; infer_instance)
instance (t : CreateTable) : Decidable t.Tame := by unfold CreateTable.Tame; infer_instance
instance (i : CreateIndex) : Decidable i.Tame := by unfold CreateIndex.Tame; infer_instance
instance (l : List PStmt) : Decidable (TameSchema l) := by unfold TameSchema; infer_instance
instance (i i' : CreateIndex) : Decidable (SameIndexButMethod i i') := by unfold SameIndexButMethod; infer_instance

end Pg
end Ddl
