import Verif.Lemmas.Variants
import Verif.Lemmas.DecideContent

/-! Deciding the hypotheses of C13 and C16 on examples. -/

namespace Ddl.Spec

instance (c : Char) : Decidable (WordChar c) := by unfold WordChar; infer_instance

instance decidePointwise {α β : Type} (R : α → β → Prop) [∀ a b, Decidable (R a b)] : ∀ l r, Decidable (Pointwise R l r)
  | [], [] => .isTrue .nil
  | [], _ :: _ => .isFalse nofun
  | _ :: _, [] => .isFalse nofun
  | a :: l, b :: r =>
    if h : R a b then
      match decidePointwise R l r with
      | .isTrue h' => .isTrue (.cons h h')
      | .isFalse h' => .isFalse fun | .cons _ h'' => h' h''
    else .isFalse fun | .cons h'' _ => h h''

instance (d : Dialect) (t t' : Token) : Decidable (Recased d t t') := by unfold Recased; infer_instance

instance (d : Dialect) (w l : Str) : Decidable (Names d w l) := by unfold Names; infer_instance

/-- The name is one of the two texts without quotes. -/
theorem requoted_iff (d : Dialect) (t t' : Token) : Requoted d t t' ↔
    (t = t' ∨ ∃ w ∈ [unquote d t.lit], w ≠ [] ∧ (∀ c ∈ w, WordChar c) ∧ t.type = .IDENT ∧ t'.type = .IDENT ∧ Names d w t.lit ∧
      Names d w t'.lit) := by
  refine or_congr_right ⟨?_, fun ⟨w, _, h⟩ => ⟨w, h⟩⟩
  rintro ⟨w, h1, h2, h3, h4, h5, h6⟩
  exact ⟨w, by simp [unquote_names h5 h2 h1], h1, h2, h3, h4, h5, h6⟩

instance (d : Dialect) (t t' : Token) : Decidable (Requoted d t t') := decidable_of_iff _ (requoted_iff d t t').symm

end Ddl.Spec

namespace Ddl.Crdb

/-- Has the constraint no `USING` part? -/
def Constraint.plain : Constraint → Bool
  | .index _ _ pre _ post => pre.isNone && post.isNone
  | _ => true

theorem noUsing_iff (t : CreateTable) : t.NoUsing ↔ ∀ c ∈ t.constraints, c.plain = true := by
  refine ⟨fun h c hc => ?_, fun h n uq pre cs post hc => ?_⟩
  · cases c <;> first | rfl | (have := h _ _ _ _ _ hc; simp [Constraint.plain, this])
  · have := h _ hc
    simpa [Constraint.plain] using this

instance (t : CreateTable) : Decidable t.NoUsing := decidable_of_iff _ (noUsing_iff t).symm

instance {T I A N : Type} (p : I → Prop) [∀ t, Decidable (p t)] (l : List (Stmt T I A N)) :
    Decidable (∀ t, Stmt.createIndex t ∈ l → p t) :=
  decidable_of_iff (∀ t ∈ l.filterMap (fun s : Stmt T I A N => match s with | .createIndex t => some t | _ => none), p t) (by
    constructor
    · intro h t ht
      exact h t (List.mem_filterMap.2 ⟨_, ht, rfl⟩)
    · intro h t ht
      obtain ⟨s, hs, e⟩ := List.mem_filterMap.1 ht
      cases s <;> simp at e
      subst e
      exact h _ hs)

instance (l : List CStmt) : Decidable (NoUsing l) := by unfold NoUsing; infer_instance

end Ddl.Crdb
