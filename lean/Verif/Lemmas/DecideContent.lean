import Verif.Lemmas.Content

/-! # Deciding equivalence of concrete schemas, for examples -/

namespace Ddl
open Spec

instance {α : Type} [DecidableEq α] (l r : List α) : Decidable (SameElems l r) :=
  decidable_of_iff ((∀ x ∈ l, x ∈ r) ∧ ∀ x ∈ r, x ∈ l)
    ⟨fun h x => ⟨h.1 x, h.2 x⟩, fun h => ⟨fun x => (h x).1, fun x => (h x).2⟩⟩

instance {T I A N : Type} (sameT : T → T → Prop) (sameI : I → I → Prop) [∀ a b, Decidable (sameT a b)] [∀ a b, Decidable (sameI a b)]
    (s s' : Stmt T I A N) : Decidable (SameStmt sameT sameI s s') :=
  match s, s' with
  | .createTable t, .createTable t' => decidable_of_iff (sameT t t') ⟨.table, fun h => by cases h; assumption⟩
  | .createIndex t, .createIndex t' => decidable_of_iff (sameI t t') ⟨.index, fun h => by cases h; assumption⟩
  | .createTable _, .createIndex _ | .createTable _, .dropTable _ _ _ | .createTable _, .dropIndex _ _ _ | .createTable _, .alterTable _
  | .createIndex _, .createTable _ | .createIndex _, .dropTable _ _ _ | .createIndex _, .dropIndex _ _ _ | .createIndex _, .alterTable _
  | .dropTable _ _ _, _ | .dropIndex _ _ _, _ | .alterTable _, _ => isFalse (fun h => by cases h)

instance {T I A N : Type} (sameT : T → T → Prop) (sameI : I → I → Prop) [∀ a b, Decidable (sameT a b)] [∀ a b, Decidable (sameI a b)]
    (b a : List (Stmt T I A N)) : Decidable (SameSchema sameT sameI b a) := by
  unfold SameSchema; infer_instance

instance (t t' : Pg.CreateTable) : Decidable (Pg.SameTable t t') := by unfold Pg.SameTable; infer_instance
instance (t t' : Pg.CreateIndex) : Decidable (Pg.SameIndex t t') := by unfold Pg.SameIndex; infer_instance
instance (t : Pg.CreateTable) : Decidable (Pg.DistinctNames t) := by unfold Pg.DistinctNames; infer_instance
instance (t t' : Crdb.CreateTable) : Decidable (Crdb.SameTable t t') := by unfold Crdb.SameTable; infer_instance
instance (t t' : Crdb.CreateIndex) : Decidable (Crdb.SameIndex t t') := by unfold Crdb.SameIndex; infer_instance
instance (t : Crdb.CreateTable) : Decidable (Crdb.DistinctNames t) := by unfold Crdb.DistinctNames; infer_instance
instance (t t' : My.CreateTable) : Decidable (My.SameTable t t') := by unfold My.SameTable; infer_instance
instance (t t' : My.CreateIndex) : Decidable (My.SameIndex t t') := by unfold My.SameIndex; infer_instance
instance (t : My.CreateTable) : Decidable (My.DistinctNames t) := by unfold My.DistinctNames; infer_instance
instance (t t' : Sp.CreateTable) : Decidable (Sp.SameTable t t') := by unfold Sp.SameTable; infer_instance
instance (t t' : Sp.CreateIndex) : Decidable (Sp.SameIndex t t') := by unfold Sp.SameIndex; infer_instance
instance (t : Sp.CreateTable) : Decidable (Sp.DistinctNames t) := by unfold Sp.DistinctNames; infer_instance
instance {T I A N : Type} [DecidableEq N] (o : Ops T I A N) (l : List (Stmt T I A N)) : Decidable (DistinctObjects o l) := by
  unfold DistinctObjects; infer_instance

/-- A property of all created tables, in a form that can be decided. -/
instance {T I A N : Type} (p : T → Prop) [∀ t, Decidable (p t)] (l : List (Stmt T I A N)) :
    Decidable (∀ t, Stmt.createTable t ∈ l → p t) :=
  decidable_of_iff (∀ t ∈ l.filterMap (fun s : Stmt T I A N => match s with | .createTable t => some t | _ => none), p t) (by
    constructor
    · intro h t ht
      exact h t (List.mem_filterMap.2 ⟨_, ht, rfl⟩)
    · intro h t ht
      obtain ⟨s, hs, e⟩ := List.mem_filterMap.1 ht
      cases s <;> simp at e
      subst e
      exact h _ hs)

end Ddl
