import Verif.Spec.Once
import Verif.Lemmas.Phases

/-! # No statement is repeated: what does not depend on the dialect -/

namespace Ddl
open Spec
set_option autoImplicit false

theorem nodup_flatMap_key {α δ κ : Type} {l : List α} {f : α → List δ} {key : α → κ} (hl : (l.map key).Nodup)
    (h1 : ∀ x ∈ l, (f x).Nodup) (h2 : ∀ x ∈ l, ∀ y ∈ l, ∀ d ∈ f x, d ∈ f y → key x = key y) : (l.flatMap f).Nodup := by
  refine List.nodup_flatMap.2 ⟨h1, ?_⟩
  have hp : l.Pairwise (fun x y => key x ≠ key y) := List.pairwise_map.1 hl
  exact hp.imp_of_mem fun hx hy hne d hd hd' => hne (h2 _ hx _ hy d hd hd')

section
variable {T I A N : Type} {o : Ops T I A N} {part : A → Verb × Option Str} {inline : T → List Str}

/-- What the comparison of `s` with `s'` may do. -/
def Mine (o : Ops T I A N) (inline : T → List Str) (s s' : Stmt T I A N) : Deed → Prop
  | .drop x => x ∈ objects o inline s
  | .create x => x ∈ objects o inline s'
  | .part t _ _ => .table t ∈ objects o inline s

/-- The comparison of two tables repeats nothing and keeps to the two tables. -/
structure TableOnce (o : Ops T I A N) (part : A → Verb × Option Str) (inline : T → List Str) (t t' : T) (l : List (Stmt T I A N)) : Prop where
  nodup : (l.map (deedOf o part)).Nodup
  mine : ∀ d ∈ l.map (deedOf o part), Mine o inline (.createTable t) (.createTable t') d

theorem mem_tableDefs {l : List (Stmt T I A N)} {t : T} (h : .createTable t ∈ l) : t ∈ tableDefs l :=
  List.mem_filterMap.2 ⟨_, h, rfl⟩

theorem creates_mem {s : Stmt T I A N} {k : Obj} (h : creates o s = some k) : k ∈ objects o inline s := by
  cases s <;> simp [creates] at h <;> subst h <;> simp [objects]

theorem filterMap_table {t : T} {l : List (Stmt T I A N)} :
    (.createTable t :: l).filterMap (creates o) = Obj.table (o.tableName t).diffStr :: l.filterMap (creates o) := rfl

theorem filterMap_index {i : I} {l : List (Stmt T I A N)} :
    (.createIndex i :: l).filterMap (creates o) = Obj.index (o.nDiffStr (o.indexName i)) :: l.filterMap (creates o) := rfl

theorem creates_sublist (l : List (Stmt T I A N)) : (l.filterMap (creates o)).Sublist (l.flatMap (objects o inline)) := by
  induction l with
  | nil => exact List.Sublist.refl _
  | cons s l ih =>
    rw [List.flatMap_cons]
    cases s with
    | createTable t =>
      rw [filterMap_table]
      exact List.Sublist.cons_cons _ (ih.trans (List.sublist_append_right _ _))
    | createIndex i =>
      rw [filterMap_index]
      exact List.Sublist.cons_cons _ ih
    | _ => exact ih

theorem distinctIndexes_objects {l : List (Stmt T I A N)} (h : DistinctIndexes o inline l) : DistinctObjects o l :=
  List.Nodup.sublist (creates_sublist l) h

/-- Two statements with an object in common are the same one. -/
theorem distinct_apart {l : List (Stmt T I A N)} (h : DistinctIndexes o inline l) {s s' : Stmt T I A N} (hs : s ∈ l) (hs' : s' ∈ l) {x : Obj}
    (hx : x ∈ objects o inline s) (hx' : x ∈ objects o inline s') : s = s' := by
  by_contra hne
  have hp : l.Pairwise fun s s' => ∀ x, x ∈ objects o inline s → x ∈ objects o inline s' → False :=
    (List.nodup_flatMap.1 h).2.imp fun h x hx hx' => h hx hx'
  have : Std.Symm fun s s' : Stmt T I A N => ∀ x, x ∈ objects o inline s → x ∈ objects o inline s' → False :=
    ⟨fun _ _ h x hx hx' => h x hx' hx⟩
  exact hp.forall hs hs' hne x hx hx'

theorem alterOf_once {b a : List (Stmt T I A N)}
    (ht : ∀ t t' l, .createTable t ∈ b → .createTable t' ∈ a → (o.tableName t).diffStr = (o.tableName t').diffStr →
      o.diffTable t t' = .ok l → TableOnce o part inline t t' l)
    {s : Stmt T I A N} (hs : s ∈ b) {l : List (Stmt T I A N)} (h : alterOf o a s = .ok l) :
    (l.map (deedOf o part)).Nodup ∧
      (l = [] ∨ ∃ s' ∈ a, (∃ k, creates o s = some k ∧ creates o s' = some k) ∧ ∀ d ∈ l.map (deedOf o part), Mine o inline s s' d) := by
  rcases alterOf_ok h with rfl | ⟨t, t', rfl, ha, hn, hd⟩ | ⟨i, i', rfl, ha, hn, -, rfl⟩
  · exact ⟨List.nodup_nil, .inl rfl⟩
  · obtain ⟨h1, h2⟩ := ht t t' l hs ha hn hd
    exact ⟨h1, .inr ⟨_, ha, ⟨_, rfl, by simp [creates, hn]⟩, h2⟩⟩
  · refine ⟨by simp [deedOf], .inr ⟨_, ha, ⟨_, rfl, by simp [creates, hn]⟩, ?_⟩⟩
    intro d hd
    simp only [List.map_cons, List.map_nil, List.mem_cons, List.not_mem_nil, or_false, deedOf] at hd
    rcases hd with rfl | rfl <;> simp [Mine, objects]

theorem drops_deeds {l ds : List (Stmt T I A N)} (h : List.Forall₂ (IsDropFor o) l ds) :
    ds.map (deedOf o part) = (l.filterMap (creates o)).map Deed.drop := by
  induction h with
  | nil => rfl
  | cons h _ ih =>
    cases h with
    | table t => rw [filterMap_table, List.map_cons, List.map_cons, ih]; rfl
    | index i => rw [filterMap_index, List.map_cons, List.map_cons, ih]; rfl

theorem creates_deeds {l : List (Stmt T I A N)} (h : CreateOnly o l) :
    l.map (deedOf o part) = (l.filterMap (creates o)).map Deed.create := by
  induction l with
  | nil => rfl
  | cons s l ih =>
    have hs := h s (by simp)
    have ih := ih fun x hx => h x (by simp [hx])
    cases s <;> simp [creates] at hs
    · rename_i t
      rw [filterMap_table, List.map_cons, List.map_cons, ih]; rfl
    · rename_i i
      rw [filterMap_index, List.map_cons, List.map_cons, ih]; rfl

theorem flatten_of_forall₂ {α β : Type} {f : α → Res (List β)} {g : α → List β} (hg : ∀ x l, f x = .ok l → g x = l) {b : List α} {rs : List (List β)}
    (h : List.Forall₂ (fun s l => f s = .ok l) b rs) : rs.flatten = b.flatMap g := by
  induction h with
  | nil => rfl
  | cons h _ ih => rw [List.flatten_cons, List.flatMap_cons, ih, hg _ _ h]

/-- The statements of a migration do pairwise different things. -/
theorem diff_once {b a r : List (Stmt T I A N)} (db : DistinctIndexes o inline b) (da : DistinctIndexes o inline a)
    (ht : ∀ t t' l, .createTable t ∈ b → .createTable t' ∈ a → (o.tableName t).diffStr = (o.tableName t').diffStr →
      o.diffTable t t' = .ok l → TableOnce o part inline t t' l)
    (h : diff o (some b) (some a) = .ok r) : (r.map (deedOf o part)).Nodup := by
  obtain ⟨ds, cs, rs, hds, rfl, hcs, hrs, rfl, -⟩ := diff_ok h
  let g : Stmt T I A N → List (Stmt T I A N) := fun s => match alterOf o a s with | .ok l => l | _ => []
  have hg : ∀ x l, alterOf o a x = .ok l → g x = l := fun x l e => by simp only [g, e]
  have hok : ∀ s ∈ b, ∃ l, alterOf o a s = .ok l := fun s hs => by
    obtain ⟨l, -, hl⟩ := forall₂_mem_left hrs s hs
    exact ⟨l, hl⟩
  have hrest : ∀ s ∈ b, ((g s).map (deedOf o part)).Nodup ∧ (g s = [] ∨ ∃ s' ∈ a, (∃ k, creates o s = some k ∧ creates o s' = some k) ∧
      ∀ d ∈ (g s).map (deedOf o part), Mine o inline s s' d) := fun s hs => by
    obtain ⟨l, hl⟩ := hok s hs
    rw [hg s l hl]
    exact alterOf_once ht hs hl
  rw [flatten_of_forall₂ hg hrs, List.map_append, List.map_append, drops_deeds hds, creates_deeds hcs, List.map_flatMap]
  have hdrops : ((onlyLeftStmt o b a).filterMap (creates o)).Nodup :=
    (distinctIndexes_objects db).sublist (List.Sublist.filterMap _ List.filter_sublist)
  have hcreates : ((onlyLeftStmt o a b).filterMap (creates o)).Nodup :=
    (distinctIndexes_objects da).sublist (List.Sublist.filterMap _ List.filter_sublist)
  have hinst : ∀ {s : Stmt T I A N} {d}, s ∈ b → d ∈ (g s).map (deedOf o part) → ∃ s' ∈ a, (∃ k, creates o s = some k ∧ creates o s' = some k) ∧
      Mine o inline s s' d := fun {s d} hs hd => by
    rcases (hrest s hs).2 with he | ⟨s', h1, h2, h3⟩
    · rw [he] at hd; cases hd
    · exact ⟨s', h1, h2, h3 d hd⟩
  refine List.nodup_append.2 ⟨List.nodup_append.2 ⟨?_, ?_, ?_⟩, ?_, ?_⟩
  · exact hdrops.map fun _ _ e => by injection e
  · exact hcreates.map fun _ _ e => by injection e
  · intro x hx y hy e
    obtain ⟨_, -, rfl⟩ := List.mem_map.1 hx
    obtain ⟨_, -, rfl⟩ := List.mem_map.1 hy
    cases e
  · refine List.nodup_flatMap.2 ⟨fun s hs => (hrest s hs).1, ?_⟩
    refine (List.nodup_flatMap.1 db).2.imp_of_mem fun {s u} hs hu hdis d hd hd' => ?_
    obtain ⟨s', hs', ⟨k, k1, k2⟩, hm⟩ := hinst hs hd
    obtain ⟨u', hu', ⟨j, j1, j2⟩, hn⟩ := hinst hu hd'
    cases d with
    | drop x => exact hdis hm hn
    | part t v n => exact hdis hm hn
    | create x =>
      have e := distinct_apart da hs' hu' hm hn
      subst e
      rw [k2] at j2
      cases j2
      exact hdis (creates_mem k1) (creates_mem j1)
  · intro x hx y hy e
    subst e
    obtain ⟨s, hs, hd⟩ := List.mem_flatMap.1 hy
    obtain ⟨s', hs', ⟨k, k1, k2⟩, hm⟩ := hinst hs hd
    rcases List.mem_append.1 hx with hx | hx
    · obtain ⟨z, hz, rfl⟩ := List.mem_map.1 hx
      obtain ⟨u, hu, hc⟩ := List.mem_filterMap.1 hz
      have hub := (mem_onlyLeft hc).1 hu
      have e := distinct_apart db hub.1 hs (creates_mem hc) hm
      subst e
      rw [hc] at k1
      cases k1
      exact hub.2 ⟨s', hs', k2⟩
    · obtain ⟨z, hz, rfl⟩ := List.mem_map.1 hx
      obtain ⟨u, hu, hc⟩ := List.mem_filterMap.1 hz
      have hub := (mem_onlyLeft hc).1 hu
      have e := distinct_apart da hub.1 hs' (creates_mem hc) hm
      subst e
      rw [hc] at k2
      cases k2
      exact hub.2 ⟨s, hs, k1⟩

end

end Ddl
