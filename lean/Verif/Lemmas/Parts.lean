import Verif.Spec.Parts
import Verif.Lemmas.Diff
import Verif.Lemmas.Unqualified

/-! # Schemas that are put together from independent parts -/

namespace Ddl
open Spec
set_option autoImplicit false

namespace Spec.Mixed
variable {α : Type} {l r m : List α}

theorem only_left : ∀ (l : List α), Mixed l [] l
  | [] => .nil
  | x :: l => .left x _ _ _ (only_left l)

theorem only_right : ∀ (l : List α), Mixed [] l l
  | [] => .nil
  | x :: l => .right x _ _ _ (only_right l)

theorem eq_left (h : Mixed l [] m) : m = l := by
  generalize e : ([] : List α) = r at h
  induction h with
  | nil => rfl
  | left x l r m _ ih => rw [ih e]
  | right => cases e

theorem append {l' r' m' : List α} (h : Mixed l r m) (h' : Mixed l' r' m') : Mixed (l ++ l') (r ++ r') (m ++ m') := by
  induction h with
  | nil => exact h'
  | left x l r m _ ih => exact .left x _ _ _ ih
  | right x l r m _ ih => exact .right x _ _ _ ih

theorem mem (h : Mixed l r m) (x : α) : x ∈ m ↔ x ∈ l ∨ x ∈ r := by
  induction h with
  | nil => simp
  | left y l r m _ ih => simp only [List.mem_cons, ih, or_assoc]
  | right y l r m _ ih => simp only [List.mem_cons, ih]; tauto

theorem sub_left (h : Mixed l r m) : l.Sublist m := by
  induction h with
  | nil => exact .slnil
  | left x l r m _ ih => exact ih.cons_cons x
  | right x l r m _ ih => exact ih.cons x

theorem symm (h : Mixed l r m) : Mixed r l m := by
  induction h with
  | nil => exact .nil
  | left x l r m _ ih => exact .right x _ _ _ ih
  | right x l r m _ ih => exact .left x _ _ _ ih

theorem sub_right (h : Mixed l r m) : r.Sublist m := h.symm.sub_left

theorem find?_left (h : Mixed l r m) {p : α → Bool} (hp : ∀ x ∈ r, p x = false) : m.find? p = l.find? p := by
  induction h with
  | nil => rfl
  | left x l r m _ ih => simp only [List.find?_cons, ih hp]
  | right x l r m _ ih =>
    rw [List.find?_cons, hp x (by simp)]
    exact ih fun y hy => hp y (by simp [hy])

theorem filter (h : Mixed l r m) {p q s : α → Bool} (hl : ∀ x ∈ l, s x = p x) (hr : ∀ x ∈ r, s x = q x) :
    Mixed (l.filter p) (r.filter q) (m.filter s) := by
  induction h with
  | nil => exact .nil
  | left x l r m _ ih =>
    have ih := ih (fun y hy => hl y (by simp [hy])) hr
    simp only [List.filter_cons, hl x (by simp)]
    split
    · exact .left x _ _ _ ih
    · exact ih
  | right x l r m _ ih =>
    have ih := ih hl (fun y hy => hr y (by simp [hy]))
    simp only [List.filter_cons, hr x (by simp)]
    split
    · exact .right x _ _ _ ih
    · exact ih

theorem mapRes {β : Type} {f : α → Res β} (h : Mixed l r m) : ∀ {u v : List β}, Ddl.mapRes f l = .ok u → Ddl.mapRes f r = .ok v →
    ∃ w, Ddl.mapRes f m = .ok w ∧ Mixed u v w := by
  induction h with
  | nil => intro u v hu hv; cases hu; cases hv; exact ⟨[], rfl, .nil⟩
  | left x l r m _ ih =>
    intro u v hu hv
    simp only [Ddl.mapRes, bind_eq_ok] at hu
    obtain ⟨y, hy, ys, hys, e⟩ := hu
    cases e
    obtain ⟨w, hw, hm⟩ := ih hys hv
    exact ⟨y :: w, by simp only [Ddl.mapRes, bind_eq_ok]; exact ⟨y, hy, w, hw, rfl⟩, .left y _ _ _ hm⟩
  | right x l r m _ ih =>
    intro u v hu hv
    simp only [Ddl.mapRes, bind_eq_ok] at hv
    obtain ⟨y, hy, ys, hys, e⟩ := hv
    cases e
    obtain ⟨w, hw, hm⟩ := ih hu hys
    exact ⟨y :: w, by simp only [Ddl.mapRes, bind_eq_ok]; exact ⟨y, hy, w, hw, rfl⟩, .right y _ _ _ hm⟩

theorem flatMapRes {β : Type} {f g k : α → Res (List β)} (h : Mixed l r m) : ∀ {u v : List β}, (∀ x ∈ l, k x = f x) → (∀ x ∈ r, k x = g x) →
    Ddl.flatMapRes f l = .ok u → Ddl.flatMapRes g r = .ok v → ∃ w, Ddl.flatMapRes k m = .ok w ∧ Mixed u v w := by
  induction h with
  | nil => intro u v _ _ hu hv; cases hu; cases hv; exact ⟨[], rfl, .nil⟩
  | left x l r m _ ih =>
    intro u v hl hr hu hv
    simp only [Ddl.flatMapRes, bind_eq_ok] at hu
    obtain ⟨y, hy, ys, hys, e⟩ := hu
    cases e
    obtain ⟨w, hw, hm⟩ := ih (fun z hz => hl z (by simp [hz])) hr hys hv
    refine ⟨y ++ w, by simp only [Ddl.flatMapRes, bind_eq_ok]; exact ⟨y, by rw [hl x (by simp), hy], w, hw, rfl⟩, ?_⟩
    exact (only_left y).append hm
  | right x l r m _ ih =>
    intro u v hl hr hu hv
    simp only [Ddl.flatMapRes, bind_eq_ok] at hv
    obtain ⟨y, hy, ys, hys, e⟩ := hv
    cases e
    obtain ⟨w, hw, hm⟩ := ih hl (fun z hz => hr z (by simp [hz])) hu hys
    refine ⟨y ++ w, by simp only [Ddl.flatMapRes, bind_eq_ok]; exact ⟨y, by rw [hr x (by simp), hy], w, hw, rfl⟩, ?_⟩
    exact (only_right y).append hm

end Spec.Mixed

section
variable {T I A N : Type} {o : Ops T I A N}

/-- The three parts of a migration. -/
structure PhasesOf (o : Ops T I A N) (b a d c r : List (Stmt T I A N)) : Prop where
  drops : mapRes (dropOf o) (onlyLeftStmt o b a) = .ok d
  creates : mapRes createOf (onlyLeftStmt o a b) = .ok c
  alters : flatMapRes (alterOf o a) b = .ok r

theorem unique_of_distinct {l : List (Stmt T I A N)} (h : DistinctObjects o l) {s s' : Stmt T I A N} {k : Obj} (hs : s ∈ l) (hs' : s' ∈ l)
    (hk : Spec.creates o s = some k) (hk' : Spec.creates o s' = some k) : s = s' := by
  induction l with
  | nil => cases hs
  | cons x l ih =>
    unfold DistinctObjects at h
    have key : ∀ y ∈ l, Spec.creates o x = some k → Spec.creates o y ≠ some k := by
      intro y hy hx hy'
      rw [List.filterMap_cons, hx] at h
      exact (List.nodup_cons.1 h).1 (List.mem_filterMap.2 ⟨y, hy, hy'⟩)
    have h' : DistinctObjects o l := by
      unfold DistinctObjects
      rw [List.filterMap_cons] at h
      split at h
      · exact h
      · exact (List.nodup_cons.1 h).2
    rcases List.mem_cons.1 hs with e | h1
    · rcases List.mem_cons.1 hs' with e' | h2
      · rw [e, e']
      · exact absurd hk' (key _ h2 (e ▸ hk))
    · rcases List.mem_cons.1 hs' with e' | h2
      · exact absurd hk (key _ h1 (e' ▸ hk'))
      · exact ih h' h1 h2

theorem findStmt_self {l : List (Stmt T I A N)} (h : DistinctObjects o l) {s : Stmt T I A N} {k : Obj} (hs : s ∈ l)
    (hk : Spec.creates o s = some k) : findStmt o s l = some s := by
  cases e : findStmt o s l with
  | none => exact absurd ⟨s, hs, hk⟩ ((findStmt_none_iff hk).1 (by rw [e]; rfl))
  | some x =>
    obtain ⟨h1, h2⟩ := findStmt_creates hk e
    rw [unique_of_distinct h h1 hs h2 hk]

theorem phases_self (self : ∀ t, o.diffTable t t = .err .noDifference) {l : List (Stmt T I A N)} (h : DistinctObjects o l) (hc : CreateOnly o l) :
    PhasesOf o l l [] [] [] := by
  have key : ∀ s ∈ l, findStmt o s l = some s := fun s hs => by
    obtain ⟨k, hk⟩ := Option.isSome_iff_exists.1 (hc s hs)
    exact findStmt_self h hs hk
  have e : onlyLeftStmt o l l = [] := by
    rw [onlyLeftStmt, List.filter_eq_nil_iff]
    intro s hs
    simp [key s hs]
  refine ⟨by rw [e]; rfl, by rw [e]; rfl, ?_⟩
  have : ∀ s ∈ l, alterOf o l s = .ok [] := by
    intro s hs
    cases s with
    | createTable t => simp only [alterOf, key _ hs, self]
    | createIndex i => simp [alterOf, key _ hs]
    | _ => rfl
  have gen : ∀ x : List (Stmt T I A N), (∀ s ∈ x, alterOf o l s = .ok []) → flatMapRes (alterOf o l) x = .ok [] := by
    intro x
    induction x with
    | nil => intro _; rfl
    | cons s x ih =>
      intro hx
      simp only [flatMapRes, bind_eq_ok]
      exact ⟨[], hx s (by simp), [], ih fun y hy => hx y (by simp [hy]), rfl⟩
  exact gen l this

theorem alterOf_ne_err {a : List (Stmt T I A N)} {s : Stmt T I A N} {e : Err} : alterOf o a s ≠ .err e := by
  intro h
  cases s with
  | createTable t =>
    simp only [alterOf] at h
    split at h
    · split at h <;> cases h
    · cases h
  | createIndex i =>
    simp only [alterOf] at h
    split at h
    · split at h <;> cases h
    · cases h
  | _ => cases h

theorem alters_ne_err {a : List (Stmt T I A N)} {e : Err} : ∀ {b : List (Stmt T I A N)}, flatMapRes (alterOf o a) b ≠ .err e
  | [], h => by cases h
  | s :: b, h => by
    simp only [flatMapRes] at h
    cases h1 : alterOf o a s with
    | err _ => exact alterOf_ne_err h1
    | panic _ => rw [h1] at h; cases h
    | outOfFuel => rw [h1] at h; cases h
    | ok u =>
      rw [h1] at h
      cases h2 : flatMapRes (alterOf o a) b with
      | err _ => exact alters_ne_err h2
      | panic _ => simp [h2] at h
      | outOfFuel => simp [h2] at h
      | ok v => simp [h2] at h

theorem onlyLeft_creates {b a : List (Stmt T I A N)} (h : CreateOnly o b) : CreateOnly o (onlyLeftStmt o b a) :=
  fun s hs => h s (List.mem_of_mem_filter hs)

theorem phases_of_changes (self : ∀ t, o.diffTable t t = .err .noDifference) {b a m : List (Stmt T I A N)} (hb : CreateOnly o b) (ha : CreateOnly o a)
    (hd : DistinctObjects o b) (ht : ddlStr o b = ddlStr o a → b = a) (h : Changes o b a m) : ∃ d c r, PhasesOf o b a d c r ∧ m = d ++ c ++ r := by
  by_cases he : ddlStr o b = ddlStr o a
  · obtain rfl := ht he
    refine ⟨_, _, _, phases_self self hd hb, ?_⟩
    rcases h with ⟨h, -⟩ | ⟨-, h⟩
    · simp [diff] at h
    · exact h
  · obtain ⟨d, e1, -⟩ := mapRes_drops (onlyLeft_creates (a := a) hb)
    have e2 := mapRes_creates (onlyLeft_creates (a := b) ha)
    cases e3 : flatMapRes (alterOf o a) b with
    | ok r =>
      refine ⟨_, _, r, ⟨e1, e2, e3⟩, ?_⟩
      simp only [Changes, diff, he, if_false, e1, e2, e3, Res.ok_bind] at h
      split at h
      · rename_i hx
        rcases h with ⟨h, -⟩ | ⟨-, h⟩
        · cases h
        · rw [h]; simpa using hx
      · rcases h with ⟨h, -⟩ | ⟨h, -⟩
        · cases h; rfl
        · cases h
    | err _ => exact absurd e3 alters_ne_err
    | panic _ => simp [Changes, diff, he, e1, e2, e3] at h
    | outOfFuel => simp [Changes, diff, he, e1, e2, e3] at h

theorem changes_of_phases (self : ∀ t, o.diffTable t t = .err .noDifference) {b a d c r : List (Stmt T I A N)} (hb : CreateOnly o b)
    (hd : DistinctObjects o b) (ht : ddlStr o b = ddlStr o a → b = a) (h : PhasesOf o b a d c r) : Changes o b a (d ++ c ++ r) := by
  by_cases he : ddlStr o b = ddlStr o a
  · obtain rfl := ht he
    have := phases_self self hd hb
    have e1 := h.drops.symm.trans this.drops
    have e2 := h.creates.symm.trans this.creates
    have e3 := h.alters.symm.trans this.alters
    cases e1; cases e2; cases e3
    exact .inr ⟨by simp [diff], rfl⟩
  · by_cases hn : d ++ c ++ r = []
    · refine .inr ⟨?_, hn⟩
      simp only [diff, he, if_false, h.drops, h.creates, h.alters, Res.ok_bind, hn]
      rfl
    · refine .inl ⟨?_, hn⟩
      have : (d ++ c ++ r).isEmpty = false := by simpa using hn
      simp only [diff, he, if_false, h.drops, h.creates, h.alters, Res.ok_bind]
      rw [if_neg (by rw [this]; simp)]

theorem findStmt_part {l r m : List (Stmt T I A N)} (h : Mixed l r m) {s : Stmt T I A N} {k : Obj} (hk : Spec.creates o s = some k)
    (hr : ¬ Defines o r k) : findStmt o s m = findStmt o s l := by
  refine h.find?_left fun x hx => ?_
  rw [Bool.eq_false_iff]
  intro hc
  exact hr ⟨x, hx, (creates_eq_iff hk).1 (by simpa using hc)⟩

theorem alterOf_congr {a a' : List (Stmt T I A N)} {s : Stmt T I A N} (h : findStmt o s a = findStmt o s a') : alterOf o a s = alterOf o a' s := by
  cases s <;> simp only [alterOf, h]

theorem Spec.Defines.app_left {l r : List (Stmt T I A N)} {k : Obj} (h : Defines o l k) : Defines o (l ++ r) k := by
  obtain ⟨s, hs, hk⟩ := h; exact ⟨s, by simp [hs], hk⟩

theorem Spec.Defines.app_right {l r : List (Stmt T I A N)} {k : Obj} (h : Defines o r k) : Defines o (l ++ r) k := by
  obtain ⟨s, hs, hk⟩ := h; exact ⟨s, by simp [hs], hk⟩

theorem partByPart (self : ∀ t, o.diffTable t t = .err .noDifference) {b₁ b₂ b a₁ a₂ a : List (Stmt T I A N)} (h : InParts o b₁ b₂ b a₁ a₂ a)
    (hb : CreateOnly o b) (ha : CreateOnly o a) (t₁ : ddlStr o b₁ = ddlStr o a₁ → b₁ = a₁) (t₂ : ddlStr o b₂ = ddlStr o a₂ → b₂ = a₂)
    (t : ddlStr o b = ddlStr o a → b = a) : PartByPart o b₁ b₂ b a₁ a₂ a := by
  intro m₁ m₂ h₁ h₂
  obtain ⟨mb, ma, hi, hd⟩ := h
  have cb₁ : CreateOnly o b₁ := fun s hs => hb s ((mb.mem s).2 (.inl hs))
  have cb₂ : CreateOnly o b₂ := fun s hs => hb s ((mb.mem s).2 (.inr hs))
  have ca₁ : CreateOnly o a₁ := fun s hs => ha s ((ma.mem s).2 (.inl hs))
  have ca₂ : CreateOnly o a₂ := fun s hs => ha s ((ma.mem s).2 (.inr hs))
  have d₁ : DistinctObjects o b₁ := hd.sublist (mb.sub_left.filterMap _)
  have d₂ : DistinctObjects o b₂ := hd.sublist (mb.sub_right.filterMap _)
  obtain ⟨x₁, c₁, r₁, p₁, rfl⟩ := phases_of_changes self cb₁ ca₁ d₁ t₁ h₁
  obtain ⟨x₂, c₂, r₂, p₂, rfl⟩ := phases_of_changes self cb₂ ca₂ d₂ t₂ h₂
  have fa₁ : ∀ s ∈ b₁, findStmt o s a = findStmt o s a₁ := fun s hs => by
    obtain ⟨k, hk⟩ := Option.isSome_iff_exists.1 (cb₁ s hs)
    exact findStmt_part ma hk fun hx => hi k (.app_left ⟨s, hs, hk⟩) (.app_right hx)
  have fa₂ : ∀ s ∈ b₂, findStmt o s a = findStmt o s a₂ := fun s hs => by
    obtain ⟨k, hk⟩ := Option.isSome_iff_exists.1 (cb₂ s hs)
    exact findStmt_part ma.symm hk fun hx => hi k (.app_right hx) (.app_left ⟨s, hs, hk⟩)
  have fb₁ : ∀ s ∈ a₁, findStmt o s b = findStmt o s b₁ := fun s hs => by
    obtain ⟨k, hk⟩ := Option.isSome_iff_exists.1 (ca₁ s hs)
    exact findStmt_part mb hk fun hx => hi k (.app_right ⟨s, hs, hk⟩) (.app_left hx)
  have fb₂ : ∀ s ∈ a₂, findStmt o s b = findStmt o s b₂ := fun s hs => by
    obtain ⟨k, hk⟩ := Option.isSome_iff_exists.1 (ca₂ s hs)
    exact findStmt_part mb.symm hk fun hx => hi k (.app_left hx) (.app_right ⟨s, hs, hk⟩)
  have ob : Mixed (onlyLeftStmt o b₁ a₁) (onlyLeftStmt o b₂ a₂) (onlyLeftStmt o b a) :=
    mb.filter (fun s hs => by rw [fa₁ s hs]) (fun s hs => by rw [fa₂ s hs])
  have oa : Mixed (onlyLeftStmt o a₁ b₁) (onlyLeftStmt o a₂ b₂) (onlyLeftStmt o a b) :=
    ma.filter (fun s hs => by rw [fb₁ s hs]) (fun s hs => by rw [fb₂ s hs])
  obtain ⟨x, hx, mx⟩ := ob.mapRes p₁.drops p₂.drops
  obtain ⟨c, hc, mc⟩ := oa.mapRes p₁.creates p₂.creates
  obtain ⟨r, hr, mr⟩ := mb.flatMapRes (k := alterOf o a) (fun s hs => alterOf_congr (fa₁ s hs)) (fun s hs => alterOf_congr (fa₂ s hs)) p₁.alters p₂.alters
  exact ⟨x ++ c ++ r, changes_of_phases self hb hd t ⟨hx, hc, hr⟩, (mx.append mc).append mr⟩

theorem unaffected_of {b x b' a a' : List (Stmt T I A N)} (h : PartByPart o b x b' a x a') : Unaffected o b b' a a' := by
  intro m hm
  obtain ⟨m', h', hx⟩ := h m [] hm (.inr ⟨by simp [diff], rfl⟩)
  rw [← hx.eq_left]
  exact h'

theorem independent_of {l r : List (Stmt T I A N)} (h : ∀ x ∈ l.filterMap (Spec.creates o), x ∉ r.filterMap (Spec.creates o)) : Independent o l r := by
  rintro k ⟨s, hs, hk⟩ ⟨s', hs', hk'⟩
  exact h k (List.mem_filterMap.2 ⟨s, hs, hk⟩) (List.mem_filterMap.2 ⟨s', hs', hk'⟩)

theorem Spec.Mixed.len {α : Type} {l r m : List α} (h : Mixed l r m) : m.length = l.length + r.length := by
  induction h with
  | nil => rfl
  | left x l r m _ ih => simp only [List.length_cons, ih]; omega
  | right x l r m _ ih => simp only [List.length_cons, ih]; omega

theorem not_partByPart {b₁ b₂ b a₁ a₂ a m₁ m₂ m : List (Stmt T I A N)} {k : Nat} (h₁ : Changes o b₁ a₁ m₁) (h₂ : Changes o b₂ a₂ m₂)
    (h : diff o (some b) (some a) = .ok m) (e₁ : m₁.length + m₂.length = k) (e : m.length = k + 1) : ¬ PartByPart o b₁ b₂ b a₁ a₂ a := by
  have hm : m.length ≠ m₁.length + m₂.length := by omega
  intro hp
  obtain ⟨m', h', hx⟩ := hp _ _ h₁ h₂
  rcases h' with ⟨h', -⟩ | ⟨h', -⟩
  · cases h.symm.trans h'; exact hm hx.len
  · cases h.symm.trans h'

end
end Ddl
