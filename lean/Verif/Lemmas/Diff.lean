import Mathlib.Data.List.Forall2
import Verif.Spec.Objects

/-! # Lemmas about the generic `diff` -/

namespace Ddl
open Spec

variable {T I A N : Type} {o : Ops T I A N}

theorem bind_eq_ok {α β : Type} {r : Res α} {f : α → Res β} {b : β} :
    (r >>= f) = .ok b ↔ ∃ a, r = .ok a ∧ f a = .ok b := by
  cases r <;> simp

theorem mapRes_ok {α β : Type} {f : α → Res β} {l : List α} {r : List β} :
    mapRes f l = .ok r ↔ List.Forall₂ (fun a b => f a = .ok b) l r := by
  induction l generalizing r with
  | nil => constructor <;> intro h <;> first | (cases h; exact .nil) | (cases h; rfl)
  | cons a l ih =>
    simp only [mapRes, bind_eq_ok]
    constructor
    · rintro ⟨b, hb, bs, hbs, h⟩
      cases h
      exact .cons hb (ih.1 hbs)
    · intro h
      cases h with
      | cons h1 h2 => exact ⟨_, h1, _, ih.2 h2, rfl⟩

theorem flatMapRes_ok {α β : Type} {f : α → Res (List β)} {l : List α} {r : List β} :
    flatMapRes f l = .ok r ↔ ∃ rs, List.Forall₂ (fun a b => f a = .ok b) l rs ∧ r = rs.flatten := by
  induction l generalizing r with
  | nil =>
    simp only [flatMapRes]
    constructor
    · intro h; cases h; exact ⟨[], .nil, rfl⟩
    · rintro ⟨rs, h, rfl⟩; cases h; rfl
  | cons a l ih =>
    simp only [flatMapRes, bind_eq_ok]
    constructor
    · rintro ⟨b, hb, bs, hbs, h⟩
      cases h
      obtain ⟨rs, h1, rfl⟩ := ih.1 hbs
      exact ⟨b :: rs, .cons hb h1, rfl⟩
    · rintro ⟨rs, h, rfl⟩
      cases h with
      | cons h1 h2 => exact ⟨_, h1, _, ih.2 ⟨_, h2, rfl⟩, rfl⟩

theorem forall₂_mem_left {α β : Type} {R : α → β → Prop} {l : List α} {r : List β} (h : List.Forall₂ R l r) :
    ∀ a ∈ l, ∃ b ∈ r, R a b := by
  induction h with
  | nil => simp
  | cons h1 _ ih =>
    intro a ha
    rcases List.mem_cons.1 ha with rfl | ha
    · exact ⟨_, List.mem_cons_self, h1⟩
    · obtain ⟨b, hb, hr⟩ := ih a ha
      exact ⟨b, List.mem_cons_of_mem _ hb, hr⟩

theorem forall₂_mem_right {α β : Type} {R : α → β → Prop} {l : List α} {r : List β} (h : List.Forall₂ R l r) :
    ∀ b ∈ r, ∃ a ∈ l, R a b := by
  induction h with
  | nil => simp
  | cons h1 _ ih =>
    intro b hb
    rcases List.mem_cons.1 hb with rfl | hb
    · exact ⟨_, List.mem_cons_self, h1⟩
    · obtain ⟨a, ha, hr⟩ := ih b hb
      exact ⟨a, List.mem_cons_of_mem _ ha, hr⟩

theorem dropOf_ok {s d : Stmt T I A N} : dropOf o s = .ok d ↔ IsDropFor o s d := by
  constructor
  · intro h
    cases s <;> simp only [dropOf] at h <;> cases h
    · exact .table _
    · exact .index _
  · intro h; cases h <;> rfl

theorem createOf_ok {s d : Stmt T I A N} : createOf s = .ok d ↔ s = d ∧ (creates o s).isSome := by
  cases s <;> simp [createOf, creates]

/-- The find loop, for a CREATE statement. -/
theorem findStmt_some {s x : Stmt T I A N} {l : List (Stmt T I A N)} (h : findStmt o s l = some x) :
    x ∈ l ∧ sameType s x = true ∧ nameForDiff o s = nameForDiff o x := by
  refine ⟨List.mem_of_find?_eq_some h, ?_⟩
  have := List.find?_some h
  simpa using this

theorem creates_eq_iff {s x : Stmt T I A N} {k : Obj} (hs : creates o s = some k) :
    (sameType s x = true ∧ nameForDiff o s = nameForDiff o x) ↔ creates o x = some k := by
  cases s <;> simp only [creates] at hs <;> cases hs <;> cases x <;> simp [creates, sameType, nameForDiff, eq_comm]

theorem findStmt_creates {s x : Stmt T I A N} {k : Obj} {l : List (Stmt T I A N)} (hs : creates o s = some k)
    (h : findStmt o s l = some x) : x ∈ l ∧ creates o x = some k := by
  obtain ⟨h1, h2⟩ := findStmt_some h
  exact ⟨h1, (creates_eq_iff hs).1 h2⟩

theorem findStmt_none_iff {s : Stmt T I A N} {k : Obj} {l : List (Stmt T I A N)} (hs : creates o s = some k) :
    (findStmt o s l).isNone = true ↔ ¬ Defines o l k := by
  rw [Option.isNone_iff_eq_none, findStmt, List.find?_eq_none]
  constructor
  · rintro h ⟨x, hx, hk⟩
    exact h x hx (by simpa using (creates_eq_iff hs).2 hk)
  · intro h x hx hc
    exact h ⟨x, hx, (creates_eq_iff hs).1 (by simpa using hc)⟩

theorem mem_onlyLeft {s : Stmt T I A N} {k : Obj} {l r : List (Stmt T I A N)} (hs : creates o s = some k) :
    s ∈ onlyLeftStmt o l r ↔ s ∈ l ∧ ¬ Defines o r k := by
  rw [onlyLeftStmt, List.mem_filter, findStmt_none_iff hs]

/-- Structure of a successful diff of two non-nil DDLs. -/
theorem diff_ok {b a : List (Stmt T I A N)} {r : List (Stmt T I A N)} (h : diff o (some b) (some a) = .ok r) :
    ∃ ds cs rs, List.Forall₂ (IsDropFor o) (onlyLeftStmt o b a) ds ∧ cs = onlyLeftStmt o a b ∧ CreateOnly o cs ∧
      List.Forall₂ (fun s l => alterOf o a s = .ok l) b rs ∧ r = ds ++ cs ++ rs.flatten ∧ r ≠ [] := by
  simp only [diff] at h
  split at h
  · cases h
  · simp only [bind_eq_ok] at h
    obtain ⟨ds, hd, cs, hc, as, ha, h⟩ := h
    split at h
    · cases h
    · rename_i hne
      cases h
      obtain ⟨rs, hrs, rfl⟩ := flatMapRes_ok.1 ha
      have hc' := mapRes_ok.1 hc
      have key : ∀ {l cs : List (Stmt T I A N)}, List.Forall₂ (fun s d => createOf s = .ok d) l cs →
          cs = l ∧ CreateOnly o cs := by
        intro l cs h
        induction h with
        | nil => exact ⟨rfl, by simp [CreateOnly]⟩
        | cons h1 _ ih =>
          obtain ⟨rfl, h2⟩ := (createOf_ok (o := o)).1 h1
          refine ⟨by rw [ih.1], ?_⟩
          intro s hs
          rcases List.mem_cons.1 hs with rfl | hs
          · exact h2
          · exact ih.2 s hs
      obtain ⟨rfl, hco⟩ := key hc'
      refine ⟨ds, _, rs, ?_, rfl, hco, hrs, rfl, by simpa using hne⟩
      have := mapRes_ok.1 hd
      exact this.imp (fun _ _ h => dropOf_ok.1 h)

/-- What one round of the ALTER loop yields. -/
theorem alterOf_ok {a : List (Stmt T I A N)} {s : Stmt T I A N} {l : List (Stmt T I A N)}
    (h : alterOf o a s = .ok l) :
    l = [] ∨ (∃ t t', s = .createTable t ∧ .createTable t' ∈ a ∧ (o.tableName t).diffStr = (o.tableName t').diffStr ∧
        o.diffTable t t' = .ok l) ∨
      (∃ i i', s = .createIndex i ∧ .createIndex i' ∈ a ∧ o.nDiffStr (o.indexName i) = o.nDiffStr (o.indexName i') ∧
        o.indexDiffStr i ≠ o.indexDiffStr i' ∧
        l = [.dropIndex (o.sd (o.indexDiffStr i) (o.indexDiffStr i')) false (o.indexName i), .createIndex i']) := by
  cases s with
  | createTable t =>
    simp only [alterOf] at h
    split at h
    · rename_i t' hf
      obtain ⟨hm, _, hn⟩ := findStmt_some hf
      split at h
      · rename_i l' hd
        cases h
        exact .inr (.inl ⟨t, t', rfl, hm, hn, hd⟩)
      all_goals cases h
      exact .inl rfl
    · cases h; exact .inl rfl
  | createIndex i =>
    simp only [alterOf] at h
    split at h
    · rename_i i' hf
      obtain ⟨hm, _, hn⟩ := findStmt_some hf
      split at h
      · rename_i hne
        cases h
        exact .inr (.inr ⟨i, i', rfl, hm, hn, hne, rfl⟩)
      · cases h; exact .inl rfl
    · cases h; exact .inl rfl
  | _ => simp only [alterOf] at h; cases h; exact .inl rfl

end Ddl
