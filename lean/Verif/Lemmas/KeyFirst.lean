import Verif.Spec.Written
import Verif.Lemmas.Append

/-! # Lists of constraints with the primary key first -/

set_option autoImplicit false

namespace Ddl
open Spec Spec.Written

section
variable {C : Type} {isKey : C → Bool} {name : C → Str}

theorem keyFirst_nil : KeyFirst isKey name [] [] := ⟨[], [], rfl, lastWinsAtFirst_nil, lastWinsAtFirst_nil⟩

theorem keyFirst_of_nodup {cs : List C} (h : (cs.map name).Nodup) : KeyFirst isKey name cs (keyFirst isKey cs) :=
  ⟨_, _, rfl, lastWinsAtFirst_self (h.sublist (List.filter_sublist.map _)), lastWinsAtFirst_self (h.sublist (List.filter_sublist.map _))⟩

theorem keyFirst_unique {cs l r : List C} (h : KeyFirst isKey name cs l) (h' : KeyFirst isKey name cs r) : l = r := by
  obtain ⟨k, n, rfl, h1, h2⟩ := h
  obtain ⟨k', n', rfl, h1', h2'⟩ := h'
  rw [LastWinsAtFirst.unique h1 h1', LastWinsAtFirst.unique h2 h2']

theorem lastWins_sub {p A : List C} (h : LastWinsAtFirst name p A) : ∀ c ∈ A, c ∈ p := by
  intro c hc
  obtain ⟨a, b, rfl, _⟩ := h.1 c hc
  simp

/-- The parts of such a list. -/
theorem keyFirst_parts {p k r : List C} (h1 : LastWinsAtFirst name (p.filter isKey) k) (h2 : LastWinsAtFirst name (p.filter fun c => !isKey c) r) :
    (∀ c ∈ k, c ∈ p ∧ isKey c = true) ∧ ∀ c ∈ r, c ∈ p ∧ isKey c = false :=
  ⟨fun c hc => by simpa using lastWins_sub h1 c hc, fun c hc => by simpa using lastWins_sub h2 c hc⟩

theorem filter_keyFirst_parts {p k r : List C} (h1 : LastWinsAtFirst name (p.filter isKey) k) (h2 : LastWinsAtFirst name (p.filter fun c => !isKey c) r) :
    (k ++ r).filter isKey = k ∧ (k ++ r).filter (fun c => !isKey c) = r := by
  obtain ⟨a, b⟩ := keyFirst_parts h1 h2
  have e1 : k.filter isKey = k := List.filter_eq_self.2 fun c hc => (a c hc).2
  have e2 : r.filter isKey = [] := List.filter_eq_nil_iff.2 fun c hc => by simp [(b c hc).2]
  have e3 : k.filter (fun c => !isKey c) = [] := List.filter_eq_nil_iff.2 fun c hc => by simp [(a c hc).2]
  have e4 : r.filter (fun c => !isKey c) = r := List.filter_eq_self.2 fun c hc => by simp [(b c hc).2]
  simp [List.filter_append, e1, e2, e3, e4]

/-- A part of the list may be replaced by what counts of it. -/
theorem keyFirst_part {p l b r : List C} (hb : KeyFirst isKey name l b) (h : KeyFirst isKey name (p ++ b) r) : KeyFirst isKey name (p ++ l) r := by
  obtain ⟨k, n, rfl, h1, h2⟩ := hb
  obtain ⟨k', n', rfl, h1', h2'⟩ := h
  obtain ⟨e1, e2⟩ := filter_keyFirst_parts h1 h2
  rw [List.filter_append, e1] at h1'
  rw [List.filter_append, e2] at h2'
  exact ⟨k', n', rfl, by rw [List.filter_append]; exact LastWinsAtFirst.part h1 h1', by rw [List.filter_append]; exact LastWinsAtFirst.part h2 h2'⟩

/-- The primary keys have one name, and nothing else has it. -/
def KeysApart (isKey : C → Bool) (name : C → Str) (cs : List C) : Prop := ∀ a ∈ cs, isKey a = true → ∀ b ∈ cs, (isKey b = true ↔ name b = name a)

theorem KeysApart.sub {l r : List C} (h : KeysApart isKey name l) (hs : ∀ c ∈ r, c ∈ l) : KeysApart isKey name r :=
  fun a ha hk b hb => h a (hs a ha) hk b (hs b hb)

theorem keyFirst_sub {p A : List C} (h : KeyFirst isKey name p A) : ∀ c ∈ A, c ∈ p := by
  obtain ⟨k, r, rfl, h1, h2⟩ := h
  obtain ⟨a, b⟩ := keyFirst_parts h1 h2
  intro c hc
  rcases List.mem_append.1 hc with hc | hc
  · exact (a c hc).1
  · exact (b c hc).1

theorem lastWins_replace {p u v : List C} {x c : C} (h : LastWinsAtFirst name p (u ++ x :: v)) (e : name x = name c) :
    LastWinsAtFirst name (p ++ [c]) (u ++ c :: v) := by
  have he : (u ++ c :: v).map name = (u ++ x :: v).map name := by simp [e]
  refine LastWinsAtFirst.step h (fun y hy => ?_) (by simp) ?_
  · simp only [List.mem_append, List.mem_cons] at hy ⊢
    tauto
  · rw [if_pos (by simp [e]), he]

theorem lastWins_new {p r : List C} {c : C} (h : LastWinsAtFirst name p r) (hn : ∀ y ∈ r, name y ≠ name c) : LastWinsAtFirst name (p ++ [c]) (r ++ [c]) := by
  refine LastWinsAtFirst.step h (fun y hy => by simpa using hy) (by simp) ?_
  rw [if_neg (by simpa using hn)]
  simp

theorem lastWins_nodup {p r : List C} (h : LastWinsAtFirst name p r) : (r.map name).Nodup := by
  rw [h.2]
  exact nodup_firstKeys _

/-- One more constraint. -/
theorem keyFirst_step {app : List C → C → List C}
    (hr : ∀ P x Q c, (∀ y ∈ P, name y ≠ name c) → name x = name c → app (P ++ x :: Q) c = P ++ c :: Q)
    (hn : ∀ A c, (∀ y ∈ A, name y ≠ name c) → ((A ++ [c]).filter isKey).length ≤ 1 → app A c = keyFirst isKey (A ++ [c]))
    {p A : List C} {c : C} (h : KeyFirst isKey name p A) (hk : KeysApart isKey name (p ++ [c])) : KeyFirst isKey name (p ++ [c]) (app A c) := by
  obtain ⟨k, r, rfl, h1, h2⟩ := h
  obtain ⟨ha, hb⟩ := keyFirst_parts h1 h2
  have f1 : k.filter isKey = k := List.filter_eq_self.2 fun c hc => (ha c hc).2
  have f2 : r.filter isKey = [] := List.filter_eq_nil_iff.2 fun c hc => by simp [(hb c hc).2]
  have f3 : k.filter (fun c => !isKey c) = [] := List.filter_eq_nil_iff.2 fun c hc => by simp [(ha c hc).2]
  have f4 : r.filter (fun c => !isKey c) = r := List.filter_eq_self.2 fun c hc => by simp [(hb c hc).2]
  have hd1 := lastWins_nodup h1
  have hd2 := lastWins_nodup h2
  have hone : k = [] ∨ ∃ x, k = [x] := by
    cases k with
    | nil => exact .inl rfl
    | cons x k =>
      cases k with
      | nil => exact .inr ⟨x, rfl⟩
      | cons y k =>
        have hx := ha x (by simp)
        have hy := ha y (by simp)
        have := (hk x (by simp [hx.1]) hx.2 y (by simp [hy.1])).1 hy.2
        simp [this] at hd1
  cases hc : isKey c with
  | true =>
    have hrn : ∀ y ∈ r, name y ≠ name c := by
      intro y hy e
      have := (hk c (by simp) hc y (by simp [(hb y hy).1])).2 e
      rw [(hb y hy).2] at this
      cases this
    rcases hone with rfl | ⟨x, rfl⟩
    · rw [List.nil_append, hn r c hrn (by simp [List.filter_append, f2, hc])]
      refine ⟨[c], r, by simp [keyFirst, List.filter_append, f2, f4, hc], ?_, by simpa [List.filter_append, hc] using h2⟩
      simpa [List.filter_append, hc] using lastWins_new h1 (c := c) (by simp)
    · have e : name x = name c := (hk c (by simp) hc x (by simp [(ha x (by simp)).1])).1 (ha x (by simp)).2
      rw [show [x] ++ r = [] ++ x :: r from rfl, hr [] x r c (by simp) e]
      refine ⟨[c], r, rfl, ?_, by simpa [List.filter_append, hc] using h2⟩
      simpa [List.filter_append, hc] using lastWins_replace (u := []) (v := []) h1 e
  | false =>
    have hkn : ∀ y ∈ k, name y ≠ name c := by
      intro y hy e
      have := (hk y (by simp [(ha y hy).1]) (ha y hy).2 c (by simp)).2 e.symm
      rw [hc] at this
      cases this
    have g1 : LastWinsAtFirst name ((p ++ [c]).filter isKey) k := by simpa [List.filter_append, hc] using h1
    by_cases hin : ∃ x ∈ r, name x = name c
    · obtain ⟨x, hx, e⟩ := hin
      obtain ⟨u, v, rfl⟩ := List.append_of_mem hx
      have hu : ∀ y ∈ u, name y ≠ name c := by
        intro y hy e'
        rw [List.map_append, List.nodup_append] at hd2
        exact hd2.2.2 _ (List.mem_map_of_mem hy) _ (by simp) (e'.trans e.symm)
      rw [← List.append_assoc, hr (k ++ u) x v c (fun y hy => by
        rcases List.mem_append.1 hy with hy | hy
        · exact hkn y hy
        · exact hu y hy) e]
      refine ⟨k, u ++ c :: v, by simp, g1, ?_⟩
      simpa [List.filter_append, hc] using lastWins_replace h2 e
    · have hrn : ∀ y ∈ r, name y ≠ name c := fun y hy e => hin ⟨y, hy, e⟩
      rw [hn (k ++ r) c (fun y hy => by
        rcases List.mem_append.1 hy with hy | hy
        · exact hkn y hy
        · exact hrn y hy) (by
          rcases hone with rfl | ⟨x, rfl⟩
          · simp [List.filter_append, f2, hc]
          · simp only [List.filter_append, f1, f2, List.filter_cons, hc]; simp)]
      refine ⟨k, r ++ [c], by simp [keyFirst, List.filter_append, f1, f2, f3, f4, hc], g1, ?_⟩
      simpa [List.filter_append, hc] using lastWins_new h2 hrn

/-- More constraints. -/
theorem keyFirst_foldl {app : List C → C → List C}
    (hr : ∀ P x Q c, (∀ y ∈ P, name y ≠ name c) → name x = name c → app (P ++ x :: Q) c = P ++ c :: Q)
    (hn : ∀ A c, (∀ y ∈ A, name y ≠ name c) → ((A ++ [c]).filter isKey).length ≤ 1 → app A c = keyFirst isKey (A ++ [c])) (l : List C) :
    ∀ {p A : List C}, KeyFirst isKey name p A → KeysApart isKey name (p ++ l) → KeyFirst isKey name (p ++ l) (l.foldl app A) := by
  induction l with
  | nil => intro p A h _; simpa using h
  | cons c l ih =>
    intro p A h hk
    rw [List.append_cons] at hk
    have := ih (keyFirst_step hr hn h (hk.sub fun x hx => List.mem_append_left _ hx)) hk
    simpa using this

end
end Ddl
