import Verif.Basic

/-! # `strings.Join` can be undone when the separator does not occur in the parts -/

namespace Ddl

theorem append_sep_inj {c : Char} {a b r s : Str} (ha : c ∉ a) (hb : c ∉ b) (h : a ++ c :: r = b ++ c :: s) :
    a = b ∧ r = s := by
  induction a generalizing b with
  | nil =>
    cases b with
    | nil => simpa using h
    | cons x b => simp at h; exact absurd h.1 (fun e => hb (by simp [e]))
  | cons x a ih =>
    cases b with
    | nil => simp at h; exact absurd h.1 (fun e => ha (by simp [e]))
    | cons y b =>
      simp only [List.cons_append, List.cons.injEq] at h
      simp only [List.mem_cons, not_or] at ha hb
      obtain ⟨h1, h2⟩ := ih ha.2 hb.2 h.2
      exact ⟨by rw [h.1, h1], h2⟩

theorem mem_join {c : Char} {l : List Str} (h : 2 ≤ l.length) : c ∈ join [c] l := by
  match l, h with
  | a :: b :: r, _ => simp [join]

theorem join_inj {c : Char} {l l' : List Str} (h1 : ∀ a ∈ l, a ≠ [] ∧ c ∉ a) (h2 : ∀ a ∈ l', a ≠ [] ∧ c ∉ a)
    (h : join [c] l = join [c] l') : l = l' := by
  induction l generalizing l' with
  | nil =>
    cases l' with
    | nil => rfl
    | cons a r =>
      cases r with
      | nil => simp [join] at h; exact absurd h (h2 a (by simp)).1
      | cons b r => simp [join] at h
  | cons a r ih =>
    cases r with
    | nil =>
      cases l' with
      | nil => simp [join] at h; exact absurd h (h1 a (by simp)).1
      | cons b r =>
        cases r with
        | nil => simp [join] at h; rw [h]
        | cons d r =>
          exfalso
          refine (h1 a (by simp)).2 ?_
          have : c ∈ join [c] (b :: d :: r) := mem_join (by simp)
          rwa [← h] at this
    | cons a' r =>
      cases l' with
      | nil => simp [join] at h
      | cons b r' =>
        cases r' with
        | nil =>
          exfalso
          refine (h2 b (by simp)).2 ?_
          have : c ∈ join [c] (a :: a' :: r) := mem_join (by simp)
          rwa [h] at this
        | cons d r' =>
          simp only [join, List.append_assoc, List.singleton_append] at h
          obtain ⟨rfl, h'⟩ := append_sep_inj (h1 a (by simp)).2 (h2 b (by simp)).2 h
          rw [ih (fun x hx => h1 x (List.mem_cons_of_mem _ hx)) (fun x hx => h2 x (List.mem_cons_of_mem _ hx)) h']

end Ddl
