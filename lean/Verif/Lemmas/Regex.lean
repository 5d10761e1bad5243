import Verif.Spec.Annotation

/-!
# The matcher finds exactly the texts of the language
-/

namespace Ddl
open Spec
set_option autoImplicit false

namespace Rx

theorem mem_rounds {f : Str → List Str} {a : Rx} (hf : ∀ s r, r ∈ f s ↔ ∃ w, s = w ++ r ∧ Lang a w) :
    ∀ (n : Nat) (s r : Str), s.length ≤ n → (r ∈ rounds f n s ↔ ∃ w, s = w ++ r ∧ Lang (.star a) w) := by
  intro n
  induction n with
  | zero =>
    intro s r hs
    have : s = [] := List.length_eq_zero_iff.1 (by omega)
    subst this
    simp only [rounds, List.mem_singleton]
    constructor
    · rintro rfl; exact ⟨[], rfl, .starNil⟩
    · rintro ⟨w, e, -⟩
      exact (List.append_eq_nil_iff.1 e.symm).2
  | succ n ih =>
    intro s r hs
    simp only [rounds, List.mem_append, List.mem_flatMap, List.mem_filter, List.mem_singleton, decide_eq_true_eq]
    constructor
    · rintro (⟨t, ⟨ht, hl⟩, hr⟩ | rfl)
      · obtain ⟨u, rfl, hu⟩ := (hf s t).1 ht
        obtain ⟨v, rfl, hv⟩ := (ih t r (by omega)).1 hr
        exact ⟨u ++ v, by simp, .starCons hu hv⟩
      · exact ⟨[], rfl, .starNil⟩
    · rintro ⟨w, rfl, hw⟩
      generalize he : Rx.star a = b at hw
      induction hw with
      | eps => cases he
      | cls h => cases he
      | seq h1 h2 => cases he
      | altL h => cases he
      | altR h => cases he
      | starNil => right; rfl
      | @starCons a' u v hu hv _ ihv =>
        cases he
        by_cases hu0 : u = []
        · subst hu0
          exact ihv (by simpa using hs) rfl
        · left
          have : 0 < u.length := List.length_pos_iff.2 hu0
          refine ⟨v ++ r, ⟨(hf _ _).2 ⟨u, by simp, hu⟩, by simp; omega⟩, ?_⟩
          exact (ih (v ++ r) r (by simp at hs ⊢; omega)).2 ⟨v, rfl, hv⟩

theorem mem_run (a : Rx) (s r : Str) : r ∈ run a s ↔ ∃ w, s = w ++ r ∧ Lang a w := by
  induction a generalizing s r with
  | eps =>
    simp only [run, List.mem_singleton]
    constructor
    · rintro rfl; exact ⟨[], rfl, .eps⟩
    · rintro ⟨w, rfl, h⟩; cases h; rfl
  | cls p =>
    constructor
    · intro h
      cases s with
      | nil => simp [run] at h
      | cons c t =>
        simp only [run] at h
        split at h
        · rw [List.mem_singleton] at h
          subst h
          exact ⟨[c], rfl, .cls (by assumption)⟩
        · cases h
    · rintro ⟨w, rfl, h⟩
      cases h with
      | cls h => simp [run, h]
  | seq a b iha ihb =>
    simp only [run, List.mem_flatMap]
    constructor
    · rintro ⟨t, h1, h2⟩
      obtain ⟨u, rfl, hu⟩ := (iha _ _).1 h1
      obtain ⟨v, rfl, hv⟩ := (ihb _ _).1 h2
      exact ⟨u ++ v, by simp, .seq hu hv⟩
    · rintro ⟨w, rfl, h⟩
      cases h with
      | @seq _ _ u v hu hv =>
        exact ⟨v ++ r, (iha _ _).2 ⟨u, by simp, hu⟩, (ihb _ _).2 ⟨v, rfl, hv⟩⟩
  | alt a b iha ihb =>
    simp only [run, List.mem_append, iha, ihb]
    constructor
    · rintro (⟨w, rfl, h⟩ | ⟨w, rfl, h⟩)
      · exact ⟨w, rfl, .altL h⟩
      · exact ⟨w, rfl, .altR h⟩
    · rintro ⟨w, rfl, h⟩
      cases h with
      | altL h => exact .inl ⟨w, rfl, h⟩
      | altR h => exact .inr ⟨w, rfl, h⟩
  | star a iha => exact mem_rounds iha _ _ _ (Nat.le_refl _)

/-! ## Languages of the abbreviations -/

theorem lang_eps {s : Str} : Lang .eps s ↔ s = [] := ⟨fun h => by cases h; rfl, fun h => h ▸ .eps⟩

theorem lang_cls {p : Char → Bool} {s : Str} : Lang (.cls p) s ↔ ∃ c, s = [c] ∧ p c = true :=
  ⟨fun h => by cases h with | cls h => exact ⟨_, rfl, h⟩, fun ⟨_, e, h⟩ => e ▸ .cls h⟩

theorem lang_seq {a b : Rx} {s : Str} : Lang (.seq a b) s ↔ ∃ u v, s = u ++ v ∧ Lang a u ∧ Lang b v :=
  ⟨fun h => by cases h with | seq h1 h2 => exact ⟨_, _, rfl, h1, h2⟩, fun ⟨_, _, e, h1, h2⟩ => e ▸ .seq h1 h2⟩

theorem lang_alt {a b : Rx} {s : Str} : Lang (.alt a b) s ↔ Lang a s ∨ Lang b s :=
  ⟨fun h => by cases h with | altL h => exact .inl h | altR h => exact .inr h,
    fun h => h.elim .altL .altR⟩

theorem lang_opt {a : Rx} {s : Str} : Lang (opt a) s ↔ Lang a s ∨ s = [] := by
  rw [opt, lang_alt, lang_eps]

theorem lang_star_cls {p : Char → Bool} {s : Str} : Lang (.star (.cls p)) s ↔ ∀ c ∈ s, p c = true := by
  constructor
  · intro h
    generalize he : Rx.star (.cls p) = b at h
    induction h with
    | eps => cases he
    | cls h => cases he
    | seq h1 h2 => cases he
    | altL h => cases he
    | altR h => cases he
    | starNil => simp
    | starCons hu hv _ ihv =>
      cases he
      obtain ⟨c, rfl, hc⟩ := lang_cls.1 hu
      intro x hx
      rcases List.mem_append.1 hx with h | h
      · rw [List.mem_singleton.1 h]; exact hc
      · exact ihv rfl x h
  · intro h
    induction s with
    | nil => exact .starNil
    | cons c r ih =>
      exact .starCons (u := [c]) (.cls (h c (by simp))) (ih (fun x hx => h x (by simp [hx])))

theorem lang_plus_cls {p : Char → Bool} {s : Str} : Lang (plus (.cls p)) s ↔ s ≠ [] ∧ ∀ c ∈ s, p c = true := by
  rw [plus, lang_seq]
  constructor
  · rintro ⟨u, v, rfl, h1, h2⟩
    obtain ⟨c, rfl, hc⟩ := lang_cls.1 h1
    rw [lang_star_cls] at h2
    exact ⟨by simp, by simpa using ⟨hc, h2⟩⟩
  · rintro ⟨h1, h2⟩
    cases s with
    | nil => exact absurd rfl h1
    | cons c r =>
      exact ⟨[c], r, rfl, .cls (h2 c (by simp)), lang_star_cls.2 (fun x hx => h2 x (by simp [hx]))⟩

theorem lang_chr {c : Char} {s : Str} : Lang (chr c) s ↔ s = [c] := by
  rw [chr, lang_cls]
  constructor
  · rintro ⟨x, rfl, h⟩; rw [beq_iff_eq.1 h]
  · rintro rfl; exact ⟨c, rfl, by simp⟩

theorem lang_lit {l s : Str} : Lang (lit l) s ↔ s = l := by
  induction l generalizing s with
  | nil => exact lang_eps
  | cons c r ih =>
    rw [lit, lang_seq]
    constructor
    · rintro ⟨u, v, rfl, h1, h2⟩
      rw [lang_chr.1 h1, ih.1 h2]; rfl
    · rintro rfl
      exact ⟨[c], r, rfl, lang_chr.2 rfl, ih.2 rfl⟩

theorem lang_cat_cons {a b : Rx} {r : List Rx} {s : Str} :
    Lang (cat (a :: b :: r)) s ↔ ∃ u v, s = u ++ v ∧ Lang a u ∧ Lang (cat (b :: r)) v := lang_seq

theorem isBlank_iff {c : Char} : isBlank c = true ↔ Sp c := by
  have h12 : c.toNat = 12 ↔ c = Char.ofNat 12 := by
    constructor
    · intro h
      rw [← h, Char.ofNat_toNat]
    · rintro rfl; rfl
  simp only [isBlank, Bool.or_eq_true, beq_iff_eq, Sp, List.mem_cons, List.not_mem_nil, or_false, h12, or_assoc]

theorem lang_space {s : Str} : Lang (.star space) s ↔ Sps s := by
  rw [space, lang_star_cls]
  simp only [isBlank_iff, Sps]

theorem lang_word {s : Str} : Lang (plus nonspace) s ↔ Word s := by
  rw [nonspace, lang_plus_cls, Word]
  simp only [Bool.not_eq_true', ← Bool.not_eq_true, isBlank_iff]

/-! ## The preferred match -/

/-- What greedy repetition of a class prefers: as much as possible. -/
theorem head_rounds_cls (p : Char → Bool) : ∀ (n : Nat) (s : Str), s.length ≤ n →
    (rounds (run (.cls p)) n s).head? = some (s.dropWhile p) := by
  intro n
  induction n with
  | zero =>
    intro s hs
    have : s = [] := List.length_eq_zero_iff.1 (by omega)
    subst this
    rfl
  | succ n ih =>
    intro s hs
    cases s with
    | nil => simp [rounds, run]
    | cons c r =>
      rw [rounds]
      by_cases hc : p c
      · have := ih r (by simpa using hs)
        have hr : run (.cls p) (c :: r) = [r] := by simp [run, hc]
        rw [hr, List.dropWhile_cons, if_pos hc]
        simp [this]
      · simp [run, hc]

theorem head_star_cls (p : Char → Bool) (s : Str) : (run (.star (.cls p)) s).head? = some (s.dropWhile p) :=
  head_rounds_cls p _ _ (Nat.le_refl _)

/-- A group is the text at a position if every other position fails and the group prefers to take everything. -/
theorem group_eq {pre g : Rx} {s t : Str} (h1 : t ∈ run pre s) (h2 : (run g t).head? = some [])
    (h3 : ∀ r ∈ run pre s, run g r ≠ [] → r = t) : group pre g s = some t := by
  unfold group
  generalize run pre s = l at h1 h3
  induction l with
  | nil => cases h1
  | cons a l ih =>
    rw [List.flatMap_cons]
    by_cases ha : run g a = []
    · rw [ha, List.map_nil, List.nil_append]
      rcases List.mem_cons.1 h1 with rfl | h1
      · rw [ha] at h2; cases h2
      · exact ih h1 (fun r hr => h3 r (List.mem_cons_of_mem _ hr))
    · have := h3 a (by simp) ha
      subst this
      cases hg : run g a with
      | nil => exact absurd hg ha
      | cons x l' =>
        rw [hg] at h2
        cases h2
        simp

theorem group_none {pre g : Rx} {s : Str} (h : ∀ r ∈ run pre s, run g r = []) : group pre g s = none := by
  unfold group
  have : (run pre s).flatMap (fun r => (run g r).map (fun r' => r.take (r.length - r'.length))) = [] := by
    rw [List.flatMap_eq_nil_iff]
    intro r hr
    rw [h r hr]; rfl
  rw [this]

theorem group_none_iff {pre g : Rx} {s : Str} : group pre g s = none ↔ ∀ r ∈ run pre s, run g r = [] := by
  refine ⟨fun h => ?_, group_none⟩
  unfold group at h
  split at h
  · rename_i hl
    intro r hr
    have := List.flatMap_eq_nil_iff.1 hl r hr
    simpa using this
  · cases h

end Rx

end Ddl
