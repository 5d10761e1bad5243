import Mathlib.Data.List.Nodup
import Mathlib.Data.List.Pairwise
import Verif.Spec.Steps
import Verif.Lemmas.TableDiff

/-! # The common shape of the table diffs, and what follows from it -/

namespace Ddl
open Spec

variable {C K : Type}

/-- The common shape of a table diff as a list of steps. -/
def Shape (cn : C → Str) (kn : K → Str) (hidden : C → Bool) (cb ca : List C) (kb ka : List K)
    (st : List (Step C K)) : Prop :=
  ∃ (o1 m o2 : List (Step C K)) (rep added : List K),
    st = o1 ++ ((kb.map kn).filter (fun n => n ∉ ka.map kn)).map .dropConstraint ++ m ++
      (ca.filter (fun c => cn c ∉ cb.map cn)).map .addColumn ++
      rep.flatMap (fun k => [.dropConstraint (kn k), .addConstraint k]) ++ added.map .addConstraint ++ o2 ∧
    (∀ s ∈ o1, s = .other) ∧ (∀ s ∈ o2, s = .other) ∧
    m.filterMap Step.droppedColumn = ((cb.filter (fun c => !hidden c)).map cn).filter (fun n => n ∉ ca.map cn) ∧
    (∀ s ∈ m, (∃ n, s = .dropColumn n) ∨ ∃ n, n ∈ cb.map cn ∧ n ∈ ca.map cn ∧ s = .alterColumn n) ∧
    (∀ k ∈ rep, k ∈ ka ∧ kn k ∈ kb.map kn) ∧
    (∀ k ∈ added, k ∈ ka ∧ kn k ∉ kb.map kn) ∧
    (∀ k ∈ ka, kn k ∉ kb.map kn → ∃ k' ∈ added, kn k' = kn k)

variable {cn : C → Str} {kn : K → Str} {hidden : C → Bool} {cb ca : List C} {kb ka : List K} {st : List (Step C K)}

theorem filterMap_eq_nil_of {α β : Type} {f : α → Option β} {l : List α} (h : ∀ a ∈ l, f a = none) :
    l.filterMap f = [] := by
  rw [List.filterMap_eq_nil_iff]; exact h

theorem Shape.dropped (h : Shape cn kn hidden cb ca kb ka st) :
    st.filterMap Step.droppedColumn = ((cb.filter (fun c => !hidden c)).map cn).filter (fun n => n ∉ ca.map cn) := by
  obtain ⟨o1, m, o2, rep, added, rfl, h1, h2, hm, -⟩ := h
  simp only [List.filterMap_append, hm]
  rw [filterMap_eq_nil_of (l := o1), filterMap_eq_nil_of (l := o2), filterMap_eq_nil_of (l := List.map _ _),
    filterMap_eq_nil_of (l := List.map _ _), filterMap_eq_nil_of (l := List.flatMap _ _),
    filterMap_eq_nil_of (l := List.map _ _)]
  · simp
  · simp only [List.mem_map]; rintro a ⟨_, _, rfl⟩; rfl
  · simp only [List.mem_flatMap]; rintro a ⟨_, _, ha⟩; simp at ha; rcases ha with rfl | rfl <;> rfl
  · simp only [List.mem_map]; rintro a ⟨_, _, rfl⟩; rfl
  · simp only [List.mem_map]; rintro a ⟨_, _, rfl⟩; rfl
  · intro a ha; rw [h2 a ha]; rfl
  · intro a ha; rw [h1 a ha]; rfl

theorem Shape.added (h : Shape cn kn hidden cb ca kb ka st) :
    st.filterMap Step.addedColumn = ca.filter (fun c => cn c ∉ cb.map cn) := by
  obtain ⟨o1, m, o2, rep, added, rfl, h1, h2, -, hm, -⟩ := h
  simp only [List.filterMap_append]
  rw [filterMap_eq_nil_of (l := o1), filterMap_eq_nil_of (l := o2), filterMap_eq_nil_of (l := m),
    filterMap_eq_nil_of (l := List.map Step.dropConstraint _), filterMap_eq_nil_of (l := List.flatMap _ _),
    filterMap_eq_nil_of (l := List.map Step.addConstraint _)]
  · simp [List.filterMap_map, Function.comp_def, Step.addedColumn]
  · simp only [List.mem_map]; rintro a ⟨_, _, rfl⟩; rfl
  · simp only [List.mem_flatMap]; rintro a ⟨_, _, ha⟩; simp at ha; rcases ha with rfl | rfl <;> rfl
  · simp only [List.mem_map]; rintro a ⟨_, _, rfl⟩; rfl
  · intro a ha; rcases hm a ha with ⟨n, rfl⟩ | ⟨n, _, _, rfl⟩ <;> rfl
  · intro a ha; rw [h2 a ha]; rfl
  · intro a ha; rw [h1 a ha]; rfl

theorem Shape.altered (h : Shape cn kn hidden cb ca kb ka st) :
    ∀ n ∈ st.filterMap Step.alteredColumn, n ∈ cb.map cn ∧ n ∈ ca.map cn := by
  obtain ⟨o1, m, o2, rep, added, rfl, h1, h2, -, hm, -⟩ := h
  intro n hn
  obtain ⟨s, hs, hn⟩ := List.mem_filterMap.1 hn
  simp only [List.mem_append, List.mem_map, List.mem_flatMap] at hs
  rcases hs with (((((hs | ⟨_, _, rfl⟩) | hs) | ⟨_, _, rfl⟩) | ⟨_, _, hs⟩) | ⟨_, _, rfl⟩) | hs
  · rw [h1 s hs] at hn; cases hn
  · cases hn
  · rcases hm s hs with ⟨n', rfl⟩ | ⟨n', hb, ha, rfl⟩ <;> cases hn
    exact ⟨hb, ha⟩
  · cases hn
  · simp at hs; rcases hs with rfl | rfl <;> cases hn
  · cases hn
  · rw [h2 s hs] at hn; cases hn

/-- Blocks of constant, increasing values are in order. -/
theorem pairwise_block {l r : List Nat} {k : Nat} (hl : l.Pairwise (· ≤ ·)) (hlt : ∀ x ∈ l, x ≤ k) (hr : ∀ x ∈ r, x = k) :
    (l ++ r).Pairwise (· ≤ ·) ∧ ∀ x ∈ l ++ r, x ≤ k := by
  refine ⟨List.pairwise_append.2 ⟨hl, ?_, ?_⟩, ?_⟩
  · exact List.Pairwise.imp_of_mem (fun ha hb _ => by rw [hr _ ha, hr _ hb]; exact Nat.le_refl _) (List.pairwise_of_forall (R := fun _ _ => True) (by simp))
  · intro a ha b hb
    rw [hr b hb]; exact hlt a ha
  · intro x hx
    rcases List.mem_append.1 hx with h | h
    · exact hlt x h
    · exact Nat.le_of_eq (hr x h)

theorem Shape.phases (h : Shape cn kn hidden cb ca kb ka st) :
    (st.filterMap (Step.phase kn (kb.map kn) (ka.map kn))).Pairwise (· ≤ ·) := by
  obtain ⟨o1, m, o2, rep, added, rfl, h1, h2, -, hm, hr, ha, -⟩ := h
  simp only [List.filterMap_append]
  rw [filterMap_eq_nil_of (l := o1), filterMap_eq_nil_of (l := o2)]
  · simp only [List.nil_append, List.append_nil]
    have s0 := pairwise_block (l := []) (k := 0) (by simp) (by simp)
      (r := List.filterMap (Step.phase kn (kb.map kn) (ka.map kn))
        (((kb.map kn).filter (fun n => n ∉ ka.map kn)).map (Step.dropConstraint (C := C) (K := K)))) (by
        intro x hx
        simp only [List.mem_filterMap, List.mem_map, List.mem_filter] at hx
        obtain ⟨_, ⟨n, ⟨_, hn⟩, rfl⟩, hx⟩ := hx
        simp only [decide_eq_true_eq] at hn
        simp [Step.phase, hn] at hx
        exact hx.symm)
    simp only [List.nil_append] at s0
    have s1 := pairwise_block (k := 1) s0.1 (fun x hx => Nat.le_trans (s0.2 x hx) (by omega))
      (r := List.filterMap (Step.phase kn (kb.map kn) (ka.map kn)) m) (by
        intro x hx
        obtain ⟨s, hs, hx⟩ := List.mem_filterMap.1 hx
        rcases hm s hs with ⟨n, rfl⟩ | ⟨n, _, _, rfl⟩ <;> simp [Step.phase] at hx <;> exact hx.symm)
    have s2 := pairwise_block (k := 2) s1.1 (fun x hx => Nat.le_trans (s1.2 x hx) (by omega))
      (r := List.filterMap (Step.phase kn (kb.map kn) (ka.map kn))
        ((ca.filter (fun c => cn c ∉ cb.map cn)).map Step.addColumn)) (by
        intro x hx
        simp only [List.mem_filterMap, List.mem_map] at hx
        obtain ⟨_, ⟨n, _, rfl⟩, hx⟩ := hx
        simp [Step.phase] at hx; exact hx.symm)
    have s3 := pairwise_block (k := 3) s2.1 (fun x hx => Nat.le_trans (s2.2 x hx) (by omega))
      (r := List.filterMap (Step.phase (C := C) kn (kb.map kn) (ka.map kn))
        (rep.flatMap (fun k => [.dropConstraint (kn k), .addConstraint k]))) (by
        intro x hx
        simp only [List.mem_filterMap, List.mem_flatMap] at hx
        obtain ⟨_, ⟨n, hn, hs⟩, hx⟩ := hx
        have hn' := hr n hn
        simp only [List.mem_cons, List.not_mem_nil, or_false] at hs
        rcases hs with rfl | rfl
        · have : kn n ∈ ka.map kn := List.mem_map_of_mem hn'.1
          simp only [Step.phase, this, if_true, Option.some.injEq] at hx; exact hx.symm
        · simp only [Step.phase, hn'.2, if_true, Option.some.injEq] at hx; exact hx.symm)
    have s4 := pairwise_block (k := 4) s3.1 (fun x hx => Nat.le_trans (s3.2 x hx) (by omega))
      (r := List.filterMap (Step.phase (C := C) kn (kb.map kn) (ka.map kn)) (added.map Step.addConstraint)) (by
        intro x hx
        simp only [List.mem_filterMap, List.mem_map] at hx
        obtain ⟨_, ⟨n, hn, rfl⟩, hx⟩ := hx
        have := (ha n hn).2
        simp only [List.mem_map] at this
        simp [Step.phase, this] at hx; exact hx.symm)
    exact s4.1
  · intro a ha; rw [h2 a ha]; rfl
  · intro a ha; rw [h1 a ha]; rfl

theorem Shape.mem_dropConstraint (h : Shape cn kn hidden cb ca kb ka st) {n : Str} (hn : n ∉ ka.map kn) :
    Step.dropConstraint n ∈ st ↔ n ∈ kb.map kn := by
  obtain ⟨o1, m, o2, rep, added, rfl, h1, h2, -, hm, hr, ha, -⟩ := h
  constructor
  · intro hs
    simp only [List.mem_append, List.mem_map (l := List.filter _ _), List.mem_map (l := added), List.mem_flatMap] at hs
    rcases hs with (((((hs | ⟨n', hn', he⟩) | hs) | ⟨_, _, he⟩) | ⟨k, hk, hs⟩) | ⟨_, _, he⟩) | hs
    · cases h1 _ hs
    · cases he; exact (List.mem_filter.1 hn').1
    · rcases hm _ hs with ⟨n', he⟩ | ⟨n', hb, ha, he⟩ <;> cases he
    · cases he
    · simp at hs; subst hs
      exact absurd (List.mem_map_of_mem (hr k hk).1) hn
    · cases he
    · cases h2 _ hs
  · intro hb
    simp only [List.mem_append]
    refine .inl (.inl (.inl (.inl (.inl (.inr ?_)))))
    exact List.mem_map_of_mem (List.mem_filter.2 ⟨hb, by simpa using hn⟩)

theorem Shape.mem_addConstraint (h : Shape cn kn hidden cb ca kb ka st) {k : K} (hk : Step.addConstraint k ∈ st) : k ∈ ka := by
  obtain ⟨o1, m, o2, rep, added, rfl, h1, h2, -, hm, hr, ha, -⟩ := h
  simp only [List.mem_append, List.mem_map (l := List.filter _ _), List.mem_map (l := added), List.mem_flatMap] at hk
  rcases hk with (((((hs | ⟨n', hn', he⟩) | hs) | ⟨_, _, he⟩) | ⟨k, hk, hs⟩) | ⟨_, hk, he⟩) | hs
  · cases h1 _ hs
  · cases he
  · rcases hm _ hs with ⟨n', he⟩ | ⟨n', hb, ha, he⟩ <;> cases he
  · cases he
  · simp at hs; subst hs; exact (hr _ hk).1
  · cases he; exact (ha _ hk).1
  · cases h2 _ hs

theorem Shape.new_constraint (h : Shape cn kn hidden cb ca kb ka st) (hd : (ka.map kn).Nodup) {k : K} (hk : k ∈ ka)
    (hn : kn k ∉ kb.map kn) : Step.addConstraint k ∈ st ∧ Step.dropConstraint (kn k) ∉ st := by
  obtain ⟨o1, m, o2, rep, added, rfl, h1, h2, -, hm, hr, ha, hc⟩ := h
  constructor
  · obtain ⟨k', hk', he⟩ := hc k hk hn
    have : k' = k := List.inj_on_of_nodup_map hd (ha k' hk').1 hk he
    subst this
    simp only [List.mem_append]
    exact .inl (.inr (List.mem_map_of_mem hk'))
  · intro hs
    simp only [List.mem_append, List.mem_map (l := List.filter _ _), List.mem_map (l := added), List.mem_flatMap] at hs
    rcases hs with (((((hs | ⟨n', hn', he⟩) | hs) | ⟨_, _, he⟩) | ⟨k', hk', hs⟩) | ⟨_, _, he⟩) | hs
    · cases h1 _ hs
    · cases he; exact hn (List.mem_filter.1 hn').1
    · rcases hm _ hs with ⟨n', he⟩ | ⟨n', hb, ha, he⟩ <;> cases he
    · cases he
    · simp at hs
      exact hn (hs ▸ (hr k' hk').2)
    · cases he
    · cases h2 _ hs

theorem Shape.kept_constraint (h : Shape cn kn hidden cb ca kb ka st) {n : Str} (hb : n ∈ kb.map kn) (hna : n ∈ ka.map kn) :
    Step.dropConstraint n ∈ st ↔ ∃ k, kn k = n ∧ Step.addConstraint k ∈ st := by
  obtain ⟨o1, m, o2, rep, added, rfl, h1, h2, -, hm, hr, ha, hc⟩ := h
  constructor
  · intro hs
    simp only [List.mem_append, List.mem_map (l := List.filter _ _), List.mem_map (l := added), List.mem_flatMap] at hs
    rcases hs with (((((hs | ⟨n', hn', he⟩) | hs) | ⟨_, _, he⟩) | ⟨k', hk', hs⟩) | ⟨_, _, he⟩) | hs
    · cases h1 _ hs
    · cases he
      have := (List.mem_filter.1 hn').2
      simp only [decide_eq_true_eq] at this
      exact absurd hna this
    · rcases hm _ hs with ⟨n', he⟩ | ⟨n', hb, ha, he⟩ <;> cases he
    · cases he
    · simp at hs
      refine ⟨k', hs.symm, ?_⟩
      simp only [List.mem_append, List.mem_flatMap]
      exact .inl (.inl (.inr ⟨k', hk', by simp⟩))
    · cases he
    · cases h2 _ hs
  · rintro ⟨k, rfl, hs⟩
    simp only [List.mem_append, List.mem_map (l := List.filter _ _), List.mem_map (l := added), List.mem_flatMap] at hs
    rcases hs with (((((hs | ⟨n', hn', he⟩) | hs) | ⟨_, _, he⟩) | ⟨k', hk', hs⟩) | ⟨_, hk, he⟩) | hs
    · cases h1 _ hs
    · cases he
    · rcases hm _ hs with ⟨n', he⟩ | ⟨n', hb, ha, he⟩ <;> cases he
    · cases he
    · simp at hs; subst hs
      simp only [List.mem_append, List.mem_flatMap]
      exact .inl (.inl (.inr ⟨k, hk', by simp⟩))
    · cases he; exact absurd hb (ha _ hk).2
    · cases h2 _ hs

theorem Shape.columnsExact (h : Shape cn kn hidden cb ca kb ka st) : ColumnsExact cn hidden cb ca st :=
  ⟨h.dropped, h.added, h.altered⟩

theorem Shape.constraintsExact (h : Shape cn kn hidden cb ca kb ka st) : ConstraintsExact kn kb ka st :=
  ⟨fun _ hn => h.mem_dropConstraint hn, fun _ hk => h.mem_addConstraint hk, fun hd _ hk hn => h.new_constraint hd hk hn,
   fun _ hb ha => h.kept_constraint hb ha⟩

theorem Shape.stepsOrdered (h : Shape cn kn hidden cb ca kb ka st) : StepsOrdered kn kb ka st := h.phases

theorem Sp.sameOptions_diffStr {l r : List Sp.TableOption} (h : Sp.SameOptions l r) :
    Sp.optionsDiffStr l = Sp.optionsDiffStr r := by
  have : l.map Sp.TableOption.diffStr = r.map Sp.TableOption.diffStr := by
    induction h with
    | nil => rfl
    | cons h _ ih =>
      simp only [List.map_cons, ih, List.cons.injEq, and_true]
      simp only [Sp.TableOption.diffStr, Sp.exprDiffStr, h.1]
      have : ∀ e : Expr, e.map Ident.diffStr = e.map Ident.name := fun _ => rfl
      rw [this, this, h.2]
  simp only [Sp.optionsDiffStr, this]

end Ddl
