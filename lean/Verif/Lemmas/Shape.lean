import Verif.Lemmas.Steps

/-! # The table diffs of the dialects have the common shape -/

namespace Ddl
open Spec

variable {sd : Str → Str → Str}

theorem find?_none_iff {α : Type} {f : α → Str} {n : Str} {l : List α} :
    l.find? (fun c => f c == n) = none ↔ n ∉ l.map f := by
  rw [List.find?_eq_none]
  constructor
  · intro h hm
    obtain ⟨c, hc, rfl⟩ := List.mem_map.1 hm
    exact h c hc (by simp)
  · intro h c hc he
    exact h (List.mem_map.2 ⟨c, hc, by simpa using he⟩)

theorem find?_some_mem {α : Type} {f : α → Str} {n : Str} {l : List α} {a : α}
    (h : l.find? (fun c => f c == n) = some a) : a ∈ l ∧ f a = n := by
  refine ⟨List.mem_of_find?_eq_some h, ?_⟩
  have := List.find?_some h
  simpa using this

theorem filter_map_pos {α : Type} {f : α → Str} {r : List Str} {c : α} {l : List α} (h : f c ∉ r) :
    ((c :: l).map f).filter (fun n => n ∉ r) = f c :: (l.map f).filter (fun n => n ∉ r) := by
  simp [h]

theorem filter_map_neg {α : Type} {f : α → Str} {r : List Str} {c : α} {l : List α} (h : f c ∈ r) :
    ((c :: l).map f).filter (fun n => n ∉ r) = (l.map f).filter (fun n => n ∉ r) := by
  simp [h]

theorem filter_find?_none {α : Type} {f : α → Str} {l r : List α} :
    l.filter (fun c => (r.find? (fun d => f d == f c)).isNone) = l.filter (fun c => f c ∉ r.map f) := by
  apply List.filter_congr
  intro c _
  rw [Bool.eq_iff_iff, Option.isNone_iff_eq_none, find?_none_iff, decide_eq_true_iff]

theorem Pg.appendConstraint_mem {l : List Pg.Constraint} {c : Pg.Constraint} :
    ∀ x ∈ Pg.appendConstraint l c, x ∈ l ∨ x = c := by
  induction l with
  | nil => simp [Pg.appendConstraint]
  | cons y l ih =>
    intro x hx
    simp only [Pg.appendConstraint] at hx
    split at hx
    · rcases List.mem_cons.1 hx with rfl | hx
      · exact .inr rfl
      · exact .inl (List.mem_cons_of_mem _ hx)
    · rcases List.mem_cons.1 hx with rfl | hx
      · exact .inl List.mem_cons_self
      · rcases ih x hx with h | h
        · exact .inl (List.mem_cons_of_mem _ h)
        · exact .inr h

theorem Pg.appendConstraint_names {l : List Pg.Constraint} {c : Pg.Constraint} {n : Str} :
    n ∈ (Pg.appendConstraint l c).map (·.name.name) ↔ n ∈ l.map (·.name.name) ∨ n = c.name.name := by
  induction l with
  | nil => simp [Pg.appendConstraint]
  | cons y l ih =>
    simp only [Pg.appendConstraint]
    split
    · rename_i he; simp only [List.map_cons, List.mem_cons, he]; tauto
    · simp only [List.map_cons, List.mem_cons, ih]; tauto

theorem Pg.foldl_append_mem {m l : List Pg.Constraint} :
    ∀ x ∈ m.foldl Pg.appendConstraint l, x ∈ l ∨ x ∈ m := by
  induction m generalizing l with
  | nil => simp
  | cons c m ih =>
    intro x hx
    rw [List.foldl_cons] at hx
    rcases ih x hx with h | h
    · rcases Pg.appendConstraint_mem x h with h | rfl
      · exact .inl h
      · exact .inr List.mem_cons_self
    · exact .inr (List.mem_cons_of_mem _ h)

theorem Pg.foldl_append_names {m l : List Pg.Constraint} {n : Str} :
    n ∈ (m.foldl Pg.appendConstraint l).map (·.name.name) ↔ n ∈ l.map (·.name.name) ∨ n ∈ m.map (·.name.name) := by
  induction m generalizing l with
  | nil => simp
  | cons c m ih =>
    rw [List.foldl_cons, ih, Pg.appendConstraint_names, List.map_cons, List.mem_cons]
    tauto

theorem Pg.onlyLeftConstraint_spec {l r : List Pg.Constraint} :
    (∀ k ∈ Pg.onlyLeftConstraint l r, k ∈ l ∧ k.name.name ∉ r.map (·.name.name)) ∧
    (∀ k ∈ l, k.name.name ∉ r.map (·.name.name) → ∃ k' ∈ Pg.onlyLeftConstraint l r, k'.name.name = k.name.name) := by
  have hf : l.filter (fun c => (Pg.findConstraint c.name.name r).isNone) =
      l.filter (fun c => c.name.name ∉ r.map (·.name.name)) := filter_find?_none (f := fun c : Pg.Constraint => c.name.name)
  simp only [Pg.onlyLeftConstraint, hf]
  constructor
  · intro k hk
    rcases Pg.foldl_append_mem k hk with h | h
    · simp at h
    · have := List.mem_filter.1 h
      exact ⟨this.1, by simpa only [decide_eq_true_eq] using this.2⟩
  · intro k hk hn
    have : k.name.name ∈ (List.foldl Pg.appendConstraint [] (l.filter (fun c => c.name.name ∉ r.map (·.name.name)))).map
        (·.name.name) := by
      rw [Pg.foldl_append_names]
      exact .inr (List.mem_map_of_mem (List.mem_filter.2 ⟨hk, by simpa only [decide_eq_true_eq] using hn⟩))
    obtain ⟨k', hk', he⟩ := List.mem_map.1 this
    exact ⟨k', hk', he⟩

theorem Pg.alterColumn_steps {tn : ObjectName} {b a : Pg.Column} :
    ∀ s ∈ (Pg.alterColumn sd tn b a).map (fun x => Pg.step (.alterTable x)), s = .alterColumn a.name.name := by
  intro s hs
  obtain ⟨x, hx, rfl⟩ := List.mem_map.1 hs
  simp only [Pg.alterColumn, List.mem_append] at hx
  rcases hx with (hx | hx) | hx <;> split at hx <;> try split at hx
  all_goals simp at hx
  all_goals subst hx; rfl

theorem Pg.columns_dropped {tn : ObjectName} {cb ca : List Pg.Column} :
    ((cb.flatMap (Pg.columnRound sd tn ca)).map (fun x => Pg.step (.alterTable x))).filterMap Step.droppedColumn =
      ((cb.filter (fun c => !(fun _ : Pg.Column => false) c)).map (·.name.name)).filter (fun n => n ∉ ca.map (·.name.name)) := by
  induction cb with
  | nil => rfl
  | cons c cb ih =>
    rw [List.flatMap_cons, List.map_append, List.filterMap_append, ih]
    simp only [Pg.columnRound]
    split
    · rename_i h
      rw [Pg.findColumn, find?_none_iff (f := fun c : Pg.Column => c.name.name)] at h
      rw [List.filter_cons_of_pos (by rfl), filter_map_pos (f := fun c : Pg.Column => c.name.name) h]
      rfl
    · rename_i a h
      obtain ⟨ham, hae⟩ := find?_some_mem (f := fun c : Pg.Column => c.name.name) h
      rw [filterMap_eq_nil_of (fun s hs => by rw [Pg.alterColumn_steps s hs]; rfl)]
      have : c.name.name ∈ ca.map (·.name.name) := List.mem_map.2 ⟨a, ham, hae⟩
      rw [List.filter_cons_of_pos (by rfl), filter_map_neg (f := fun c : Pg.Column => c.name.name) this]
      rfl

theorem Pg.columns_steps {tn : ObjectName} {cb ca : List Pg.Column} :
    ∀ s ∈ (cb.flatMap (Pg.columnRound sd tn ca)).map (fun x => Pg.step (.alterTable x)),
      (∃ n, s = .dropColumn n) ∨ ∃ n, n ∈ cb.map (·.name.name) ∧ n ∈ ca.map (·.name.name) ∧ s = .alterColumn n := by
  intro s hs
  obtain ⟨x, hx, rfl⟩ := List.mem_map.1 hs
  obtain ⟨c, hc, hx⟩ := List.mem_flatMap.1 hx
  simp only [Pg.columnRound] at hx
  split at hx
  · simp at hx; subst hx; exact .inl ⟨_, rfl⟩
  · rename_i a h
    obtain ⟨ham, hae⟩ := find?_some_mem (f := fun c : Pg.Column => c.name.name) h
    refine .inr ⟨a.name.name, ?_, List.mem_map_of_mem ham, Pg.alterColumn_steps _ (List.mem_map_of_mem hx)⟩
    exact List.mem_map.2 ⟨c, hc, hae.symm⟩

theorem Pg.onlyLeftColumn_eq {l r : List Pg.Column} :
    Pg.onlyLeftColumn l r = l.filter (fun c => c.name.name ∉ r.map (·.name.name)) :=
  filter_find?_none (f := fun c : Pg.Column => c.name.name)

theorem Pg.dropConstraints_steps {tn : ObjectName} {kb ka : List Pg.Constraint} :
    (Pg.dropConstraints sd tn kb ka).map (fun x => Pg.step (.alterTable x)) =
      ((kb.map (·.name.name)).filter (fun n => n ∉ ka.map (·.name.name))).map .dropConstraint := by
  induction kb with
  | nil => rfl
  | cons k kb ih =>
    simp only [Pg.dropConstraints] at ih ⊢
    rw [List.flatMap_cons, List.map_append, ih]
    split
    · rename_i h
      rw [Pg.findConstraint, find?_none_iff (f := fun c : Pg.Constraint => c.name.name)] at h
      rw [filter_map_pos (f := fun c : Pg.Constraint => c.name.name) h]
      rfl
    · rename_i a h
      obtain ⟨ham, hae⟩ := find?_some_mem (f := fun c : Pg.Constraint => c.name.name) h
      have : k.name.name ∈ ka.map (·.name.name) := List.mem_map.2 ⟨a, ham, hae⟩
      rw [filter_map_neg (f := fun c : Pg.Constraint => c.name.name) this]
      rfl

theorem Pg.replaceConstraints_steps {nv : Bool} {tn : ObjectName} {kb ka : List Pg.Constraint} :
    ∃ rep : List Pg.Constraint, (∀ k ∈ rep, k ∈ ka ∧ k.name.name ∈ kb.map (·.name.name)) ∧
      (Pg.replaceConstraints sd nv tn kb ka).map (fun x => Pg.step (.alterTable x)) =
        rep.flatMap (fun k => [.dropConstraint k.name.name, .addConstraint k]) := by
  induction kb with
  | nil => exact ⟨[], by simp, rfl⟩
  | cons k kb ih =>
    obtain ⟨rep, h1, h2⟩ := ih
    have h1' : ∀ x ∈ rep, x ∈ ka ∧ x.name.name ∈ (k :: kb).map (·.name.name) :=
      fun x hx => ⟨(h1 x hx).1, List.mem_cons_of_mem _ (h1 x hx).2⟩
    simp only [Pg.replaceConstraints] at h2 ⊢
    rw [List.flatMap_cons, List.map_append, h2]
    split
    · exact ⟨rep, h1', rfl⟩
    · rename_i a h
      obtain ⟨ham, hae⟩ := find?_some_mem (f := fun c : Pg.Constraint => c.name.name) h
      split
      · refine ⟨a :: rep, ?_, ?_⟩
        · intro x hx
          rcases List.mem_cons.1 hx with rfl | hx
          · exact ⟨ham, by simp [hae]⟩
          · exact h1' x hx
        · simp only [List.flatMap_cons, hae]; rfl
      · exact ⟨rep, h1', rfl⟩

theorem Pg.shape {nv : Bool} {t t' : Pg.CreateTable} {l : List PStmt}
    (h : Pg.diffCreateTable sd nv (some t) (some t') = .ok l) :
    Shape (fun c : Pg.Column => c.name.name) (fun k : Pg.Constraint => k.name.name) (fun _ => false)
      t.columns t'.columns t.constraints t'.constraints (l.map Pg.step) := by
  obtain ⟨rfl, -, -⟩ := Pg.diffTable_ok h
  obtain ⟨rep, hr1, hr2⟩ := Pg.replaceConstraints_steps (sd := sd) (nv := nv) (tn := Pg.renamedName t.name t'.name)
    (kb := t.constraints) (ka := t'.constraints)
  refine ⟨(Pg.renameTable sd t.name t'.name).map (fun x => Pg.step (.alterTable x)),
    (t.columns.flatMap (Pg.columnRound sd (Pg.renamedName t.name t'.name) t'.columns)).map (fun x => Pg.step (.alterTable x)),
    [], rep, Pg.onlyLeftConstraint t'.constraints t.constraints, ?_, ?_, by simp, Pg.columns_dropped, Pg.columns_steps,
    hr1, (Pg.onlyLeftConstraint_spec).1, (Pg.onlyLeftConstraint_spec).2⟩
  · rw [List.map_map]
    simp only [List.map_append, Pg.diffColumns, Pg.addConstraints, Function.comp_def, Pg.dropConstraints_steps, hr2,
      Pg.onlyLeftColumn_eq, List.map_map, List.append_assoc]
    simp only [Pg.step, List.append_nil]
  · intro s hs
    obtain ⟨x, hx, rfl⟩ := List.mem_map.1 hs
    simp only [Pg.renameTable] at hx
    split at hx <;> simp at hx
    subst hx; rfl

theorem Crdb.replaceConstraint_names {l l' : List Crdb.Constraint} {c : Crdb.Constraint} (h : Crdb.replaceConstraint l c = some l') :
    l'.map (·.name.name) = l.map (·.name.name) ∧ c.name.name ∈ l.map (·.name.name) := by
  induction l generalizing l' with
  | nil => simp [Crdb.replaceConstraint] at h
  | cons y l ih =>
    simp only [Crdb.replaceConstraint] at h
    split at h
    · rename_i he; cases h; simp [he]
    · obtain ⟨l'', hl, rfl⟩ := Option.map_eq_some_iff.1 h
      have := ih hl
      simp only [List.map_cons, this.1, List.mem_cons, this.2, or_true, and_self]

theorem Crdb.appendConstraint_names {l : List Crdb.Constraint} {c : Crdb.Constraint} {n : Str} :
    n ∈ (Crdb.appendConstraint l c).map (·.name.name) ↔ n ∈ l.map (·.name.name) ∨ n = c.name.name := by
  simp only [Crdb.appendConstraint]
  split
  · rename_i h
    have := Crdb.replaceConstraint_names h
    rw [this.1]
    constructor
    · exact .inl
    · rintro (h | rfl)
      · exact h
      · exact this.2
  · simp only [List.mem_map, Crdb.mem_sortPrimaryKey, List.mem_append, List.mem_singleton]
    constructor
    · rintro ⟨x, h | rfl, rfl⟩
      · exact .inl ⟨x, h, rfl⟩
      · exact .inr rfl
    · rintro (⟨x, h, rfl⟩ | rfl)
      · exact ⟨x, .inl h, rfl⟩
      · exact ⟨c, .inr rfl, rfl⟩

theorem Crdb.foldl_append_names {m l : List Crdb.Constraint} {n : Str} :
    n ∈ (m.foldl Crdb.appendConstraint l).map (·.name.name) ↔ n ∈ l.map (·.name.name) ∨ n ∈ m.map (·.name.name) := by
  induction m generalizing l with
  | nil => simp
  | cons c m ih =>
    rw [List.foldl_cons, ih, Crdb.appendConstraint_names, List.map_cons, List.mem_cons]
    tauto

theorem Crdb.onlyLeftConstraint_spec {l r : List Crdb.Constraint} :
    (∀ k ∈ Crdb.onlyLeftConstraint l r, k ∈ l ∧ k.name.name ∉ r.map (·.name.name)) ∧
    (∀ k ∈ l, k.name.name ∉ r.map (·.name.name) → ∃ k' ∈ Crdb.onlyLeftConstraint l r, k'.name.name = k.name.name) := by
  have hf : l.filter (fun c => (Crdb.findConstraint c.name.name r).isNone) =
      l.filter (fun c => c.name.name ∉ r.map (·.name.name)) := filter_find?_none (f := fun c : Crdb.Constraint => c.name.name)
  simp only [Crdb.onlyLeftConstraint, hf]
  constructor
  · intro k hk
    rcases Crdb.foldl_append_mem k hk with h | h
    · simp at h
    · have := List.mem_filter.1 h
      exact ⟨this.1, by simpa only [decide_eq_true_eq] using this.2⟩
  · intro k hk hn
    have : k.name.name ∈ (List.foldl Crdb.appendConstraint [] (l.filter (fun c => c.name.name ∉ r.map (·.name.name)))).map
        (·.name.name) := by
      rw [Crdb.foldl_append_names]
      exact .inr (List.mem_map_of_mem (List.mem_filter.2 ⟨hk, by simpa only [decide_eq_true_eq] using hn⟩))
    obtain ⟨k', hk', he⟩ := List.mem_map.1 this
    exact ⟨k', hk', he⟩

theorem Crdb.alterColumn_steps {tn : ObjectName} {b a : Crdb.Column} :
    ∀ s ∈ (Crdb.alterColumn sd tn b a).map (fun x => Crdb.step (.alterTable x)), s = .alterColumn a.name.name := by
  intro s hs
  obtain ⟨x, hx, rfl⟩ := List.mem_map.1 hs
  simp only [Crdb.alterColumn, List.mem_append] at hx
  rcases hx with (hx | hx) | hx <;> split at hx <;> try split at hx
  all_goals simp at hx
  all_goals subst hx; rfl

theorem Crdb.columns_dropped {tn : ObjectName} {cb ca : List Crdb.Column} :
    ((cb.flatMap (Crdb.columnRound sd tn ca)).map (fun x => Crdb.step (.alterTable x))).filterMap Step.droppedColumn =
      ((cb.filter (fun c => !Crdb.hidden c)).map (·.name.name)).filter (fun n => n ∉ ca.map (·.name.name)) := by
  induction cb with
  | nil => rfl
  | cons c cb ih =>
    rw [List.flatMap_cons, List.map_append, List.filterMap_append, ih]
    simp only [Crdb.columnRound]
    split
    · rename_i h
      rw [Crdb.findColumn, find?_none_iff (f := fun c : Crdb.Column => c.name.name)] at h
      by_cases hh : (Crdb.hidden c : Bool) = true
      · rw [List.filter_cons_of_neg (by simpa using hh), if_pos (by simpa [Crdb.hidden] using hh)]
        rfl
      · rw [List.filter_cons_of_pos (by simpa using hh), if_neg (by simpa [Crdb.hidden] using hh), filter_map_pos (f := fun c : Crdb.Column => c.name.name) h]
        rfl
    · rename_i a h
      obtain ⟨ham, hae⟩ := find?_some_mem (f := fun c : Crdb.Column => c.name.name) h
      rw [filterMap_eq_nil_of (fun s hs => by rw [Crdb.alterColumn_steps s hs]; rfl)]
      have : c.name.name ∈ ca.map (·.name.name) := List.mem_map.2 ⟨a, ham, hae⟩
      by_cases hh : (Crdb.hidden c : Bool) = true
      · rw [List.filter_cons_of_neg (by simpa using hh)]
        rfl
      · rw [List.filter_cons_of_pos (by simpa using hh), filter_map_neg (f := fun c : Crdb.Column => c.name.name) this]
        rfl

theorem Crdb.columns_steps {tn : ObjectName} {cb ca : List Crdb.Column} :
    ∀ s ∈ (cb.flatMap (Crdb.columnRound sd tn ca)).map (fun x => Crdb.step (.alterTable x)),
      (∃ n, s = .dropColumn n) ∨ ∃ n, n ∈ cb.map (·.name.name) ∧ n ∈ ca.map (·.name.name) ∧ s = .alterColumn n := by
  intro s hs
  obtain ⟨x, hx, rfl⟩ := List.mem_map.1 hs
  obtain ⟨c, hc, hx⟩ := List.mem_flatMap.1 hx
  simp only [Crdb.columnRound] at hx
  split at hx
  · split at hx
    · simp at hx
    · simp at hx; subst hx; exact .inl ⟨_, rfl⟩
  · rename_i a h
    obtain ⟨ham, hae⟩ := find?_some_mem (f := fun c : Crdb.Column => c.name.name) h
    refine .inr ⟨a.name.name, ?_, List.mem_map_of_mem ham, Crdb.alterColumn_steps _ (List.mem_map_of_mem hx)⟩
    exact List.mem_map.2 ⟨c, hc, hae.symm⟩

theorem Crdb.onlyLeftColumn_eq {l r : List Crdb.Column} :
    Crdb.onlyLeftColumn l r = l.filter (fun c => c.name.name ∉ r.map (·.name.name)) :=
  filter_find?_none (f := fun c : Crdb.Column => c.name.name)

theorem Crdb.dropConstraints_steps {tn : ObjectName} {kb ka : List Crdb.Constraint} :
    (Crdb.dropConstraints sd tn kb ka).map Crdb.step =
      ((kb.map (·.name.name)).filter (fun n => n ∉ ka.map (·.name.name))).map .dropConstraint := by
  induction kb with
  | nil => rfl
  | cons k kb ih =>
    simp only [Crdb.dropConstraints] at ih ⊢
    rw [List.flatMap_cons, List.map_append, ih]
    split
    · rename_i h
      rw [Crdb.findConstraint, find?_none_iff (f := fun c : Crdb.Constraint => c.name.name)] at h
      rw [filter_map_pos (f := fun c : Crdb.Constraint => c.name.name) h]
      split <;> rfl
    · rename_i a h
      obtain ⟨ham, hae⟩ := find?_some_mem (f := fun c : Crdb.Constraint => c.name.name) h
      have : k.name.name ∈ ka.map (·.name.name) := List.mem_map.2 ⟨a, ham, hae⟩
      rw [filter_map_neg (f := fun c : Crdb.Constraint => c.name.name) this]
      rfl

theorem Crdb.replaceConstraints_steps {nv : Bool} {tn : ObjectName} {kb ka : List Crdb.Constraint} :
    ∃ rep : List Crdb.Constraint, (∀ k ∈ rep, k ∈ ka ∧ k.name.name ∈ kb.map (·.name.name)) ∧
      (Crdb.replaceConstraints sd nv tn kb ka).map Crdb.step =
        rep.flatMap (fun k => [.dropConstraint k.name.name, .addConstraint k]) := by
  induction kb with
  | nil => exact ⟨[], by simp, rfl⟩
  | cons k kb ih =>
    obtain ⟨rep, h1, h2⟩ := ih
    have h1' : ∀ x ∈ rep, x ∈ ka ∧ x.name.name ∈ (k :: kb).map (·.name.name) :=
      fun x hx => ⟨(h1 x hx).1, List.mem_cons_of_mem _ (h1 x hx).2⟩
    simp only [Crdb.replaceConstraints] at h2 ⊢
    rw [List.flatMap_cons, List.map_append, h2]
    split
    · exact ⟨rep, h1', rfl⟩
    · rename_i a h
      obtain ⟨ham, hae⟩ := find?_some_mem (f := fun c : Crdb.Constraint => c.name.name) h
      split
      · refine ⟨a :: rep, ?_, ?_⟩
        · intro x hx
          rcases List.mem_cons.1 hx with rfl | hx
          · exact ⟨ham, by simp [hae]⟩
          · exact h1' x hx
        · simp only [List.flatMap_cons, hae]
          split <;> rfl
      · exact ⟨rep, h1', rfl⟩

theorem Crdb.addConstraints_steps {nv : Bool} {tn : ObjectName} {kb ka : List Crdb.Constraint} :
    (Crdb.addConstraints sd nv tn kb ka).map Crdb.step = (Crdb.onlyLeftConstraint ka kb).map .addConstraint := by
  rw [Crdb.addConstraints, List.map_map]
  apply List.map_congr_left
  intro c _
  cases c <;> rfl

theorem Crdb.shape {nv : Bool} {t t' : Crdb.CreateTable} {l : List CStmt}
    (h : Crdb.diffCreateTable sd nv (some t) (some t') = .ok l) :
    Shape (fun c : Crdb.Column => c.name.name) (fun k : Crdb.Constraint => k.name.name) Crdb.hidden
      t.columns t'.columns t.constraints t'.constraints (l.map Crdb.step) := by
  obtain ⟨rfl, -, -⟩ := Crdb.diffTable_ok h
  obtain ⟨rep, hr1, hr2⟩ := Crdb.replaceConstraints_steps (sd := sd) (nv := nv) (tn := Crdb.renamedName t.name t'.name)
    (kb := t.constraints) (ka := t'.constraints)
  refine ⟨(Crdb.renameTable sd t.name t'.name).map (fun x => Crdb.step (.alterTable x)),
    (t.columns.flatMap (Crdb.columnRound sd (Crdb.renamedName t.name t'.name) t'.columns)).map (fun x => Crdb.step (.alterTable x)),
    [], rep, Crdb.onlyLeftConstraint t'.constraints t.constraints, ?_, ?_, ?_, Crdb.columns_dropped, Crdb.columns_steps,
    hr1, (Crdb.onlyLeftConstraint_spec).1, (Crdb.onlyLeftConstraint_spec).2⟩
  · simp only [List.map_append, Crdb.diffColumns, Crdb.dropConstraints_steps, hr2, Crdb.addConstraints_steps,
      Crdb.onlyLeftColumn_eq, List.map_map, List.append_assoc, Function.comp_def]
    simp only [Crdb.step, List.append_nil]
  · intro s hs
    obtain ⟨x, hx, rfl⟩ := List.mem_map.1 hs
    simp only [Crdb.renameTable] at hx
    split at hx <;> simp at hx
    subst hx; rfl
  · simp

theorem My.replaceConstraint_names {l l' : List My.Constraint} {c : My.Constraint} (h : My.replaceConstraint l c = some l') :
    l'.map (·.name.name) = l.map (·.name.name) ∧ c.name.name ∈ l.map (·.name.name) := by
  induction l generalizing l' with
  | nil => simp [My.replaceConstraint] at h
  | cons y l ih =>
    simp only [My.replaceConstraint] at h
    split at h
    · rename_i he; cases h; simp [he]
    · obtain ⟨l'', hl, rfl⟩ := Option.map_eq_some_iff.1 h
      have := ih hl
      simp only [List.map_cons, this.1, List.mem_cons, this.2, or_true, and_self]

theorem My.appendConstraint_names {l : List My.Constraint} {c : My.Constraint} {n : Str} :
    n ∈ (My.appendConstraint l c).map (·.name.name) ↔ n ∈ l.map (·.name.name) ∨ n = c.name.name := by
  simp only [My.appendConstraint]
  split
  · rename_i h
    have := My.replaceConstraint_names h
    rw [this.1]
    constructor
    · exact .inl
    · rintro (h | rfl)
      · exact h
      · exact this.2
  · simp only [List.mem_map, My.mem_sortPrimaryKey, List.mem_append, List.mem_singleton]
    constructor
    · rintro ⟨x, h | rfl, rfl⟩
      · exact .inl ⟨x, h, rfl⟩
      · exact .inr rfl
    · rintro (⟨x, h, rfl⟩ | rfl)
      · exact ⟨x, .inl h, rfl⟩
      · exact ⟨c, .inr rfl, rfl⟩

theorem My.foldl_append_names {m l : List My.Constraint} {n : Str} :
    n ∈ (m.foldl My.appendConstraint l).map (·.name.name) ↔ n ∈ l.map (·.name.name) ∨ n ∈ m.map (·.name.name) := by
  induction m generalizing l with
  | nil => simp
  | cons c m ih =>
    rw [List.foldl_cons, ih, My.appendConstraint_names, List.map_cons, List.mem_cons]
    tauto

theorem My.onlyLeftConstraint_spec {l r : List My.Constraint} :
    (∀ k ∈ My.onlyLeftConstraint l r, k ∈ l ∧ k.name.name ∉ r.map (·.name.name)) ∧
    (∀ k ∈ l, k.name.name ∉ r.map (·.name.name) → ∃ k' ∈ My.onlyLeftConstraint l r, k'.name.name = k.name.name) := by
  have hf : l.filter (fun c => (My.findConstraint c.name.name r).isNone) =
      l.filter (fun c => c.name.name ∉ r.map (·.name.name)) := filter_find?_none (f := fun c : My.Constraint => c.name.name)
  simp only [My.onlyLeftConstraint, hf]
  constructor
  · intro k hk
    rcases My.foldl_append_mem k hk with h | h
    · simp at h
    · have := List.mem_filter.1 h
      exact ⟨this.1, by simpa only [decide_eq_true_eq] using this.2⟩
  · intro k hk hn
    have : k.name.name ∈ (List.foldl My.appendConstraint [] (l.filter (fun c => c.name.name ∉ r.map (·.name.name)))).map
        (·.name.name) := by
      rw [My.foldl_append_names]
      exact .inr (List.mem_map_of_mem (List.mem_filter.2 ⟨hk, by simpa only [decide_eq_true_eq] using hn⟩))
    obtain ⟨k', hk', he⟩ := List.mem_map.1 this
    exact ⟨k', hk', he⟩

theorem My.alterColumn_steps {tn : ObjectName} {b a : My.Column} :
    ∀ s ∈ (My.alterColumn sd tn b a).map (fun x => My.step (.alterTable x)), s = .alterColumn a.name.name := by
  intro s hs
  obtain ⟨x, hx, rfl⟩ := List.mem_map.1 hs
  simp only [My.alterColumn, List.mem_append] at hx
  rcases hx with hx | hx <;> split at hx
  all_goals simp at hx
  all_goals subst hx; rfl

theorem My.columns_dropped {tn : ObjectName} {cb ca : List My.Column} :
    ((cb.flatMap (My.columnRound sd tn ca)).map (fun x => My.step (.alterTable x))).filterMap Step.droppedColumn =
      ((cb.filter (fun c => !(fun _ : My.Column => false) c)).map (·.name.name)).filter (fun n => n ∉ ca.map (·.name.name)) := by
  induction cb with
  | nil => rfl
  | cons c cb ih =>
    rw [List.flatMap_cons, List.map_append, List.filterMap_append, ih]
    simp only [My.columnRound]
    split
    · rename_i h
      rw [My.findColumn, find?_none_iff (f := fun c : My.Column => c.name.name)] at h
      rw [List.filter_cons_of_pos (by rfl), filter_map_pos (f := fun c : My.Column => c.name.name) h]
      rfl
    · rename_i a h
      obtain ⟨ham, hae⟩ := find?_some_mem (f := fun c : My.Column => c.name.name) h
      rw [filterMap_eq_nil_of (fun s hs => by rw [My.alterColumn_steps s hs]; rfl)]
      have : c.name.name ∈ ca.map (·.name.name) := List.mem_map.2 ⟨a, ham, hae⟩
      rw [List.filter_cons_of_pos (by rfl), filter_map_neg (f := fun c : My.Column => c.name.name) this]
      rfl

theorem My.columns_steps {tn : ObjectName} {cb ca : List My.Column} :
    ∀ s ∈ (cb.flatMap (My.columnRound sd tn ca)).map (fun x => My.step (.alterTable x)),
      (∃ n, s = .dropColumn n) ∨ ∃ n, n ∈ cb.map (·.name.name) ∧ n ∈ ca.map (·.name.name) ∧ s = .alterColumn n := by
  intro s hs
  obtain ⟨x, hx, rfl⟩ := List.mem_map.1 hs
  obtain ⟨c, hc, hx⟩ := List.mem_flatMap.1 hx
  simp only [My.columnRound] at hx
  split at hx
  · simp at hx; subst hx; exact .inl ⟨_, rfl⟩
  · rename_i a h
    obtain ⟨ham, hae⟩ := find?_some_mem (f := fun c : My.Column => c.name.name) h
    refine .inr ⟨a.name.name, ?_, List.mem_map_of_mem ham, My.alterColumn_steps _ (List.mem_map_of_mem hx)⟩
    exact List.mem_map.2 ⟨c, hc, hae.symm⟩

theorem My.onlyLeftColumn_eq {l r : List My.Column} :
    My.onlyLeftColumn l r = l.filter (fun c => c.name.name ∉ r.map (·.name.name)) :=
  filter_find?_none (f := fun c : My.Column => c.name.name)

theorem My.dropConstraints_steps {bs : Option Ident} {tn : ObjectName} {kb ka : List My.Constraint} :
    (My.dropConstraints sd bs tn kb ka).map My.step =
      ((kb.map (·.name.name)).filter (fun n => n ∉ ka.map (·.name.name))).map .dropConstraint := by
  induction kb with
  | nil => rfl
  | cons k kb ih =>
    simp only [My.dropConstraints] at ih ⊢
    rw [List.flatMap_cons, List.map_append, ih]
    split
    · rename_i h
      rw [My.findConstraint, find?_none_iff (f := fun c : My.Constraint => c.name.name)] at h
      rw [filter_map_pos (f := fun c : My.Constraint => c.name.name) h]
      split <;> rfl
    · rename_i a h
      obtain ⟨ham, hae⟩ := find?_some_mem (f := fun c : My.Constraint => c.name.name) h
      have : k.name.name ∈ ka.map (·.name.name) := List.mem_map.2 ⟨a, ham, hae⟩
      rw [filter_map_neg (f := fun c : My.Constraint => c.name.name) this]
      rfl

theorem My.replaceConstraints_steps {nv : Bool} {bs : Option Ident} {tn : ObjectName} {kb ka : List My.Constraint} :
    ∃ rep : List My.Constraint, (∀ k ∈ rep, k ∈ ka ∧ k.name.name ∈ kb.map (·.name.name)) ∧
      (My.replaceConstraints sd nv bs tn kb ka).map My.step =
        rep.flatMap (fun k => [.dropConstraint k.name.name, .addConstraint k]) := by
  induction kb with
  | nil => exact ⟨[], by simp, rfl⟩
  | cons k kb ih =>
    obtain ⟨rep, h1, h2⟩ := ih
    have h1' : ∀ x ∈ rep, x ∈ ka ∧ x.name.name ∈ (k :: kb).map (·.name.name) :=
      fun x hx => ⟨(h1 x hx).1, List.mem_cons_of_mem _ (h1 x hx).2⟩
    simp only [My.replaceConstraints] at h2 ⊢
    rw [List.flatMap_cons, List.map_append, h2]
    split
    · exact ⟨rep, h1', rfl⟩
    · rename_i a h
      obtain ⟨ham, hae⟩ := find?_some_mem (f := fun c : My.Constraint => c.name.name) h
      split
      · refine ⟨a :: rep, ?_, ?_⟩
        · intro x hx
          rcases List.mem_cons.1 hx with rfl | hx
          · exact ⟨ham, by simp [hae]⟩
          · exact h1' x hx
        · simp only [List.flatMap_cons, hae]
          split <;> rfl
      · exact ⟨rep, h1', rfl⟩

theorem My.addConstraints_steps {nv : Bool} {tn : ObjectName} {kb ka : List My.Constraint} :
    (My.addConstraints sd nv tn kb ka).map My.step = (My.onlyLeftConstraint ka kb).map .addConstraint := by
  rw [My.addConstraints, List.map_map]
  apply List.map_congr_left
  intro c _
  cases c <;> rfl

theorem My.shape {nv : Bool} {t t' : My.CreateTable} {l : List MStmt}
    (h : My.diffCreateTable sd nv (some t) (some t') = .ok l) :
    Shape (fun c : My.Column => c.name.name) (fun k : My.Constraint => k.name.name) (fun _ => false)
      t.columns t'.columns t.constraints t'.constraints (l.map My.step) := by
  obtain ⟨rfl, -, -⟩ := My.diffTable_ok h
  obtain ⟨rep, hr1, hr2⟩ := My.replaceConstraints_steps (sd := sd) (nv := nv) (bs := t.name.schema) (tn := My.renamedName t.name t'.name)
    (kb := t.constraints) (ka := t'.constraints)
  refine ⟨(My.renameTable sd t.name t'.name).map (fun x => My.step (.alterTable x)),
    (t.columns.flatMap (My.columnRound sd (My.renamedName t.name t'.name) t'.columns)).map (fun x => My.step (.alterTable x)),
    (My.changeOptions sd (My.renamedName t.name t'.name) t.options t'.options ++
      My.addOptions sd (My.renamedName t.name t'.name) t.options t'.options).map (fun x => My.step (.alterTable x)), rep, My.onlyLeftConstraint t'.constraints t.constraints, ?_, ?_, ?_, My.columns_dropped, My.columns_steps,
    hr1, (My.onlyLeftConstraint_spec).1, (My.onlyLeftConstraint_spec).2⟩
  · simp only [List.map_append, My.diffColumns, My.dropConstraints_steps, hr2, My.addConstraints_steps,
      My.onlyLeftColumn_eq, List.map_map, List.append_assoc, Function.comp_def]
    simp only [My.step]
  · intro s hs
    obtain ⟨x, hx, rfl⟩ := List.mem_map.1 hs
    simp only [My.renameTable] at hx
    split at hx <;> simp at hx
    subst hx; rfl
  · intro s hs
    obtain ⟨x, hx, rfl⟩ := List.mem_map.1 hs
    simp only [List.mem_append, My.changeOptions, My.addOptions, List.mem_flatMap] at hx
    rcases hx with ⟨c, _, hc⟩ | ⟨c, _, hc⟩
    · split at hc
      · simp at hc
      · split at hc
        · simp at hc
        · split at hc <;> simp at hc
          subst hc; rfl
    · split at hc <;> simp at hc
      subst hc; rfl

theorem Sp.alterColumn_steps {tn : ObjectName} {b a : Sp.Column} :
    ∀ s ∈ (Sp.alterColumn sd tn b a).map (fun x => Sp.step (.alterTable x)), s = .alterColumn a.name.name := by
  intro s hs
  obtain ⟨x, hx, rfl⟩ := List.mem_map.1 hs
  simp only [Sp.alterColumn, List.mem_append] at hx
  rcases hx with (hx | hx) | hx <;> split at hx <;> try split at hx
  all_goals simp at hx
  all_goals subst hx; rfl

theorem Sp.columns_dropped {tn : ObjectName} {cb ca : List Sp.Column} :
    ((cb.flatMap (Sp.columnRound sd tn ca)).map (fun x => Sp.step (.alterTable x))).filterMap Step.droppedColumn =
      ((cb.filter (fun c => !(fun _ : Sp.Column => false) c)).map (·.name.name)).filter (fun n => n ∉ ca.map (·.name.name)) := by
  induction cb with
  | nil => rfl
  | cons c cb ih =>
    rw [List.flatMap_cons, List.map_append, List.filterMap_append, ih]
    simp only [Sp.columnRound]
    split
    · rename_i h
      rw [Sp.findColumn, find?_none_iff (f := fun c : Sp.Column => c.name.name)] at h
      rw [List.filter_cons_of_pos (by rfl), filter_map_pos (f := fun c : Sp.Column => c.name.name) h]
      rfl
    · rename_i a h
      obtain ⟨ham, hae⟩ := find?_some_mem (f := fun c : Sp.Column => c.name.name) h
      rw [filterMap_eq_nil_of (fun s hs => by rw [Sp.alterColumn_steps s hs]; rfl)]
      have : c.name.name ∈ ca.map (·.name.name) := List.mem_map.2 ⟨a, ham, hae⟩
      rw [List.filter_cons_of_pos (by rfl), filter_map_neg (f := fun c : Sp.Column => c.name.name) this]
      rfl

theorem Sp.columns_steps {tn : ObjectName} {cb ca : List Sp.Column} :
    ∀ s ∈ (cb.flatMap (Sp.columnRound sd tn ca)).map (fun x => Sp.step (.alterTable x)),
      (∃ n, s = .dropColumn n) ∨ ∃ n, n ∈ cb.map (·.name.name) ∧ n ∈ ca.map (·.name.name) ∧ s = .alterColumn n := by
  intro s hs
  obtain ⟨x, hx, rfl⟩ := List.mem_map.1 hs
  obtain ⟨c, hc, hx⟩ := List.mem_flatMap.1 hx
  simp only [Sp.columnRound] at hx
  split at hx
  · simp at hx; subst hx; exact .inl ⟨_, rfl⟩
  · rename_i a h
    obtain ⟨ham, hae⟩ := find?_some_mem (f := fun c : Sp.Column => c.name.name) h
    refine .inr ⟨a.name.name, ?_, List.mem_map_of_mem ham, Sp.alterColumn_steps _ (List.mem_map_of_mem hx)⟩
    exact List.mem_map.2 ⟨c, hc, hae.symm⟩

theorem Sp.onlyLeftColumn_eq {l r : List Sp.Column} :
    Sp.onlyLeftColumn l r = l.filter (fun c => c.name.name ∉ r.map (·.name.name)) :=
  filter_find?_none (f := fun c : Sp.Column => c.name.name)

theorem Sp.nameStr_ok {k : Sp.Constraint} {n : Str} : k.nameStr = .ok n ↔ ∃ i, k.name = some i ∧ i.name = n := by
  unfold Sp.Constraint.nameStr
  cases k.name <;> simp

theorem Sp.nameStr_key {k : Sp.Constraint} {n : Str} (h : k.nameStr = .ok n) : k.key = n := by
  obtain ⟨i, hi, rfl⟩ := Sp.nameStr_ok.1 h
  simp [Sp.Constraint.key, hi]

theorem Sp.findConstraint_none {n : Str} {l : List Sp.Constraint} (h : Sp.findConstraint n l = .ok none) :
    n ∉ l.map Sp.Constraint.key := by
  induction l with
  | nil => simp
  | cons c l ih =>
    simp only [Sp.findConstraint, bind_eq_ok] at h
    obtain ⟨m, hm, h⟩ := h
    split at h
    · cases h
    · rename_i hne
      simp only [List.map_cons, List.mem_cons, Sp.nameStr_key hm, not_or]
      exact ⟨fun he => hne he.symm, ih h⟩

theorem Sp.findConstraint_some {n : Str} {l : List Sp.Constraint} {a : Sp.Constraint}
    (h : Sp.findConstraint n l = .ok (some a)) : a ∈ l ∧ a.key = n := by
  induction l with
  | nil => simp [Sp.findConstraint] at h
  | cons c l ih =>
    simp only [Sp.findConstraint, bind_eq_ok] at h
    obtain ⟨m, hm, h⟩ := h
    split at h
    · rename_i he
      cases h
      exact ⟨List.mem_cons_self, (Sp.nameStr_key hm).trans he⟩
    · exact ⟨List.mem_cons_of_mem _ (ih h).1, (ih h).2⟩

theorem Sp.appendConstraint_spec {l l' : List Sp.Constraint} {c : Sp.Constraint} (h : Sp.appendConstraint l c = .ok l') :
    (∀ x ∈ l', x ∈ l ∨ x = c) ∧ ∀ n, n ∈ l'.map Sp.Constraint.key ↔ n ∈ l.map Sp.Constraint.key ∨ n = c.key := by
  induction l generalizing l' with
  | nil => simp only [Sp.appendConstraint, Res.ok.injEq] at h; subst h; simp
  | cons y l ih =>
    simp only [Sp.appendConstraint, bind_eq_ok] at h
    obtain ⟨a, ha, b, hb, h⟩ := h
    split at h
    · rename_i he
      cases h
      have hk : y.key = c.key := by rw [Sp.nameStr_key ha, Sp.nameStr_key hb, he]
      refine ⟨?_, fun n => by simp only [List.map_cons, List.mem_cons, hk]; tauto⟩
      intro x hx
      rcases List.mem_cons.1 hx with rfl | hx
      · exact .inr rfl
      · exact .inl (List.mem_cons_of_mem _ hx)
    · simp only [bind_eq_ok] at h
      obtain ⟨r, hr, h⟩ := h
      cases h
      obtain ⟨h1, h2⟩ := ih hr
      refine ⟨?_, fun n => by simp only [List.map_cons, List.mem_cons, h2]; tauto⟩
      intro x hx
      rcases List.mem_cons.1 hx with rfl | hx
      · exact .inl List.mem_cons_self
      · rcases h1 x hx with h | h
        · exact .inl (List.mem_cons_of_mem _ h)
        · exact .inr h

theorem Sp.onlyLeftConstraint_spec {r acc l out : List Sp.Constraint} (h : Sp.onlyLeftConstraint r acc l = .ok out) :
    (∀ k ∈ out, k ∈ acc ∨ (k ∈ l ∧ k.key ∉ r.map Sp.Constraint.key)) ∧
    (∀ n ∈ acc.map Sp.Constraint.key, n ∈ out.map Sp.Constraint.key) ∧
    (∀ k ∈ l, k.key ∉ r.map Sp.Constraint.key → k.key ∈ out.map Sp.Constraint.key) := by
  induction l generalizing acc with
  | nil => simp only [Sp.onlyLeftConstraint, Res.ok.injEq] at h; subst h; simp
  | cons c l ih =>
    simp only [Sp.onlyLeftConstraint, bind_eq_ok] at h
    obtain ⟨n, hn, f, hf, h⟩ := h
    have hk := Sp.nameStr_key hn
    cases f with
    | none =>
      simp only [bind_eq_ok] at h
      obtain ⟨acc', ha, h⟩ := h
      obtain ⟨h1, h2, h3⟩ := ih h
      obtain ⟨a1, a2⟩ := Sp.appendConstraint_spec ha
      refine ⟨?_, ?_, ?_⟩
      · intro k hk'
        rcases h1 k hk' with h | h
        · rcases a1 k h with h | rfl
          · exact .inl h
          · exact .inr ⟨List.mem_cons_self, by rw [hk]; exact Sp.findConstraint_none hf⟩
        · exact .inr ⟨List.mem_cons_of_mem _ h.1, h.2⟩
      · intro n hn
        exact h2 n ((a2 n).2 (.inl hn))
      · intro k hk' hnot
        rcases List.mem_cons.1 hk' with rfl | hk'
        · exact h2 _ ((a2 _).2 (.inr rfl))
        · exact h3 k hk' hnot
    | some a =>
      obtain ⟨h1, h2, h3⟩ := ih h
      refine ⟨?_, h2, ?_⟩
      · intro k hk'
        rcases h1 k hk' with h | h
        · exact .inl h
        · exact .inr ⟨List.mem_cons_of_mem _ h.1, h.2⟩
      · intro k hk' hnot
        rcases List.mem_cons.1 hk' with rfl | hk'
        · obtain ⟨hm, he⟩ := Sp.findConstraint_some hf
          exact absurd (List.mem_map.2 ⟨a, hm, by rw [he, hk]⟩) hnot
        · exact h3 k hk' hnot

theorem Sp.dropConstraints_steps {tn : ObjectName} {kb ka : List Sp.Constraint} {out : List Sp.AlterTable}
    (h : flatMapRes (Sp.dropConstraint sd tn ka) kb = .ok out) :
    out.map (fun x => Sp.step (.alterTable x)) =
      ((kb.map Sp.Constraint.key).filter (fun n => n ∉ ka.map Sp.Constraint.key)).map .dropConstraint := by
  induction kb generalizing out with
  | nil => simp only [flatMapRes, Res.ok.injEq] at h; subst h; rfl
  | cons k kb ih =>
    simp only [flatMapRes, bind_eq_ok] at h
    obtain ⟨o1, h1, o2, h2, h⟩ := h
    cases h
    rw [List.map_append, ih h2]
    simp only [Sp.dropConstraint, bind_eq_ok] at h1
    obtain ⟨n, hn, f, hf, h1⟩ := h1
    obtain ⟨i, hi, rfl⟩ := Sp.nameStr_ok.1 hn
    have hk := Sp.nameStr_key hn
    cases f with
    | none =>
      cases h1
      rw [filter_map_pos (f := Sp.Constraint.key) (by rw [hk]; exact Sp.findConstraint_none hf)]
      simp [Sp.step, hi, hk]
    | some a =>
      cases h1
      obtain ⟨hm, he⟩ := Sp.findConstraint_some hf
      rw [filter_map_neg (f := Sp.Constraint.key) (List.mem_map.2 ⟨a, hm, by rw [he, hk]⟩)]
      rfl

theorem Sp.replaceConstraints_steps {nv : Bool} {tn : ObjectName} {kb ka : List Sp.Constraint} {out : List Sp.AlterTable}
    (h : flatMapRes (Sp.replaceConstraint sd nv tn ka) kb = .ok out) :
    ∃ rep : List Sp.Constraint, (∀ k ∈ rep, k ∈ ka ∧ k.key ∈ kb.map Sp.Constraint.key) ∧
      out.map (fun x => Sp.step (.alterTable x)) = rep.flatMap (fun k => [.dropConstraint k.key, .addConstraint k]) := by
  induction kb generalizing out with
  | nil => simp only [flatMapRes, Res.ok.injEq] at h; subst h; exact ⟨[], by simp, rfl⟩
  | cons k kb ih =>
    simp only [flatMapRes, bind_eq_ok] at h
    obtain ⟨o1, h1, o2, h2, h⟩ := h
    cases h
    obtain ⟨rep, hr1, hr2⟩ := ih h2
    have hr1' : ∀ x ∈ rep, x ∈ ka ∧ x.key ∈ (k :: kb).map Sp.Constraint.key :=
      fun x hx => ⟨(hr1 x hx).1, List.mem_cons_of_mem _ (hr1 x hx).2⟩
    rw [List.map_append, hr2]
    simp only [Sp.replaceConstraint, bind_eq_ok] at h1
    obtain ⟨n, hn, f, hf, h1⟩ := h1
    obtain ⟨i, hi, rfl⟩ := Sp.nameStr_ok.1 hn
    have hk := Sp.nameStr_key hn
    cases f with
    | none => cases h1; exact ⟨rep, hr1', rfl⟩
    | some a =>
      obtain ⟨hm, he⟩ := Sp.findConstraint_some hf
      dsimp only at h1
      split at h1
      · cases h1
        refine ⟨a :: rep, ?_, ?_⟩
        · intro x hx
          rcases List.mem_cons.1 hx with rfl | hx
          · exact ⟨hm, by simp [he, hk]⟩
          · exact hr1' x hx
        · simp [Sp.step, hi, he]
      · cases h1; exact ⟨rep, hr1', rfl⟩

theorem Sp.shape {nv : Bool} {t t' : Sp.CreateTable} {l : List SStmt}
    (ho : Sp.optionsDiffStr t.options = Sp.optionsDiffStr t'.options)
    (h : Sp.diffCreateTable sd nv (some t) (some t') = .ok l) :
    Shape (fun c : Sp.Column => c.name.name) Sp.Constraint.key (fun _ => false)
      t.columns t'.columns t.constraints t'.constraints (l.map Sp.step) := by
  rcases Sp.diffTable_ok h with ⟨h1, _⟩ | ⟨_, _, _, dropped, replaced, added, hd, hrp, ha, rfl⟩
  · exact absurd ho h1
  obtain ⟨rep, hr1, hr2⟩ := Sp.replaceConstraints_steps hrp
  obtain ⟨ha1, _, ha3⟩ := Sp.onlyLeftConstraint_spec ha
  refine ⟨(Sp.renameTable sd t.name t'.name).map (fun x => Sp.step (.alterTable x)),
    (t.columns.flatMap (Sp.columnRound sd (Sp.renamedName t.name t'.name) t'.columns)).map (fun x => Sp.step (.alterTable x)),
    (Sp.diffRowDeletionPolicy sd (Sp.renamedName t.name t'.name) t.rowDeletionPolicy t'.rowDeletionPolicy).map
      (fun x => Sp.step (.alterTable x)), rep, added, ?_, ?_, ?_, Sp.columns_dropped, Sp.columns_steps, hr1, ?_, ?_⟩
  · rw [List.map_map]
    simp only [List.map_append, Sp.diffColumns, Function.comp_def, Sp.dropConstraints_steps hd, hr2,
      Sp.onlyLeftColumn_eq, List.map_map, List.append_assoc]
    simp only [Sp.step]
  · intro s hs
    obtain ⟨x, hx, rfl⟩ := List.mem_map.1 hs
    simp only [Sp.renameTable] at hx
    split at hx <;> simp at hx
    subst hx; rfl
  · intro s hs
    obtain ⟨x, hx, rfl⟩ := List.mem_map.1 hs
    simp only [Sp.diffRowDeletionPolicy] at hx
    split at hx
    · split at hx <;> simp at hx <;> subst hx <;> rfl
    · simp at hx
  · intro k hk
    rcases ha1 k hk with h | h
    · simp at h
    · exact h
  · intro k hk hn
    obtain ⟨k', hk', he⟩ := List.mem_map.1 (ha3 k hk hn)
    exact ⟨k', hk', he⟩

end Ddl
