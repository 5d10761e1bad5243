import Verif.Lemmas.Sides

/-! # No difference between tables, seen from both sides -/

namespace Ddl
open Spec
set_option autoImplicit false

/-! ## PostgreSQL -/

namespace Pg
variable {sd : Str → Str → Str}

theorem defaultDiffStr_some {d : Option Default} (h : d ≠ some ⟨none⟩) : ∀ x, d = some x → defaultDiffStr d ≠ defaultDiffStr none := by
  rintro ⟨_ | e⟩ rfl
  · exact absurd rfl h
  · simp [defaultDiffStr]

theorem alterColumn_iff {tn : ObjectName} {b a : Column} (vb : b.default ≠ some ⟨none⟩) (va : a.default ≠ some ⟨none⟩) :
    alterColumn sd tn b a = [] ↔
      b.dataType.diffStr = a.dataType.diffStr ∧ defaultDiffStr b.default = defaultDiffStr a.default ∧ b.notNull = a.notNull := by
  rw [← default_swap (f := defaultDiffStr) (defaultDiffStr_some vb) (defaultDiffStr_some va)]
  unfold alterColumn
  generalize defaultDiffStr b.default = x
  generalize defaultDiffStr a.default = y
  generalize b.dataType.diffStr = z
  generalize a.dataType.diffStr = w
  cases b.notNull <;> cases a.notNull <;> cases b.default <;> cases a.default <;> simp

theorem diffColumns_iff {tn : ObjectName} {l l' : List Column} :
    diffColumns sd tn l l' = [] ↔
      (∀ x ∈ l, ∃ x', l'.find? (fun c => c.name.name == x.name.name) = some x' ∧ alterColumn sd tn x x' = []) ∧
      ∀ x' ∈ l', (l.find? (fun c => c.name.name == x'.name.name)).isSome := by
  simp only [diffColumns, List.append_eq_nil_iff, List.map_eq_nil_iff, onlyLeftColumn, List.filter_eq_nil_iff, List.flatMap_eq_nil_iff]
  refine and_congr (forall₂_congr fun x hx => ?_) (forall₂_congr fun x hx => ?_)
  · unfold columnRound findColumn
    cases l'.find? (fun c => c.name.name == x.name.name) <;> simp
  · unfold findColumn
    cases l.find? (fun c => c.name.name == x.name.name) <;> simp

theorem diffConstraints_iff {nv : Bool} {tn : ObjectName} {l l' : List Constraint} :
    (dropConstraints sd tn l l' = [] ∧ replaceConstraints sd nv tn l l' = [] ∧ addConstraints sd nv tn l l' = []) ↔
      (∀ x ∈ l, ∃ x', l'.find? (fun c => c.name.name == x.name.name) = some x' ∧ x.diffStr = x'.diffStr) ∧
      ∀ x' ∈ l', (l.find? (fun c => c.name.name == x'.name.name)).isSome := by
  rw [← and_assoc]
  refine and_congr ?_ ?_
  · simp only [dropConstraints, replaceConstraints, List.flatMap_eq_nil_iff, ← forall₂_and]
    refine forall₂_congr fun x hx => ?_
    unfold findConstraint
    cases l'.find? (fun c => c.name.name == x.name.name) <;> simp
  · have hap : ∀ (l cs : List Constraint), cs ≠ [] → l.foldl appendConstraint cs ≠ [] := by
      intro l
      induction l with
      | nil => intro cs h; exact h
      | cons x l ih =>
        intro cs h
        refine ih _ ?_
        cases cs with
        | nil => contradiction
        | cons y cs => unfold appendConstraint; split <;> simp
    have hf : ∀ l : List Constraint, l.foldl appendConstraint [] = [] ↔ l = [] := by
      intro l
      cases l with
      | nil => simp
      | cons x l => exact iff_of_false (hap l [x] (by simp)) (by simp)
    simp only [addConstraints, List.map_eq_nil_iff, onlyLeftConstraint, hf, List.filter_eq_nil_iff]
    refine forall₂_congr fun x hx => ?_
    unfold findConstraint
    cases l.find? (fun c => c.name.name == x.name.name) <;> simp

theorem diffTable_ne_nil {t t' : CreateTable} : (ops sd).diffTable t t' ≠ .ok [] := by
  show diffCreateTable sd false (some t) (some t') ≠ .ok []
  simp only [diffCreateTable]
  split
  · simp
  · split
    · simp
    · rename_i hne
      intro e
      rw [List.map_eq_nil_iff.1 (Res.ok.inj e)] at hne
      simp at hne

theorem diffTable_self {t : CreateTable} : (ops sd).diffTable t t = .err .noDifference := by
  simp [ops, diffCreateTable]

theorem diffTable_swap {t t' : CreateTable} (hd' : DistinctNames t') (v : FullValues t) (v' : FullValues t')
    (h : (ops sd).diffTable t t' = .err .noDifference) : (ops sd).diffTable t' t = .err .noDifference := by
  change diffCreateTable sd false (some t) (some t') = .err .noDifference at h
  show diffCreateTable sd false (some t') (some t) = .err .noDifference
  simp only [diffCreateTable] at h ⊢
  split at h
  · rename_i e
    rw [if_pos e.symm]
  · rename_i e
    rw [if_neg (Ne.symm e)]
    split at h
    · rename_i h'
      clear h
      simp only [List.isEmpty_iff, List.append_eq_nil_iff] at h'
      obtain ⟨⟨⟨⟨r1, r2⟩, r3⟩, r4⟩, r5⟩ := h'
      have hn : t.name.diffStr = t'.name.diffStr := by
        by_contra hne
        simp [renameTable, hne] at r1
      obtain ⟨c1, c2⟩ := diffColumns_iff.1 r3
      obtain ⟨k1, k2⟩ := diffConstraints_iff.1 ⟨r2, r4, r5⟩
      have c := diffColumns_iff (sd := sd) (tn := renamedName t'.name t.name).2
        (find_swap (f := fun c : Column => c.name.name) (Q := fun x x' => alterColumn sd _ x x' = []) hd'.1 c1 c2
          (fun x hx x' hx' p => by
            rw [alterColumn_iff (v x hx) (v' x' hx')] at p
            rw [alterColumn_iff (v' x' hx') (v x hx)]
            exact ⟨p.1.symm, p.2.1.symm, p.2.2.symm⟩))
      obtain ⟨s2, s4, s5⟩ := diffConstraints_iff (sd := sd) (nv := false) (tn := renamedName t'.name t.name).2
        (find_swap (f := fun c : Constraint => c.name.name) (Q := fun x x' => x.diffStr = x'.diffStr) hd'.2 k1 k2
          (fun x hx x' hx' p => p.symm))
      rw [c, s2, s4, s5]
      simp [renameTable, hn]
    · cases h

end Pg

/-! ## CockroachDB -/

namespace Crdb
variable {sd : Str → Str → Str}

theorem defaultDiffStr_some {d : Option Default} (h : d ≠ some ⟨none⟩) : ∀ x, d = some x → defaultDiffStr d ≠ defaultDiffStr none := by
  rintro ⟨_ | e⟩ rfl
  · exact absurd rfl h
  · simp [defaultDiffStr]

theorem alterColumn_iff {tn : ObjectName} {b a : Column} (vb : b.default ≠ some ⟨none⟩) (va : a.default ≠ some ⟨none⟩) :
    alterColumn sd tn b a = [] ↔
      b.dataType.diffStr = a.dataType.diffStr ∧ defaultDiffStr b.default = defaultDiffStr a.default ∧ b.notNull = a.notNull := by
  rw [← default_swap (f := defaultDiffStr) (defaultDiffStr_some vb) (defaultDiffStr_some va)]
  unfold alterColumn
  generalize defaultDiffStr b.default = x
  generalize defaultDiffStr a.default = y
  generalize b.dataType.diffStr = z
  generalize a.dataType.diffStr = w
  cases b.notNull <;> cases a.notNull <;> cases b.default <;> cases a.default <;> simp

theorem diffColumns_iff {tn : ObjectName} {l l' : List Column}
    (hid : ∀ x ∈ l, x.IsShard → ∃ x' ∈ l', x'.name.name = x.name.name) :
    diffColumns sd tn l l' = [] ↔
      (∀ x ∈ l, ∃ x', l'.find? (fun c => c.name.name == x.name.name) = some x' ∧ alterColumn sd tn x x' = []) ∧
      ∀ x' ∈ l', (l.find? (fun c => c.name.name == x'.name.name)).isSome := by
  simp only [diffColumns, List.append_eq_nil_iff, List.map_eq_nil_iff, onlyLeftColumn, List.filter_eq_nil_iff, List.flatMap_eq_nil_iff]
  refine and_congr (forall₂_congr fun x hx => ?_) (forall₂_congr fun x hx => ?_)
  · unfold columnRound findColumn
    cases hf : l'.find? (fun c => c.name.name == x.name.name) with
    | some => simp
    | none =>
      have hs : ¬ (x.notVisible = true ∧ x.as_.any (fun a => a.type = some .VIRTUAL) = true) := by
        intro h
        have : x.IsShard := by
          revert h
          unfold Column.IsShard
          cases x.as_ <;> simp
        obtain ⟨x', hx', e⟩ := hid x hx this
        have := List.find?_eq_none.1 hf x' hx'
        simp [e] at this
      simp [hs]
  · unfold findColumn
    cases l.find? (fun c => c.name.name == x.name.name) <;> simp

theorem diffConstraints_iff {nv : Bool} {tn : ObjectName} {l l' : List Constraint} (hd : (l'.map fun c => c.name.name).Nodup) :
    (dropConstraints sd tn l l' = [] ∧ replaceConstraints sd nv tn l l' = [] ∧ addConstraints sd nv tn l l' = []) ↔
      (∀ x ∈ l, ∃ x', l'.find? (fun c => c.name.name == x.name.name) = some x' ∧ x.diffStr = x'.diffStr) ∧
      ∀ x' ∈ l', (l.find? (fun c => c.name.name == x'.name.name)).isSome := by
  rw [← and_assoc]
  refine and_congr ?_ ?_
  · simp only [dropConstraints, replaceConstraints, List.flatMap_eq_nil_iff, ← forall₂_and]
    refine forall₂_congr fun x hx => ?_
    unfold findConstraint
    cases l'.find? (fun c => c.name.name == x.name.name) with
    | none => cases x <;> simp
    | some a =>
      by_cases e : x.diffStr = a.diffStr
      · simp [e]
      · cases a <;> simp [e]
  · rw [addConstraints, List.map_eq_nil_iff]
    have hspec := (Run.onlyLeft_iff (l := l') (r := l) hd).2
    rw [List.eq_nil_iff_forall_not_mem]
    refine forall_congr' fun x => ?_
    rw [hspec, ← find?_congr_key (key := fun c : Constraint => c.name.name)]
    simp only [not_and, Option.isSome_iff_ne_none, ne_eq]

theorem diffTable_self {t : CreateTable} : (ops sd).diffTable t t = .err .noDifference := by
  simp [ops, diffCreateTable]

theorem diffTable_swap {t t' : CreateTable} (hd : DistinctNames t) (hd' : DistinctNames t') (v : FullValues t) (v' : FullValues t')
    (hid : ∀ x ∈ t.columns, x.IsShard → ∃ x' ∈ t'.columns, x'.name.name = x.name.name)
    (h : (ops sd).diffTable t t' = .err .noDifference) : (ops sd).diffTable t' t = .err .noDifference := by
  change diffCreateTable sd false (some t) (some t') = .err .noDifference at h
  show diffCreateTable sd false (some t') (some t) = .err .noDifference
  simp only [diffCreateTable] at h ⊢
  split at h
  · rename_i e
    rw [if_pos e.symm]
  · rename_i e
    rw [if_neg (Ne.symm e)]
    split at h
    · rename_i h'
      clear h
      simp only [List.isEmpty_iff, List.append_eq_nil_iff, List.map_eq_nil_iff] at h'
      obtain ⟨⟨⟨⟨r1, r2⟩, r3⟩, r4⟩, r5⟩ := h'
      have hn : t.name.diffStr = t'.name.diffStr := by
        by_contra hne
        simp [renameTable, hne] at r1
      obtain ⟨c1, c2⟩ := (diffColumns_iff hid).1 r3
      obtain ⟨k1, k2⟩ := (diffConstraints_iff hd'.2).1 ⟨r2, r4, r5⟩
      have c := (diffColumns_iff (sd := sd) (tn := renamedName t'.name t.name) (l := t'.columns) (l' := t.columns)
        (fun x hx _ => by
          obtain ⟨y, hf⟩ := Option.isSome_iff_exists.1 (c2 x hx)
          exact ⟨y, List.mem_of_find?_eq_some hf, by simpa using List.find?_some hf⟩)).2
        (find_swap (f := fun c : Column => c.name.name) (Q := fun x x' => alterColumn sd _ x x' = []) hd'.1 c1 c2
          (fun x hx x' hx' p => by
            rw [alterColumn_iff (v x hx) (v' x' hx')] at p
            rw [alterColumn_iff (v' x' hx') (v x hx)]
            exact ⟨p.1.symm, p.2.1.symm, p.2.2.symm⟩))
      obtain ⟨s2, s4, s5⟩ := (diffConstraints_iff (sd := sd) (nv := false) (tn := renamedName t'.name t.name) hd.2).2
        (find_swap (f := fun c : Constraint => c.name.name) (Q := fun x x' => x.diffStr = x'.diffStr) hd'.2 k1 k2
          (fun x hx x' hx' p => p.symm))
      rw [c, s2, s4, s5]
      simp [renameTable, hn]
    · cases h

end Crdb

/-! ## MySQL -/

namespace My
variable {sd : Str → Str → Str}

theorem defaultDiffStr_some {d : Option Default} (h : d ≠ some ⟨none⟩) : ∀ x, d = some x → defaultDiffStr d ≠ defaultDiffStr none := by
  rintro ⟨_ | e⟩ rfl
  · exact absurd rfl h
  · simp [defaultDiffStr]

theorem alterColumn_iff {tn : ObjectName} {b a : Column} (vb : b.default ≠ some ⟨none⟩) (va : a.default ≠ some ⟨none⟩) :
    alterColumn sd tn b a = [] ↔
      b.dataType.diffStr = a.dataType.diffStr ∧ identDiffStr b.characterSet = identDiffStr a.characterSet ∧
      identDiffStr b.collate = identDiffStr a.collate ∧ b.notNull = a.notNull ∧
      defaultDiffStr b.default = defaultDiffStr a.default ∧ b.autoIncrement = a.autoIncrement ∧ b.onAction = a.onAction ∧
      b.comment = a.comment := by
  have h := default_swap (f := defaultDiffStr) (defaultDiffStr_some vb) (defaultDiffStr_some va)
  have hm : alterColumn sd tn b a = [] ↔ ¬ needsModify b a ∧ ¬ dropDefault b a = true := by
    simp only [alterColumn, List.append_eq_nil_iff, ite_eq_right_iff, imp_false, List.cons_ne_self]
  have hd : (¬(¬dropDefault b a = true ∧ ¬defaultDiffStr b.default = defaultDiffStr a.default) ∧ ¬ dropDefault b a = true) ↔
      defaultDiffStr b.default = defaultDiffStr a.default := by
    rw [← h]
    unfold dropDefault
    cases hb : b.default <;> cases ha : a.default <;> simp
  rw [hm, ← hd]
  simp only [needsModify, not_or, ne_eq, not_not]
  tauto

theorem diffColumns_iff {tn : ObjectName} {l l' : List Column} :
    diffColumns sd tn l l' = [] ↔
      (∀ x ∈ l, ∃ x', l'.find? (fun c => c.name.name == x.name.name) = some x' ∧ alterColumn sd tn x x' = []) ∧
      ∀ x' ∈ l', (l.find? (fun c => c.name.name == x'.name.name)).isSome := by
  simp only [diffColumns, List.append_eq_nil_iff, List.map_eq_nil_iff, onlyLeftColumn, List.filter_eq_nil_iff, List.flatMap_eq_nil_iff]
  refine and_congr (forall₂_congr fun x hx => ?_) (forall₂_congr fun x hx => ?_)
  · unfold columnRound findColumn
    cases l'.find? (fun c => c.name.name == x.name.name) <;> simp
  · unfold findColumn
    cases l.find? (fun c => c.name.name == x.name.name) <;> simp

theorem diffConstraints_iff {nv : Bool} {bs : Option Ident} {tn : ObjectName} {l l' : List Constraint} (hd : (l'.map fun c => c.name.name).Nodup) :
    (dropConstraints sd bs tn l l' = [] ∧ replaceConstraints sd nv bs tn l l' = [] ∧ addConstraints sd nv tn l l' = []) ↔
      (∀ x ∈ l, ∃ x', l'.find? (fun c => c.name.name == x.name.name) = some x' ∧ x.diffStr = x'.diffStr) ∧
      ∀ x' ∈ l', (l.find? (fun c => c.name.name == x'.name.name)).isSome := by
  rw [← and_assoc]
  refine and_congr ?_ ?_
  · simp only [dropConstraints, replaceConstraints, List.flatMap_eq_nil_iff, ← forall₂_and]
    refine forall₂_congr fun x hx => ?_
    unfold findConstraint
    cases l'.find? (fun c => c.name.name == x.name.name) with
    | none => cases x <;> simp
    | some a =>
      by_cases e : x.diffStr = a.diffStr
      · simp [e]
      · cases a <;> simp [e]
  · rw [addConstraints, List.map_eq_nil_iff]
    have hspec := (Run.onlyLeft_iff (l := l') (r := l) hd).2
    rw [List.eq_nil_iff_forall_not_mem]
    refine forall_congr' fun x => ?_
    rw [hspec, ← find?_congr_key (key := fun c : Constraint => c.name.name)]
    simp only [not_and, Option.isSome_iff_ne_none, ne_eq]

theorem changeOptions_iff {tn : ObjectName} {l l' : List TableOption} (hd : (l'.map (·.name)).Nodup) :
    changeOptions sd tn l l' = [] ↔ ∀ o ∈ l, ¬ o.IsCounter → ∀ o' ∈ l', o'.name = o.name → o.diffStr = o'.diffStr := by
  simp only [changeOptions, List.flatMap_eq_nil_iff]
  refine forall₂_congr fun o ho => ?_
  by_cases hc : upper o.name = s%"AUTO_INCREMENT"
  · have hc' : o.IsCounter := hc
    simp [hc, hc']
  · have hc' : ¬ o.IsCounter := hc
    rw [if_neg hc]
    simp only [hc', not_false_eq_true, true_imp_iff]
    cases hf : findOption o.name l' with
    | none =>
      refine iff_of_true rfl fun o' ho' e => ?_
      have := List.find?_eq_none.1 hf o' ho'
      simp [e] at this
    | some a =>
      have hm := List.mem_of_find?_eq_some hf
      have hk := List.find?_some hf
      simp only [beq_iff_eq] at hk
      simp only [ite_eq_right_iff, imp_false, not_not, ne_eq, List.cons_ne_self]
      constructor
      · intro e o' ho' hn
        rwa [List.inj_on_of_nodup_map hd ho' hm (by rw [hn, hk])]
      · exact fun h => h a hm hk

theorem addOptions_iff {tn : ObjectName} {l l' : List TableOption} :
    addOptions sd tn l l' = [] ↔ ∀ o' ∈ l', ¬ o'.IsCounter → ∃ o ∈ l, o.name = o'.name := by
  simp only [addOptions, List.flatMap_eq_nil_iff, onlyLeftOption, List.mem_filter, and_imp]
  refine forall₂_congr fun o ho => ?_
  by_cases hc : upper o.name = s%"AUTO_INCREMENT"
  · have hc' : o.IsCounter := hc
    simp [hc, hc']
  · have hc' : ¬ o.IsCounter := hc
    simp only [hc', not_false_eq_true, true_imp_iff, if_neg hc, List.cons_ne_self, imp_false, Bool.not_eq_true,
      Option.isNone_eq_false_iff, findOption, List.find?_isSome, beq_iff_eq]

theorem diffTable_self {t : CreateTable} : (ops sd).diffTable t t = .err .noDifference := by
  simp [ops, diffCreateTable]

theorem diffTable_swap {t t' : CreateTable} (hd : DistinctNames t) (hd' : DistinctNames t') (v : FullValues t) (v' : FullValues t')
    (hop : ∀ o ∈ t.options, ¬ o.IsCounter → ∃ o' ∈ t'.options, o'.name = o.name)
    (h : (ops sd).diffTable t t' = .err .noDifference) : (ops sd).diffTable t' t = .err .noDifference := by
  change diffCreateTable sd false (some t) (some t') = .err .noDifference at h
  show diffCreateTable sd false (some t') (some t) = .err .noDifference
  simp only [diffCreateTable] at h ⊢
  split at h
  · rename_i e
    rw [if_pos e.symm]
  · rename_i e
    rw [if_neg (Ne.symm e)]
    split at h
    · rename_i h'
      clear h
      simp only [List.isEmpty_iff, List.append_eq_nil_iff, List.map_eq_nil_iff] at h'
      obtain ⟨⟨⟨⟨⟨r1, r2⟩, r3⟩, r4⟩, r5⟩, r6, r7⟩ := h'
      have hn : t.name.diffStr = t'.name.diffStr := by
        by_contra hne
        simp [renameTable, hne] at r1
      obtain ⟨c1, c2⟩ := diffColumns_iff.1 r3
      obtain ⟨k1, k2⟩ := (diffConstraints_iff hd'.2.1).1 ⟨r2, r4, r5⟩
      have c := (diffColumns_iff (sd := sd) (tn := renamedName t'.name t.name)).2
        (find_swap (f := fun c : Column => c.name.name) (Q := fun x x' => alterColumn sd _ x x' = []) hd'.1 c1 c2
          (fun x hx x' hx' p => by
            rw [alterColumn_iff (v x hx) (v' x' hx')] at p
            rw [alterColumn_iff (v' x' hx') (v x hx)]
            obtain ⟨p1, p2, p3, p4, p5, p6, p7, p8⟩ := p
            exact ⟨p1.symm, p2.symm, p3.symm, p4.symm, p5.symm, p6.symm, p7.symm, p8.symm⟩))
      obtain ⟨s2, s4, s5⟩ := (diffConstraints_iff (sd := sd) (nv := false) (bs := t'.name.schema)
          (tn := renamedName t'.name t.name) hd.2.1).2
        (find_swap (f := fun c : Constraint => c.name.name) (Q := fun x x' => x.diffStr = x'.diffStr) hd'.2.1 k1 k2
          (fun x hx x' hx' p => p.symm))
      rw [changeOptions_iff hd'.2.2] at r6
      rw [addOptions_iff] at r7
      have s6 := (changeOptions_iff (sd := sd) (tn := renamedName t'.name t.name) (l := t'.options) hd.2.2).2
        (fun o ho hc o' ho' e => (r6 o' ho' (by unfold TableOption.IsCounter at hc ⊢; rwa [e]) o ho e.symm).symm)
      have s7 := (addOptions_iff (sd := sd) (tn := renamedName t'.name t.name) (l := t'.options) (l' := t.options)).2 hop
      rw [c, s2, s4, s5, s6, s7]
      simp [renameTable, hn]
    · cases h

end My

/-! ## Spanner -/

namespace Sp
variable {sd : Str → Str → Str}

theorem defaultDiffStr_some {d : Option Default} (h : d ≠ some ⟨none⟩) : ∀ x, d = some x → defaultDiffStr d ≠ defaultDiffStr none := by
  rintro ⟨_ | e⟩ rfl
  · exact absurd rfl h
  · simp [defaultDiffStr]

theorem join_ne_nil {sep : Str} {l : List Str} {x : Str} (h : x ∈ l) (hx : x ≠ []) : join sep l ≠ [] := by
  induction l with
  | nil => cases h
  | cons y l ih =>
    cases l with
    | nil =>
      rw [List.mem_singleton] at h
      subst h
      simpa [join] using hx
    | cons z l =>
      rcases List.mem_cons.1 h with rfl | h
      · simp [join, hx]
      · have := ih h
        simp [join] at this ⊢
        tauto

theorem optExprDiffStr_some {d : Option Expr} (h : ∀ e, d = some e → ∃ i ∈ e, i.name ≠ []) :
    ∀ x, d = some x → optExprDiffStr d ≠ optExprDiffStr none := by
  rintro e rfl
  obtain ⟨i, hi, hne⟩ := h e rfl
  have : join s%" " (e.map Ident.diffStr) ≠ [] := join_ne_nil (List.mem_map.2 ⟨i, hi, rfl⟩) hne
  simpa [optExprDiffStr, exprDiffStr, join] using this

theorem alterColumn_iff {tn : ObjectName} {b a : Column} (vb : b.default ≠ some ⟨none⟩ ∧ ∀ e, b.options = some e → ∃ i ∈ e, i.name ≠ [])
    (va : a.default ≠ some ⟨none⟩ ∧ ∀ e, a.options = some e → ∃ i ∈ e, i.name ≠ []) :
    alterColumn sd tn b a = [] ↔
      b.dataType.diffStr = a.dataType.diffStr ∧ b.notNull = a.notNull ∧ defaultDiffStr b.default = defaultDiffStr a.default ∧
      optExprDiffStr b.options = optExprDiffStr a.options := by
  rw [← default_swap (f := defaultDiffStr) (defaultDiffStr_some vb.1) (defaultDiffStr_some va.1),
    ← default_swap (f := optExprDiffStr) (optExprDiffStr_some vb.2) (optExprDiffStr_some va.2)]
  unfold alterColumn
  generalize defaultDiffStr b.default = x
  generalize defaultDiffStr a.default = y
  generalize optExprDiffStr b.options = x'
  generalize optExprDiffStr a.options = y'
  generalize b.dataType.diffStr = z
  generalize a.dataType.diffStr = w
  cases b.default <;> cases a.default <;> cases b.options <;> cases a.options <;> simp [and_assoc]

theorem diffColumns_iff {tn : ObjectName} {l l' : List Column} :
    diffColumns sd tn l l' = [] ↔
      (∀ x ∈ l, ∃ x', l'.find? (fun c => c.name.name == x.name.name) = some x' ∧ alterColumn sd tn x x' = []) ∧
      ∀ x' ∈ l', (l.find? (fun c => c.name.name == x'.name.name)).isSome := by
  simp only [diffColumns, List.append_eq_nil_iff, List.map_eq_nil_iff, onlyLeftColumn, List.filter_eq_nil_iff, List.flatMap_eq_nil_iff]
  refine and_congr (forall₂_congr fun x hx => ?_) (forall₂_congr fun x hx => ?_)
  · unfold columnRound findColumn
    cases l'.find? (fun c => c.name.name == x.name.name) <;> simp
  · unfold findColumn
    cases l.find? (fun c => c.name.name == x.name.name) <;> simp

theorem diffConstraints_iff {tn : ObjectName} {l l' : List Constraint}
    (nl : ∀ c ∈ l, c.name ≠ none) (nl' : ∀ c ∈ l', c.name ≠ none) (hd : (l'.map Constraint.key).Nodup) :
    (flatMapRes (dropConstraint sd tn l') l = .ok [] ∧ flatMapRes (replaceConstraint sd false tn l') l = .ok [] ∧
      onlyLeftConstraint l [] l' = .ok []) ↔
      (∀ x ∈ l, ∃ x', l'.find? (fun c => c.key == x.key) = some x' ∧ x.diffStr = x'.diffStr) ∧
      ∀ x' ∈ l', (l.find? (fun c => c.key == x'.key)).isSome := by
  rw [← and_assoc]
  refine and_congr ?_ ?_
  · rw [flatMapRes_nil_iff, flatMapRes_nil_iff, ← forall₂_and]
    refine forall₂_congr fun x hx => ?_
    simp only [dropConstraint, replaceConstraint, Run.nameStr_eq (nl x hx), Run.findConstraint_eq nl', Res.ok_bind]
    cases hf : l'.find? (fun c => c.key == x.key) with
    | none => simp
    | some a =>
      by_cases e : x.diffStr = a.diffStr <;> simp [e]
  · rw [Run.onlyLeft_eq nl nl' [] (by simp) (by simpa using hd)]
    simp only [List.nil_append, Res.ok.injEq, List.filter_eq_nil_iff]
    refine forall₂_congr fun x hx => ?_
    simp [List.find?_isSome]

theorem policy_iff {tn : ObjectName} {p p' : Option TableOption} :
    diffRowDeletionPolicy sd tn p p' = [] ↔ optionDiffStr p = optionDiffStr p' := by
  unfold diffRowDeletionPolicy
  cases p <;> cases p' <;> simp

theorem diffTable_self {t : CreateTable} : (ops sd).diffTable t t = .err .noDifference := by
  simp [ops, diffCreateTable]

theorem diffTable_swap {t t' : CreateTable} (hd : DistinctNames t) (hd' : DistinctNames t') (v : FullValues t) (v' : FullValues t')
    (h : (ops sd).diffTable t t' = .err .noDifference) : (ops sd).diffTable t' t = .err .noDifference := by
  change diffCreateTable sd false (some t) (some t') = .err .noDifference at h
  show diffCreateTable sd false (some t') (some t) = .err .noDifference
  simp only [diffCreateTable] at h ⊢
  split at h
  · cases h
  · rename_i ho
    rw [not_not] at ho
    rw [if_neg (by simpa using ho.symm)]
    split at h
    · rename_i e
      rw [if_pos e.symm]
    · rename_i e
      rw [if_neg (Ne.symm e)]
      obtain ⟨d, h1⟩ := flatMapRes_total (f := dropConstraint sd (renamedName t.name t'.name) t'.constraints) (l := t.constraints) (by
        intro x hx
        simp only [dropConstraint, Run.nameStr_eq (hd.2.2 x hx), Run.findConstraint_eq hd'.2.2, Res.ok_bind]
        cases t'.constraints.find? (fun c => c.key == x.key) <;> exact ⟨_, rfl⟩)
      obtain ⟨r, h2⟩ := flatMapRes_total (f := replaceConstraint sd false (renamedName t.name t'.name) t'.constraints) (l := t.constraints) (by
        intro x hx
        simp only [replaceConstraint, Run.nameStr_eq (hd.2.2 x hx), Run.findConstraint_eq hd'.2.2, Res.ok_bind]
        cases t'.constraints.find? (fun c => c.key == x.key) with
        | none => exact ⟨_, rfl⟩
        | some a => simp only; split <;> exact ⟨_, rfl⟩)
      obtain ⟨ad, h3⟩ : ∃ ad, onlyLeftConstraint t.constraints [] t'.constraints = .ok ad :=
        ⟨_, Run.onlyLeft_eq hd.2.2 hd'.2.2 [] (by simp) (by simpa using key_nodup hd')⟩
      simp only [h1, h2, h3, Res.ok_bind] at h
      split at h
      · rename_i h'
        clear h
        simp only [List.isEmpty_iff, List.append_eq_nil_iff, List.map_eq_nil_iff] at h'
        obtain ⟨⟨⟨⟨⟨r1, rfl⟩, r3⟩, rfl⟩, rfl⟩, r6⟩ := h'
        have hn : t.name.diffStr = t'.name.diffStr := by
          by_contra hne
          simp [renameTable, hne] at r1
        obtain ⟨c1, c2⟩ := diffColumns_iff.1 r3
        obtain ⟨k1, k2⟩ := (diffConstraints_iff hd.2.2 hd'.2.2 (key_nodup hd')).1 ⟨h1, h2, h3⟩
        have c := (diffColumns_iff (sd := sd) (tn := renamedName t'.name t.name)).2
          (find_swap (f := fun c : Column => c.name.name) (Q := fun x x' => alterColumn sd _ x x' = []) hd'.1 c1 c2
            (fun x hx x' hx' p => by
              rw [alterColumn_iff (v x hx) (v' x' hx')] at p
              rw [alterColumn_iff (v' x' hx') (v x hx)]
              exact ⟨p.1.symm, p.2.1.symm, p.2.2.1.symm, p.2.2.2.symm⟩))
        obtain ⟨s2, s4, s5⟩ := (diffConstraints_iff (sd := sd) (tn := renamedName t'.name t.name) hd'.2.2 hd.2.2 (key_nodup hd)).2
          (find_swap (f := Constraint.key) (Q := fun x x' => x.diffStr = x'.diffStr) (key_nodup hd') k1 k2
            (fun x hx x' hx' p => p.symm))
        have s6 := (policy_iff (sd := sd) (tn := renamedName t'.name t.name)).2 (policy_iff.1 r6).symm
        simp only [s2, s4, s5, s6, c, Res.ok_bind]
        simp [renameTable, hn]
      · cases h

end Sp

end Ddl
