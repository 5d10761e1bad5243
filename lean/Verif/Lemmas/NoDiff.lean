import Verif.Spec.NoDiff
import Verif.Lemmas.PgNoDiff
import Verif.Lemmas.RunCrdb
import Verif.Lemmas.RunMy
import Verif.Lemmas.RunSp

/-! # When is there no difference? (CockroachDB, MySQL, Spanner) -/

namespace Ddl
open Spec
set_option autoImplicit false

section
variable {T I A N : Type} {o : Ops T I A N} {sameT : T → T → Prop} {sameI : I → I → Prop}

/-- No difference between schemas from no difference between their tables and indexes. -/
theorem noDiff_of {b a : List (Stmt T I A N)} (cb : CreateOnly o b) (ca : CreateOnly o a) (hd : DistinctObjects o a)
    (told : ddlStr o b = ddlStr o a → b = a) (reflT : ∀ t, .createTable t ∈ b → sameT t t) (reflI : ∀ i, sameI i i)
    (hT : ∀ t t', .createTable t ∈ b → .createTable t' ∈ a → (o.tableName t).diffStr = (o.tableName t').diffStr →
      o.diffTable t t' = .err .noDifference → sameT t t')
    (hne : ∀ t t', o.diffTable t t' ≠ .ok [])
    (hI : ∀ i i', .createIndex i ∈ b → .createIndex i' ∈ a → o.nDiffStr (o.indexName i) = o.nDiffStr (o.indexName i') →
      o.indexDiffStr i = o.indexDiffStr i' → sameI i i')
    (h : diff o (some b) (some a) = .err .noDifference) : SameSchema sameT sameI b a := by
  rcases diff_noDiff h with h | ⟨h1, h2, h3⟩
  · have := told h
    subst this
    have refl : ∀ x ∈ b, SameStmt (A := A) (N := N) sameT sameI x x := by
      intro x hx
      have := cb x hx
      cases x with
      | createTable t => exact .table (reflT t hx)
      | createIndex i => exact .index (reflI i)
      | alterTable => cases this
      | dropTable => cases this
      | dropIndex => cases this
    exact ⟨fun x hx => ⟨x, hx, refl x hx⟩, fun x hx => ⟨x, hx, refl x hx⟩⟩
  · have fwd : ∀ s ∈ b, ∃ s' ∈ a, SameStmt (A := A) (N := N) sameT sameI s s' ∧ findStmt o s a = some s' := by
      intro s hs
      obtain ⟨s', hf⟩ := onlyLeft_nil h1 hs
      have h3 := h3 s hs
      obtain ⟨hm, hty, hnm⟩ := findStmt_some hf
      have hs1 := cb s hs
      cases s with
      | createTable t =>
        cases s' with
        | createTable t' =>
          refine ⟨_, hm, .table ?_, hf⟩
          simp only [alterOf, hf] at h3
          refine hT t t' hs hm hnm ?_
          cases e : o.diffTable t t' with
          | ok l =>
            rw [e] at h3
            simp only [Res.ok.injEq] at h3
            subst h3
            exact absurd e (hne t t')
          | err er =>
            rw [e] at h3
            cases er <;> simp at h3 ⊢
          | panic => rw [e] at h3; cases h3
          | outOfFuel => rw [e] at h3; cases h3
        | createIndex => cases hty
        | alterTable => cases hty
        | dropTable => cases hty
        | dropIndex => cases hty
      | createIndex i =>
        cases s' with
        | createIndex i' =>
          refine ⟨_, hm, .index ?_, hf⟩
          simp only [alterOf, hf] at h3
          refine hI i i' hs hm hnm ?_
          by_contra hne
          rw [if_pos hne] at h3
          cases h3
        | createTable => cases hty
        | alterTable => cases hty
        | dropTable => cases hty
        | dropIndex => cases hty
      | alterTable => cases hs1
      | dropTable => cases hs1
      | dropIndex => cases hs1
    refine ⟨fun s hs => ?_, fun s' hs' => ?_⟩
    · obtain ⟨s', h, h', _⟩ := fwd s hs
      exact ⟨s', h, h'⟩
    · obtain ⟨s, hf⟩ := onlyLeft_nil h2 hs'
      obtain ⟨k, hk⟩ := Option.isSome_iff_exists.1 (ca s' hs')
      obtain ⟨hm, hc⟩ := findStmt_creates hk hf
      obtain ⟨s'', hm'', hsame, hf''⟩ := fwd s hm
      obtain ⟨_, hc''⟩ := findStmt_creates hc hf''
      have := distinct_unique hd hs' hm'' hk hc''
      subst this
      exact ⟨s, hm, hsame⟩

end

section
variable {T I A N : Type} {o : Ops T I A N} {sameT : T → T → Prop} {sameI : I → I → Prop}

/-- No difference between tables and indexes is no difference between schemas. -/
theorem noDiff_to {b a : List (Stmt T I A N)} (hd : DistinctObjects o a)
    (nT : ∀ t t', sameT t t' → (o.tableName t).diffStr = (o.tableName t').diffStr)
    (nI : ∀ i i', sameI i i' → o.nDiffStr (o.indexName i) = o.nDiffStr (o.indexName i'))
    (hT : ∀ t t', .createTable t ∈ b → .createTable t' ∈ a → sameT t t' → o.diffTable t t' = .err .noDifference)
    (hI : ∀ i i', .createIndex i ∈ b → .createIndex i' ∈ a → sameI i i' → o.indexDiffStr i = o.indexDiffStr i')
    (h : SameSchema sameT sameI b a) : diff o (some b) (some a) = .err .noDifference := by
  have h' : SameSchema (A := A) (N := N) (fun t t' => sameT t t' ∧ .createTable t ∈ b)
      (fun i i' => sameI i i' ∧ .createIndex i ∈ b ∧ .createIndex i' ∈ a) b a := by
    have up : ∀ s ∈ b, ∀ s' ∈ a, SameStmt sameT sameI s s' → SameStmt (A := A) (N := N) (fun t t' => sameT t t' ∧ .createTable t ∈ b)
        (fun i i' => sameI i i' ∧ .createIndex i ∈ b ∧ .createIndex i' ∈ a) s s' := by
      intro s hs s' hs' r
      cases r with
      | table r => exact .table ⟨r, hs⟩
      | index r => exact .index ⟨r, hs, hs'⟩
    refine ⟨fun s hs => ?_, fun s' hs' => ?_⟩
    · obtain ⟨s', hs', r⟩ := h.1 s hs
      exact ⟨s', hs', up s hs s' hs' r⟩
    · obtain ⟨s, hs, r⟩ := h.2 s' hs'
      exact ⟨s, hs, up s hs s' hs' r⟩
  exact diff_same (fun t t' r => ⟨nT t t' r.1, fun hm => hT t t' r.2 hm r.1⟩)
    (fun i i' r => ⟨nI i i' r.1, hI i i' r.2.1 r.2.2 r.1⟩) hd h'

end

/-- Matching two lists with distinct keys through looking up the keys. -/
theorem matched_iff {α : Type} {f : α → Str} {R : α → α → Prop} {l l' : List α} (hd : (l'.map f).Nodup)
    (hR : ∀ x x', R x x' → f x = f x') :
    Matched R l l' ↔ (∀ x ∈ l, ∃ x', l'.find? (fun c => f c == f x) = some x' ∧ R x x') ∧
      ∀ x' ∈ l', (l.find? (fun c => f c == f x')).isSome := by
  constructor
  · rintro ⟨h1, h2⟩
    refine ⟨fun x hx => ?_, fun x' hx' => ?_⟩
    · obtain ⟨x', hx', r⟩ := h1 x hx
      exact ⟨x', by rw [hR x x' r]; exact find?_of_nodup hd hx', r⟩
    · obtain ⟨x, hx, r⟩ := h2 x' hx'
      rw [List.find?_isSome]
      exact ⟨x, hx, by simp [hR x x' r]⟩
  · rintro ⟨h1, h2⟩
    refine ⟨fun x hx => ?_, fun x' hx' => ?_⟩
    · obtain ⟨x', hf, r⟩ := h1 x hx
      exact ⟨x', List.mem_of_find?_eq_some hf, r⟩
    · obtain ⟨x, hf⟩ := Option.isSome_iff_exists.1 (h2 x' hx')
      have hm := List.mem_of_find?_eq_some hf
      have hk := List.find?_some hf
      simp only [beq_iff_eq] at hk
      obtain ⟨y, hf', r⟩ := h1 x hm
      rw [hk, find?_of_nodup hd hx'] at hf'
      cases hf'
      exact ⟨x, hm, r⟩

theorem sameElems_matched {α β : Type} {g : α → β} {l l' : List α} :
    SameElems (l.map g) (l'.map g) ↔ Matched (fun x x' => g x = g x') l l' := by
  constructor
  · exact fun h => sameElems_of h
  · rintro ⟨h1, h2⟩ y
    constructor
    · intro hy
      obtain ⟨x, hx, rfl⟩ := List.mem_map.1 hy
      obtain ⟨x', hx', e⟩ := h1 x hx
      exact List.mem_map.2 ⟨x', hx', e.symm⟩
    · intro hy
      obtain ⟨x', hx', rfl⟩ := List.mem_map.1 hy
      obtain ⟨x, hx, e⟩ := h2 x' hx'
      exact List.mem_map.2 ⟨x, hx, e⟩

/-! ## CockroachDB -/

namespace Crdb
variable {sd : Str → Str → Str}

theorem default_inj {b a : Column} (tb : b.Tame) (ta : a.Tame) (e : defaultDiffStr b.default = defaultDiffStr a.default) :
    b.default.map Default.bare = a.default.map Default.bare := by
  obtain ⟨-, tb1, tb2⟩ := tb
  obtain ⟨-, ta1, ta2⟩ := ta
  rcases hbd : b.default with _ | ⟨_ | be⟩
  · rcases had : a.default with _ | ⟨_ | ae⟩
    · rfl
    · exact absurd had ta2
    · simp [hbd, had, defaultDiffStr] at e
  · exact absurd hbd tb2
  · rcases had : a.default with _ | ⟨_ | ae⟩
    · simp [hbd, had, defaultDiffStr] at e
    · exact absurd had ta2
    · simp only [hbd, had, defaultDiffStr, List.append_cancel_left_eq] at e
      simp [Default.bare, words_inj (tb1 _ hbd) (ta1 _ had) e]

theorem alterColumn_alike {tn : ObjectName} {b a : Column} (tb : b.Tame) (ta : a.Tame) (hn : b.name.name = a.name.name) :
    alterColumn sd tn b a = [] ↔ b.Alike a := by
  constructor
  · intro h
    simp only [alterColumn, List.append_eq_nil_iff, ite_eq_right_iff, reduceCtorEq, imp_false, not_not, List.cons_ne_self] at h
    obtain ⟨⟨h1, h2⟩, h3⟩ := h
    refine ⟨hn, Run.type_inj tb.1 ta.1 h1, default_inj tb ta ?_, ?_⟩
    · split at h2
      · cases h2
      · rename_i hx
        split at h2
        · cases h2
        · rename_i hy
          cases hb : b.default <;> cases ha : a.default <;> simp [hb, ha] at hx hy ⊢
          all_goals exact hy
    · split at h3
      · cases h3
      · rename_i hx
        split at h3
        · cases h3
        · rename_i hy
          revert hx hy
          cases b.notNull <;> cases a.notNull <;> simp
  · rintro ⟨-, e1, e2, e3⟩
    have h1 := DataType.diffStr_of_bare e1
    obtain ⟨h2, h3⟩ := defaultDiffStr_of_bare e2
    simp only [alterColumn, h1, h2, h3, e3]
    cases a.default <;> cases a.notNull <;> simp

theorem constraint_alike {b a : Constraint} (tb : b.Tame) (ta : a.Tame) (hn : b.name.name = a.name.name) :
    b.diffStr = a.diffStr ↔ b.Alike a := by
  refine ⟨fun e => ⟨hn, Run.constraint_inj tb ta hn e⟩, fun h => ?_⟩
  have hd := h.2
  clear h
  cases b <;> cases a <;> simp only [Run.defOf, Run.Def.constraint.injEq, Run.Def.index.injEq, reduceCtorEq, Constraint.bare,
    Constraint.primaryKey.injEq, Constraint.foreignKey.injEq, Constraint.check.injEq] at hd <;> simp only [Constraint.name] at hn
  · simp only [Constraint.diffStr, Ident.diffStr, hn, columnsDiffStr_of_bare hd.2]
  · obtain ⟨-, h2, h3, h4, h5⟩ := hd
    simp only [Constraint.diffStr, Ident.diffStr, hn, columnsDiffStr_of_bare h2, bare_name_eq h3, columnsDiffStr_of_bare h4, h5]
  · obtain ⟨h1, h2, h3, h4⟩ := hd
    simp only [Constraint.diffStr, Ident.diffStr, hn, columnsDiffStr_of_bare h3, h1, h2, h4]
  · have : ∀ {l r : List Ident}, l.map Ident.bare = r.map Ident.bare → l.map Ident.diffStr = r.map Ident.diffStr := by
      intro l r h
      rw [← map_bare_diffStr, h, map_bare_diffStr]
    simp only [Constraint.diffStr, Ident.diffStr, hn, this hd.2]

theorem constraints_alike {nv : Bool} {tn : ObjectName} {l l' : List Constraint} (tl : ∀ c ∈ l, c.Tame) (tl' : ∀ c ∈ l', c.Tame)
    (hd : (l'.map fun c => c.name.name).Nodup) :
    (dropConstraints sd tn l l' = [] ∧ replaceConstraints sd nv tn l l' = [] ∧ addConstraints sd nv tn l l' = []) ↔
      Matched Constraint.Alike l l' := by
  have hadd : addConstraints sd nv tn l l' = [] ↔ ∀ x' ∈ l', (findConstraint x'.name.name l).isSome := by
    rw [addConstraints, List.map_eq_nil_iff]
    have hspec := (Run.onlyLeft_iff (l := l') (r := l) hd).2
    rw [List.eq_nil_iff_forall_not_mem]
    refine forall_congr' fun x => ?_
    rw [hspec, ← find?_congr_key (key := fun c : Constraint => c.name.name)]
    simp only [findConstraint, not_and, Option.isSome_iff_ne_none, ne_eq]
  rw [matched_iff (f := fun c : Constraint => c.name.name) hd (fun _ _ h => h.1), hadd, ← and_assoc]
  refine and_congr_left fun _ => ?_
  simp only [dropConstraints, replaceConstraints, List.flatMap_eq_nil_iff]
  constructor
  · rintro ⟨h1, h2⟩ x hx
    have k1 := h1 x hx
    have k2 := h2 x hx
    cases hf : findConstraint x.name.name l' with
    | none =>
      rw [hf] at k1
      cases x <;> cases k1
    | some a =>
      rw [hf] at k2
      have hm := List.mem_of_find?_eq_some hf
      have hk := List.find?_some hf
      simp only [beq_iff_eq] at hk
      refine ⟨a, hf, (constraint_alike (tl x hx) (tl' a hm) hk.symm).1 ?_⟩
      by_contra hne
      simp only [ne_eq, hne, not_false_eq_true, if_true] at k2
      cases a <;> cases k2
  · intro h
    refine ⟨fun x hx => ?_, fun x hx => ?_⟩
    · obtain ⟨a, hf, -⟩ := h x hx
      rw [show findConstraint x.name.name l' = some a from hf]
    · obtain ⟨a, hf, r⟩ := h x hx
      rw [show findConstraint x.name.name l' = some a from hf]
      have hm := List.mem_of_find?_eq_some hf
      simp [(constraint_alike (tl x hx) (tl' a hm) r.1).2 r]

theorem columns_alike {tn : ObjectName} {l l' : List Column} (tl : ∀ c ∈ l, c.Tame) (tl' : ∀ c ∈ l', c.Tame)
    (hd : (l'.map fun c => c.name.name).Nodup) :
    diffColumns sd tn l l' = [] ↔
      (∀ c ∈ l, (∃ c' ∈ l', c.Alike c') ∨ (c.IsShard ∧ ∀ c' ∈ l', c'.name.name ≠ c.name.name)) ∧ ∀ c' ∈ l', ∃ c ∈ l, c.Alike c' := by
  simp only [diffColumns, List.append_eq_nil_iff, List.map_eq_nil_iff, onlyLeftColumn, List.filter_eq_nil_iff, List.flatMap_eq_nil_iff]
  have hround : ∀ c ∈ l, columnRound sd tn l' c = [] ↔
      (∃ c' ∈ l', c.Alike c') ∨ (c.IsShard ∧ ∀ c' ∈ l', c'.name.name ≠ c.name.name) := by
    intro c hc
    unfold columnRound
    cases hf : findColumn c.name.name l' with
    | none =>
      have hno : ∀ c' ∈ l', c'.name.name ≠ c.name.name := by
        intro c' hc' e
        have := List.find?_eq_none.1 hf c' hc'
        simp [e] at this
      have hs : (c.notVisible = true ∧ c.as_.any (fun a => a.type = some .VIRTUAL) = true) ↔ c.IsShard := by
        unfold Column.IsShard
        cases c.as_ <;> simp
      by_cases hsh : c.IsShard
      · rw [if_pos (hs.2 hsh)]
        exact iff_of_true rfl (Or.inr ⟨hsh, hno⟩)
      · rw [if_neg fun h => hsh (hs.1 h)]
        refine iff_of_false (by simp) ?_
        rintro (⟨c', hc', r⟩ | ⟨h, -⟩)
        · exact hno c' hc' r.1.symm
        · exact hsh h
    | some a =>
      have hm := List.mem_of_find?_eq_some hf
      have hk := List.find?_some hf
      simp only [beq_iff_eq] at hk
      simp only [alterColumn_alike (tl c hc) (tl' a hm) hk.symm]
      constructor
      · exact fun r => Or.inl ⟨a, hm, r⟩
      · rintro (⟨c', hc', r⟩ | ⟨-, hno⟩)
        · have : findColumn c.name.name l' = some c' := by
            rw [r.1]
            exact find?_of_nodup (f := fun c : Column => c.name.name) hd hc'
          rw [hf] at this
          cases this
          exact r
        · exact absurd hk (hno a hm)
  constructor
  · rintro ⟨h1, h2⟩
    refine ⟨fun c hc => (hround c hc).1 (h1 c hc), fun c' hc' => ?_⟩
    have := h2 c' hc'
    cases hf : findColumn c'.name.name l with
    | none => simp [hf] at this
    | some c =>
      have hm := List.mem_of_find?_eq_some hf
      have hk := List.find?_some hf
      simp only [beq_iff_eq] at hk
      refine ⟨c, hm, ?_⟩
      rcases (hround c hm).1 (h1 c hm) with ⟨c'', hc'', r⟩ | ⟨-, hno⟩
      · have : c'' = c' := List.inj_on_of_nodup_map hd hc'' hc' (by rw [← r.1, hk])
        rwa [← this]
      · exact absurd hk.symm (hno c' hc')
  · rintro ⟨h1, h2⟩
    refine ⟨fun c hc => (hround c hc).2 (h1 c hc), fun c' hc' => ?_⟩
    obtain ⟨c, hc, r⟩ := h2 c' hc'
    have : (findColumn c'.name.name l).isSome := by
      rw [findColumn, List.find?_isSome]
      exact ⟨c, hc, by simp [r.1]⟩
    cases hf : findColumn c'.name.name l <;> simp [hf] at this ⊢

theorem alike_refl {t : CreateTable} : t.Alike t :=
  ⟨rfl, fun c hc => Or.inl ⟨c, hc, rfl, rfl, rfl, rfl⟩, fun c hc => ⟨c, hc, rfl, rfl, rfl, rfl⟩,
    fun c hc => ⟨c, hc, rfl, rfl⟩, fun c hc => ⟨c, hc, rfl, rfl⟩⟩

theorem table_alike {t t' : CreateTable} (tt : (∀ c ∈ t.columns, c.Tame) ∧ ∀ c ∈ t.constraints, c.Tame)
    (tt' : (∀ c ∈ t'.columns, c.Tame) ∧ ∀ c ∈ t'.constraints, c.Tame) (hd : DistinctNames t') (told : t.str = t'.str → t = t')
    (hn : t.name.diffStr = t'.name.diffStr) :
    diffCreateTable sd false (some t) (some t') = .err .noDifference ↔ t.Alike t' := by
  have hc := columns_alike (sd := sd) (tn := renamedName t.name t'.name) tt.1 tt'.1 hd.1
  have hk := constraints_alike (sd := sd) (nv := false) (tn := renamedName t.name t'.name) tt.2 tt'.2 hd.2
  have hr : renameTable sd t.name t'.name = [] := by simp [renameTable, hn]
  simp only [diffCreateTable]
  split
  · rename_i e
    rw [told e]
    simp [alike_refl]
  · constructor
    · intro e
      split at e
      · rename_i h
        simp only [List.isEmpty_iff, List.append_eq_nil_iff, List.map_eq_nil_iff] at h
        obtain ⟨⟨⟨⟨-, r2⟩, r3⟩, r4⟩, r5⟩ := h
        have c := hc.1 r3
        exact ⟨hn, c.1, c.2, hk.1 ⟨r2, r4, r5⟩⟩
      · cases e
    · rintro ⟨-, h1, h2, h3⟩
      obtain ⟨r2, r4, r5⟩ := hk.2 h3
      rw [hr, hc.2 ⟨h1, h2⟩, r2, r4, r5]
      rfl

theorem diffTable_ne_nil {t t' : CreateTable} : (ops sd).diffTable t t' ≠ .ok [] := by
  show diffCreateTable sd false (some t) (some t') ≠ .ok []
  simp only [diffCreateTable]
  split
  · simp
  · split
    · simp
    · rename_i hne
      intro e
      rw [Res.ok.inj e] at hne
      simp at hne

theorem index_alike {i i' : CreateIndex} (ti : Run.IndexTame i) (ti' : Run.IndexTame i') (wi : Pg.IsWord i.tableName.diffStr)
    (wi' : Pg.IsWord i'.tableName.diffStr) (hn : i.name.name = i'.name.name) : i.diffStr = i'.diffStr ↔ i.Alike i' := by
  constructor
  · intro e
    have hu : i.isUnique = i'.isUnique := by
      revert e
      unfold CreateIndex.diffStr
      cases i.isUnique <;> cases i'.isUnique <;> simp
    simp only [CreateIndex.diffStr, hu, Ident.diffStr, hn, List.append_assoc, List.append_cancel_left_eq] at e
    have open_ : ∀ {i : CreateIndex}, Pg.IsWord i.tableName.diffStr → '(' ∉ usingStr i.usingPre →
        '(' ∉ i.tableName.diffStr ++ (usingStr i.usingPre ++ [' ']) := by
      intro i w h
      simp only [List.mem_append, List.mem_singleton, not_or]
      refine ⟨fun m => ?_, h, by decide⟩
      exact absurd (w.2 _ m) (by decide)
    have e' : (i.tableName.diffStr ++ (usingStr i.usingPre ++ [' '])) ++ '(' :: (columnsDiffStr i.columns ++ ')' :: (usingStr i.usingPost ++ s%";\n")) =
        (i'.tableName.diffStr ++ (usingStr i'.usingPre ++ [' '])) ++ '(' :: (columnsDiffStr i'.columns ++ ')' :: (usingStr i'.usingPost ++ s%";\n")) := by
      simpa using e
    obtain ⟨e1, e2⟩ := append_sep_inj (open_ wi ti.1) (open_ wi' ti'.1) e'
    obtain ⟨e3, e4⟩ := append_sep_inj (Run.columns_close ti.2) (Run.columns_close ti'.2) e2
    have e5 := List.append_cancel_right e4
    have shape : ∀ u : Option Using, ∃ r, usingStr u ++ [' '] = ' ' :: r := by
      intro u
      cases u with
      | none => exact ⟨[], rfl⟩
      | some u => exact ⟨_, rfl⟩
    obtain ⟨r, hr⟩ := shape i.usingPre
    obtain ⟨r', hr'⟩ := shape i'.usingPre
    rw [hr, hr'] at e1
    obtain ⟨e6, e7⟩ := append_sep_inj wi.not_mem.1 wi'.not_mem.1 e1
    rw [← e7, ← hr] at hr'
    have e8 := List.append_cancel_right hr'
    exact ⟨hn, e6, by simp only [Run.indexOf, hu, e8, Run.columns_inj ti.2 ti'.2 e3, e5]⟩
  · rintro ⟨-, h2, h3⟩
    simp only [Run.indexOf, Run.Def.index.injEq] at h3
    obtain ⟨h3, h4, h5, h6⟩ := h3
    simp only [CreateIndex.diffStr, Ident.diffStr, hn, h2, h3, h4, columnsDiffStr_of_bare h5, h6]

theorem noDiff_iff {b a : List CStmt} (cb : CreateOnly (ops sd) b) (ca : CreateOnly (ops sd) a) (da : DistinctObjects (ops sd) a)
    (tb : Comparable b) (ta : Comparable a) (hn : ∀ t, .createTable t ∈ a → DistinctNames t) (told : Told (ops sd) b a) :
    diff (ops sd) (some b) (some a) = .err .noDifference ↔ SameSchema CreateTable.Alike CreateIndex.Alike b a := by
  constructor
  · refine noDiff_of cb ca da told.2 (fun t _ => alike_refl) (fun i => ⟨rfl, rfl, rfl⟩) ?_ (fun _ _ => diffTable_ne_nil) ?_
    · intro t t' ht ht' e h
      exact (table_alike (tb.1.1 t ht) (ta.1.1 t' ht') (hn t' ht') (told.1 t t' ht ht') e).1 h
    · intro i i' hi hi' e h
      exact (index_alike (tb.1.2 i hi) (ta.1.2 i' hi') (tb.2 i hi) (ta.2 i' hi') e).1 h
  · refine noDiff_to da (fun t t' r => r.name) (fun i i' r => r.name) ?_ ?_
    · intro t t' ht ht' r
      exact (table_alike (tb.1.1 t ht) (ta.1.1 t' ht') (hn t' ht') (told.1 t t' ht ht') r.name).2 r
    · intro i i' hi hi' r
      exact (index_alike (tb.1.2 i hi) (ta.1.2 i' hi') (tb.2 i hi) (ta.2 i' hi') r.name).2 r

end Crdb

/-! ## MySQL -/

namespace My
variable {sd : Str → Str → Str}

theorem alterColumn_alike {tn : ObjectName} {b a : Column} (tb : b.Tame) (ta : a.Tame) (hn : b.name.name = a.name.name) :
    alterColumn sd tn b a = [] ↔ b.bare = a.bare := by
  refine ⟨fun h => ?_, alterColumn_of_bare⟩
  simp only [alterColumn, List.append_eq_nil_iff, ite_eq_right_iff, reduceCtorEq, imp_false, List.cons_ne_self] at h
  obtain ⟨hm, hd⟩ := h
  simp only [needsModify, not_or, not_not, not_and] at hm
  obtain ⟨h1, h2, h3, h4, h5, h6, h7, h8⟩ := hm
  simp only [Column.bare, Ident.bare, hn, Run.type_inj tb.1 ta.1 h1, Run.ident_inj tb.2.2.2.1 ta.2.2.2.1 h2,
    Run.ident_inj tb.2.2.2.2 ta.2.2.2.2 h3, h4, Run.default_inj tb ta (h5 hd), h6, h7, h8]

theorem noAction_name (c : Constraint) : c.noAction.name = c.name := by cases c <;> rfl

theorem noAction_diffStr (c : Constraint) : c.noAction.diffStr = c.diffStr := by cases c <;> rfl

theorem noAction_tame {c : Constraint} (h : c.Tame) : c.noAction.Tame := by cases c <;> exact h

theorem noAction_action {b a : Constraint} : b.noAction.action = a.noAction.action := by
  cases b <;> cases a <;> rfl

theorem constraint_alike {b a : Constraint} (tb : b.Tame) (ta : a.Tame) (hn : b.name.name = a.name.name) :
    b.diffStr = a.diffStr ↔ b.Alike a := by
  rw [← noAction_diffStr, ← noAction_diffStr a]
  refine ⟨fun e => Run.constraint_inj (noAction_tame tb) (noAction_tame ta) ?_ noAction_action e,
    fun h => (Constraint.diffStr_of_bare h).1⟩
  rw [noAction_name, noAction_name, hn]

theorem alike_name {b a : Constraint} (h : b.Alike a) : b.name.name = a.name.name := by
  have := (Constraint.diffStr_of_bare h).2
  rwa [noAction_name, noAction_name] at this

theorem constraints_alike {nv : Bool} {bs : Option Ident} {tn : ObjectName} {l l' : List Constraint} (tl : ∀ c ∈ l, c.Tame)
    (tl' : ∀ c ∈ l', c.Tame) (hd : (l'.map fun c => c.name.name).Nodup) :
    (dropConstraints sd bs tn l l' = [] ∧ replaceConstraints sd nv bs tn l l' = [] ∧ addConstraints sd nv tn l l' = []) ↔
      Matched Constraint.Alike l l' := by
  have hadd : addConstraints sd nv tn l l' = [] ↔ ∀ x' ∈ l', (findConstraint x'.name.name l).isSome := by
    rw [addConstraints, List.map_eq_nil_iff]
    have hspec := (Run.onlyLeft_iff (l := l') (r := l) hd).2
    rw [List.eq_nil_iff_forall_not_mem]
    refine forall_congr' fun x => ?_
    rw [hspec, ← find?_congr_key (key := fun c : Constraint => c.name.name)]
    simp only [findConstraint, not_and, Option.isSome_iff_ne_none, ne_eq]
  rw [matched_iff (f := fun c : Constraint => c.name.name) hd (fun _ _ h => alike_name h), hadd, ← and_assoc]
  refine and_congr_left fun _ => ?_
  simp only [dropConstraints, replaceConstraints, List.flatMap_eq_nil_iff]
  constructor
  · rintro ⟨h1, h2⟩ x hx
    have k1 := h1 x hx
    have k2 := h2 x hx
    cases hf : findConstraint x.name.name l' with
    | none =>
      rw [hf] at k1
      cases x <;> cases k1
    | some a =>
      rw [hf] at k2
      have hm := List.mem_of_find?_eq_some hf
      have hk := List.find?_some hf
      simp only [beq_iff_eq] at hk
      refine ⟨a, hf, (constraint_alike (tl x hx) (tl' a hm) hk.symm).1 ?_⟩
      by_contra hne
      simp only [ne_eq, hne, not_false_eq_true, if_true] at k2
      cases a <;> cases k2
  · intro h
    refine ⟨fun x hx => ?_, fun x hx => ?_⟩
    · obtain ⟨a, hf, -⟩ := h x hx
      rw [show findConstraint x.name.name l' = some a from hf]
    · obtain ⟨a, hf, r⟩ := h x hx
      rw [show findConstraint x.name.name l' = some a from hf]
      have hm := List.mem_of_find?_eq_some hf
      simp [(constraint_alike (tl x hx) (tl' a hm) (alike_name r)).2 r]

theorem columns_alike {tn : ObjectName} {l l' : List Column} (tl : ∀ c ∈ l, c.Tame) (tl' : ∀ c ∈ l', c.Tame)
    (hd : (l'.map fun c => c.name.name).Nodup) :
    diffColumns sd tn l l' = [] ↔ SameElems (l.map Column.bare) (l'.map Column.bare) := by
  refine ⟨fun h => ?_, diffColumns_same hd⟩
  rw [sameElems_matched, matched_iff (f := fun c : Column => c.name.name) hd
    (fun x x' h => bare_name_eq (by have e := congrArg Column.name h; exact e))]
  simp only [diffColumns, List.append_eq_nil_iff, List.map_eq_nil_iff, onlyLeftColumn, List.filter_eq_nil_iff, List.flatMap_eq_nil_iff] at h
  refine ⟨fun x hx => ?_, fun x' hx' => ?_⟩
  · have k := h.1 x hx
    unfold columnRound at k
    cases hf : findColumn x.name.name l' with
    | none => rw [hf] at k; cases k
    | some a =>
      rw [hf] at k
      have hm := List.mem_of_find?_eq_some hf
      have hk := List.find?_some hf
      simp only [beq_iff_eq] at hk
      exact ⟨a, hf, (alterColumn_alike (tl x hx) (tl' a hm) hk.symm).1 k⟩
  · have k := h.2 x' hx'
    show (findColumn x'.name.name l).isSome
    cases hf : findColumn x'.name.name l <;> simp [hf] at k ⊢

theorem option_alike {o o' : TableOption} (t : WordsOnly o.value) (t' : WordsOnly o'.value) (hn : o.name = o'.name) :
    o.diffStr = o'.diffStr ↔ o.bare = o'.bare := by
  constructor
  · intro e
    simp only [TableOption.diffStr, hn, List.append_cancel_left_eq] at e
    simp only [TableOption.bare, hn, words_inj t t' e]
  · intro e
    simp only [TableOption.bare, TableOption.mk.injEq] at e
    simp only [TableOption.diffStr, hn]
    rw [← map_bare_diffStr, e.2, map_bare_diffStr]

theorem options_alike {tn : ObjectName} {l l' : List TableOption} (tl : ∀ o ∈ l, WordsOnly o.value) (tl' : ∀ o ∈ l', WordsOnly o.value)
    (hd : (l'.map (·.name)).Nodup) :
    (changeOptions sd tn l l' = [] ∧ addOptions sd tn l l' = []) ↔
      (∀ o ∈ l, o.IsCounter ∨ (∃ o' ∈ l', o.bare = o'.bare) ∨ ∀ o' ∈ l', o'.name ≠ o.name) ∧
      ∀ o' ∈ l', o'.IsCounter ∨ ∃ o ∈ l, o.bare = o'.bare := by
  have hbn : ∀ {o o' : TableOption}, o.bare = o'.bare → o.name = o'.name := fun h => by have e := congrArg TableOption.name h; exact e
  have hch : changeOptions sd tn l l' = [] ↔
      ∀ o ∈ l, o.IsCounter ∨ (∃ o' ∈ l', o.bare = o'.bare) ∨ ∀ o' ∈ l', o'.name ≠ o.name := by
    simp only [changeOptions, List.flatMap_eq_nil_iff]
    refine forall₂_congr fun o ho => ?_
    by_cases hc : upper o.name = s%"AUTO_INCREMENT"
    · rw [if_pos hc]
      exact iff_of_true rfl (Or.inl hc)
    · rw [if_neg hc]
      have hc' : ¬ o.IsCounter := hc
      simp only [hc', false_or]
      cases hf : findOption o.name l' with
      | none =>
        refine iff_of_true rfl (Or.inr fun o' ho' e => ?_)
        have := List.find?_eq_none.1 hf o' ho'
        simp [e] at this
      | some a =>
        have hm := List.mem_of_find?_eq_some hf
        have hk := List.find?_some hf
        simp only [beq_iff_eq] at hk
        have ha := option_alike (tl o ho) (tl' a hm) hk.symm
        constructor
        · intro k
          refine Or.inl ⟨a, hm, ha.1 ?_⟩
          by_contra hne
          simp [hne] at k
        · rintro (⟨o', ho', e⟩ | hno)
          · have : o' = a := List.inj_on_of_nodup_map hd ho' hm (by rw [← hbn e, hk])
            rw [this] at e
            simp [ha.2 e]
          · exact absurd hk (hno a hm)
  have had : addOptions sd tn l l' = [] ↔ ∀ o' ∈ l', o'.IsCounter ∨ ∃ o ∈ l, o.name = o'.name := by
    simp only [addOptions, List.flatMap_eq_nil_iff, onlyLeftOption, List.mem_filter, and_imp]
    refine forall₂_congr fun o ho => ?_
    by_cases hc : upper o.name = s%"AUTO_INCREMENT"
    · exact iff_of_true (fun _ => by rw [if_pos hc]) (Or.inl hc)
    · have hc' : ¬ o.IsCounter := hc
      simp only [hc', false_or, if_neg hc, List.cons_ne_self, imp_false, Bool.not_eq_true, Option.isNone_eq_false_iff, findOption,
        List.find?_isSome, beq_iff_eq]
  rw [hch, had]
  refine and_congr_right fun h => forall₂_congr fun o' ho' => or_congr_right' fun hc => ?_
  constructor
  · rintro ⟨o, ho, e⟩
    rcases h o ho with h | ⟨o'', ho'', h⟩ | h
    · refine absurd h ?_
      unfold TableOption.IsCounter at hc ⊢
      rwa [e]
    · have : o'' = o' := List.inj_on_of_nodup_map hd ho'' ho' (by rw [← hbn h, e])
      exact ⟨o, ho, this ▸ h⟩
    · exact absurd e.symm (h o' ho')
  · rintro ⟨o, ho, e⟩
    exact ⟨o, ho, hbn e⟩

theorem alike_refl {t : CreateTable} : t.Alike t :=
  ⟨rfl, fun _ => Iff.rfl, ⟨fun c hc => ⟨c, hc, rfl⟩, fun c hc => ⟨c, hc, rfl⟩⟩,
    fun o ho => Or.inr (Or.inl ⟨o, ho, rfl⟩), fun o ho => Or.inr ⟨o, ho, rfl⟩⟩

theorem table_alike {t t' : CreateTable}
    (tt : (∀ c ∈ t.columns, c.Tame) ∧ (∀ c ∈ t.constraints, c.Tame) ∧ ∀ o ∈ t.options, WordsOnly o.value)
    (tt' : (∀ c ∈ t'.columns, c.Tame) ∧ (∀ c ∈ t'.constraints, c.Tame) ∧ ∀ o ∈ t'.options, WordsOnly o.value)
    (hd : DistinctNames t') (told : t.str = t'.str → t = t') (hn : t.name.diffStr = t'.name.diffStr) :
    diffCreateTable sd false (some t) (some t') = .err .noDifference ↔ t.Alike t' := by
  have hc := columns_alike (sd := sd) (tn := renamedName t.name t'.name) tt.1 tt'.1 hd.1
  have hk := constraints_alike (sd := sd) (nv := false) (bs := t.name.schema) (tn := renamedName t.name t'.name) tt.2.1 tt'.2.1 hd.2.1
  have ho := options_alike (sd := sd) (tn := renamedName t.name t'.name) tt.2.2 tt'.2.2 hd.2.2
  have hr : renameTable sd t.name t'.name = [] := by simp [renameTable, hn]
  simp only [diffCreateTable]
  split
  · rename_i e
    rw [told e]
    simp [alike_refl]
  · constructor
    · intro e
      split at e
      · rename_i h
        simp only [List.isEmpty_iff, List.append_eq_nil_iff, List.map_eq_nil_iff] at h
        obtain ⟨⟨⟨⟨⟨-, r2⟩, r3⟩, r4⟩, r5⟩, r6⟩ := h
        have o := ho.1 r6
        exact ⟨hn, hc.1 r3, hk.1 ⟨r2, r4, r5⟩, o.1, o.2⟩
      · cases e
    · rintro ⟨-, h1, h2, h3, h4⟩
      obtain ⟨r2, r4, r5⟩ := hk.2 h2
      obtain ⟨r6, r7⟩ := ho.2 ⟨h3, h4⟩
      rw [hr, hc.2 h1, r2, r4, r5, r6, r7]
      rfl

theorem diffTable_ne_nil {t t' : CreateTable} : (ops sd).diffTable t t' ≠ .ok [] := by
  show diffCreateTable sd false (some t) (some t') ≠ .ok []
  simp only [diffCreateTable]
  split
  · simp
  · split
    · simp
    · rename_i hne
      intro e
      rw [Res.ok.inj e] at hne
      simp at hne

theorem index_alike {i i' : CreateIndex} (ci : ∀ c ∈ i.columns, Pg.IsWord c.ident.name) (ci' : ∀ c ∈ i'.columns, Pg.IsWord c.ident.name)
    (wi : Pg.IsWord i.tableName.diffStr) (wi' : Pg.IsWord i'.tableName.diffStr) (hn : i.name.diffStr = i'.name.diffStr) :
    i.diffStr = i'.diffStr ↔ i.Alike i' := by
  constructor
  · intro e
    have hu : i.isUnique = i'.isUnique := by
      revert e
      unfold CreateIndex.diffStr
      cases i.isUnique <;> cases i'.isUnique <;> simp
    simp only [CreateIndex.diffStr, hu, hn, List.append_assoc, List.append_cancel_left_eq] at e
    have e' : i.tableName.diffStr ++ ' ' :: (s%"(" ++ (columnsDiffStr i.columns ++ s%");\n")) =
        i'.tableName.diffStr ++ ' ' :: (s%"(" ++ (columnsDiffStr i'.columns ++ s%");\n")) := by
      simpa using e
    obtain ⟨e1, e2⟩ := append_sep_inj wi.not_mem.1 wi'.not_mem.1 e'
    have e3 := List.append_cancel_right (List.append_cancel_left e2)
    exact ⟨hn, e1, hu, Run.columns_inj ci ci' e3⟩
  · rintro ⟨-, h2, h3, h4⟩
    simp only [CreateIndex.diffStr, hn, h2, h3, columnsDiffStr_of_bare h4]

theorem noDiff_iff {b a : List MStmt} (cb : CreateOnly (ops sd) b) (ca : CreateOnly (ops sd) a) (da : DistinctObjects (ops sd) a)
    (tb : Comparable b) (ta : Comparable a) (hn : ∀ t, .createTable t ∈ a → DistinctNames t) (told : Told (ops sd) b a) :
    diff (ops sd) (some b) (some a) = .err .noDifference ↔ SameSchema CreateTable.Alike CreateIndex.Alike b a := by
  constructor
  · refine noDiff_of cb ca da told.2 (fun t _ => alike_refl) (fun i => ⟨rfl, rfl, rfl, rfl⟩) ?_ (fun _ _ => diffTable_ne_nil) ?_
    · intro t t' ht ht' e h
      exact (table_alike (tb.1 t ht) (ta.1 t' ht') (hn t' ht') (told.1 t t' ht ht') e).1 h
    · intro i i' hi hi' e h
      exact (index_alike (tb.2 i hi).2 (ta.2 i' hi').2 (tb.2 i hi).1 (ta.2 i' hi').1 e).1 h
  · refine noDiff_to da (fun t t' r => r.name) (fun i i' r => r.name) ?_ ?_
    · intro t t' ht ht' r
      exact (table_alike (tb.1 t ht) (ta.1 t' ht') (hn t' ht') (told.1 t t' ht ht') r.name).2 r
    · intro i i' hi hi' r
      exact (index_alike (tb.2 i hi).2 (ta.2 i' hi').2 (tb.2 i hi).1 (ta.2 i' hi').1 r.name).2 r

end My

/-! ## Spanner -/

namespace Sp
variable {sd : Str → Str → Str}

theorem default_inj {b a : Column} (tb : b.Tame) (ta : a.Tame) (e : defaultDiffStr b.default = defaultDiffStr a.default) :
    b.default.map Default.bare = a.default.map Default.bare := by
  obtain ⟨-, tb1, tb2, -⟩ := tb
  obtain ⟨-, ta1, ta2, -⟩ := ta
  rcases hbd : b.default with _ | ⟨_ | be⟩
  · rcases had : a.default with _ | ⟨_ | ae⟩
    · rfl
    · exact absurd had ta2
    · simp [hbd, had, defaultDiffStr] at e
  · exact absurd hbd tb2
  · rcases had : a.default with _ | ⟨_ | ae⟩
    · simp [hbd, had, defaultDiffStr] at e
    · exact absurd had ta2
    · simp only [hbd, had, defaultDiffStr, List.append_assoc, List.append_cancel_left_eq, List.append_cancel_right_eq] at e
      simp [Default.bare, words_inj (tb1 _ hbd) (ta1 _ had) e]

theorem options_inj {b a : Column} (tb : b.Tame) (ta : a.Tame) (e : optExprDiffStr b.options = optExprDiffStr a.options) :
    b.options.map (·.map Ident.bare) = a.options.map (·.map Ident.bare) := by
  have none_ : ∀ {c : Column} {e : Expr}, c.Tame → c.options = some e → optExprDiffStr none = optExprDiffStr (some e) → False := by
    intro c e t h k
    simp only [optExprDiffStr, exprDiffStr, Option.getD_none, Option.getD_some] at k
    have := words_inj (e := []) (by intro i hi; cases hi) (t.2.2.2.1 _ h) k
    have : e = [] := by simpa using this.symm
    exact t.2.2.2.2 (by rw [h, this])
  rcases hbd : b.options with _ | be
  · rcases had : a.options with _ | ae
    · rfl
    · rw [hbd, had] at e
      exact (none_ ta had e).elim
  · rcases had : a.options with _ | ae
    · rw [hbd, had] at e
      exact (none_ tb hbd e.symm).elim
    · simp only [hbd, had, optExprDiffStr, exprDiffStr, Option.getD_some] at e
      simp [words_inj (tb.2.2.2.1 _ hbd) (ta.2.2.2.1 _ had) e]

theorem alterColumn_alike {tn : ObjectName} {b a : Column} (tb : b.Tame) (ta : a.Tame) (hn : b.name.name = a.name.name) :
    alterColumn sd tn b a = [] ↔ b.bare = a.bare := by
  refine ⟨fun h => ?_, alterColumn_of_bare⟩
  simp only [alterColumn, List.append_eq_nil_iff, ite_eq_right_iff, reduceCtorEq, imp_false, not_or, ne_eq, not_not,
    List.cons_ne_self] at h
  obtain ⟨⟨⟨h1, h2⟩, h3⟩, h4⟩ := h
  have e3 : defaultDiffStr b.default = defaultDiffStr a.default := by
    split at h3
    · cases h3
    · rename_i hx
      split at h3
      · cases h3
      · rename_i hy
        cases hb : b.default <;> cases ha : a.default <;> simp [hb, ha] at hx hy ⊢
        all_goals exact hy
  have e4 : optExprDiffStr b.options = optExprDiffStr a.options := by
    split at h4
    · cases h4
    · rename_i hx
      split at h4
      · cases h4
      · rename_i hy
        cases hb : b.options <;> cases ha : a.options <;> simp [hb, ha] at hx hy ⊢
        all_goals exact hy
  simp only [Column.bare, Ident.bare, hn, Run.type_inj tb.1 ta.1 h1, h2, default_inj tb ta e3, options_inj tb ta e4]

theorem columns_alike {tn : ObjectName} {l l' : List Column} (tl : ∀ c ∈ l, c.Tame) (tl' : ∀ c ∈ l', c.Tame)
    (hd : (l'.map fun c => c.name.name).Nodup) :
    diffColumns sd tn l l' = [] ↔ SameElems (l.map Column.bare) (l'.map Column.bare) := by
  refine ⟨fun h => ?_, diffColumns_same hd⟩
  rw [sameElems_matched, matched_iff (f := fun c : Column => c.name.name) hd
    (fun x x' h => bare_name_eq (by have e := congrArg Column.name h; exact e))]
  simp only [diffColumns, List.append_eq_nil_iff, List.map_eq_nil_iff, onlyLeftColumn, List.filter_eq_nil_iff, List.flatMap_eq_nil_iff] at h
  refine ⟨fun x hx => ?_, fun x' hx' => ?_⟩
  · have k := h.1 x hx
    unfold columnRound at k
    cases hf : findColumn x.name.name l' with
    | none => rw [hf] at k; cases k
    | some a =>
      rw [hf] at k
      have hm := List.mem_of_find?_eq_some hf
      have hk := List.find?_some hf
      simp only [beq_iff_eq] at hk
      exact ⟨a, hf, (alterColumn_alike (tl x hx) (tl' a hm) hk.symm).1 k⟩
  · have k := h.2 x' hx'
    show (findColumn x'.name.name l).isSome
    cases hf : findColumn x'.name.name l <;> simp [hf] at k ⊢

theorem flatMapRes_nil_iff {X : Type} {f : X → Res (List AlterTable)} {l : List X} :
    flatMapRes f l = .ok [] ↔ ∀ x ∈ l, f x = .ok [] := by
  refine ⟨fun h => ?_, flatMapRes_nil⟩
  induction l with
  | nil => simp
  | cons x l ih =>
    simp only [flatMapRes] at h
    cases hu : f x with
    | ok u =>
      cases hv : flatMapRes f l with
      | ok v =>
        rw [hu, hv] at h
        have e : u ++ v = [] := Res.ok.inj h
        rw [List.append_eq_nil_iff] at e
        obtain ⟨rfl, rfl⟩ := e
        intro y hy
        rcases List.mem_cons.1 hy with rfl | hy
        · exact hu
        · exact ih hv y hy
      | err => rw [hu, hv] at h; cases h
      | panic => rw [hu, hv] at h; cases h
      | outOfFuel => rw [hu, hv] at h; cases h
    | err => rw [hu] at h; cases h
    | panic => rw [hu] at h; cases h
    | outOfFuel => rw [hu] at h; cases h

theorem flatMapRes_panics {X : Type} {f : X → Res (List AlterTable)} {l : List X}
    (h : ∀ x ∈ l, (∃ y, f x = .ok y) ∨ f x = .panic .nilDeref) (hx : ∃ x ∈ l, f x = .panic .nilDeref) :
    flatMapRes f l = .panic .nilDeref := by
  induction l with
  | nil => obtain ⟨x, hx, -⟩ := hx; cases hx
  | cons x l ih =>
    rcases h x (by simp) with ⟨y, hy⟩ | hp
    · obtain ⟨z, hz, hzp⟩ := hx
      rcases List.mem_cons.1 hz with rfl | hz
      · rw [hy] at hzp; cases hzp
      · simp [flatMapRes, hy, ih (fun w hw => h w (by simp [hw])) ⟨z, hz, hzp⟩]
    · simp [flatMapRes, hp]

theorem flatMapRes_total {X : Type} {f : X → Res (List AlterTable)} {l : List X} (h : ∀ x ∈ l, ∃ y, f x = .ok y) :
    ∃ y, flatMapRes f l = .ok y := by
  induction l with
  | nil => exact ⟨[], rfl⟩
  | cons x l ih =>
    obtain ⟨y, hy⟩ := h x (by simp)
    obtain ⟨z, hz⟩ := ih fun w hw => h w (by simp [hw])
    exact ⟨y ++ z, by simp [flatMapRes, hy, hz]⟩

theorem key_bare {x x' : Constraint} (h : x.bare = x'.bare) : x.key = x'.key := by
  have := (Constraint.diffStr_of_bare h).2
  simp only [Constraint.key, this]

theorem constraints_alike {tn : ObjectName} {l l' : List Constraint} (tl : ∀ c ∈ l, c.Tame) (tl' : ∀ c ∈ l', c.Tame)
    (nl : ∀ c ∈ l, c.name ≠ none) (nl' : ∀ c ∈ l', c.name ≠ none) (hd : (l'.map Constraint.key).Nodup) :
    (flatMapRes (dropConstraint sd tn l') l = .ok [] ∧ flatMapRes (replaceConstraint sd false tn l') l = .ok [] ∧
      onlyLeftConstraint l [] l' = .ok []) ↔ SameElems (l.map Constraint.bare) (l'.map Constraint.bare) := by
  rw [sameElems_matched, matched_iff (f := Constraint.key) hd (fun _ _ h => key_bare h), ← and_assoc]
  refine and_congr ?_ ?_
  · rw [flatMapRes_nil_iff, flatMapRes_nil_iff, ← forall₂_and]
    refine forall₂_congr fun x hx => ?_
    simp only [dropConstraint, replaceConstraint, Run.nameStr_eq (nl x hx), Run.findConstraint_eq nl', Res.ok_bind]
    cases hf : l'.find? (fun c => c.key == x.key) with
    | none => simp
    | some a =>
      have hm := List.mem_of_find?_eq_some hf
      have hk := List.find?_some hf
      simp only [beq_iff_eq] at hk
      simp only [true_and, Option.some.injEq, exists_eq_left']
      constructor
      · intro k
        refine Run.constraint_inj (tl x hx) (tl' a hm) (k := x.key) ((Run.named_key (nl x hx) _).2 rfl)
          ((Run.named_key (nl' a hm) _).2 hk) ?_
        by_contra hne
        rw [if_pos hne] at k
        cases k
      · intro e
        rw [if_neg (by rw [(Constraint.diffStr_of_bare e).1]; simp)]
  · rw [Run.onlyLeft_eq nl nl' [] (by simp) (by simpa using hd)]
    simp only [List.nil_append, Res.ok.injEq, List.filter_eq_nil_iff]
    refine forall₂_congr fun x hx => ?_
    simp [List.find?_isSome]

theorem policy_alike {tn : ObjectName} {p p' : Option TableOption} (tp : ∀ o, p = some o → PolicyTame o) (tp' : ∀ o, p' = some o → PolicyTame o) :
    diffRowDeletionPolicy sd tn p p' = [] ↔ p.map TableOption.bare = p'.map TableOption.bare := by
  unfold diffRowDeletionPolicy
  cases p with
  | none =>
    cases p' with
    | none => simp
    | some a => simp [optionDiffStr, TableOption.diffStr]
  | some b =>
    cases p' with
    | none => simp [optionDiffStr, TableOption.diffStr]
    | some a =>
      have tb := tp b rfl
      have ta := tp' a rfl
      simp only [ite_eq_right_iff, reduceCtorEq, imp_false, not_not, ne_eq, Option.map_some, Option.some.injEq, List.cons_ne_self]
      constructor
      · intro heq
        simp only [optionDiffStr, TableOption.diffStr, tb.1, ta.1, List.append_cancel_left_eq, exprDiffStr] at heq
        simp only [TableOption.bare, tb.1, ta.1, words_inj tb.2 ta.2 heq]
      · exact fun e => TableOption.diffStr_of_bare e

theorem alike_refl {t : CreateTable} : t.Alike t := ⟨rfl, fun _ => Iff.rfl, fun _ => Iff.rfl, rfl, rfl⟩

theorem key_nodup {t : CreateTable} (h : DistinctNames t) : (t.constraints.map Constraint.key).Nodup := by
  have h1 := h.2.1
  have : (t.constraints.map (fun k => k.name.map Ident.name)) = (t.constraints.map Constraint.key).map some := by
    rw [List.map_map]
    refine List.map_congr_left ?_
    intro c hc
    cases hn : c.name with
    | none => exact absurd hn (h.2.2 c hc)
    | some n => simp [Constraint.key, hn]
  rw [this] at h1
  exact (List.nodup_map_iff (fun _ _ h => Option.some.inj h)).1 h1

theorem table_alike {t t' : CreateTable} (tt : t.Tame) (tt' : t'.Tame) (hd : DistinctNames t') (told : t.str = t'.str → t = t')
    (hn : t.name.diffStr = t'.name.diffStr) :
    diffCreateTable sd false (some t) (some t') = .err .noDifference ↔ t.Alike t' := by
  have hc := columns_alike (sd := sd) (tn := renamedName t.name t'.name) tt.1 tt'.1 hd.1
  have hk := fun nl => constraints_alike (sd := sd) (tn := renamedName t.name t'.name) tt.2.1 tt'.2.1 nl hd.2.2 (key_nodup hd)
  have hp := policy_alike (sd := sd) (tn := renamedName t.name t'.name) tt.2.2 tt'.2.2
  have hr : renameTable sd t.name t'.name = [] := by simp [renameTable, hn]
  have ho : (Run.tableOf t).options = (Run.tableOf t').options ↔ optionsDiffStr t.options = optionsDiffStr t'.options := Iff.rfl
  simp only [diffCreateTable]
  split
  · rename_i h
    exact iff_of_false (by simp) fun a => h (ho.1 a.options)
  · rename_i h
    rw [ne_eq, not_not] at h
    split
    · rename_i e
      rw [told e]
      simp [alike_refl]
    · by_cases nl : ∀ c ∈ t.constraints, c.name ≠ none
      · obtain ⟨d, h1⟩ := flatMapRes_total (f := dropConstraint sd (renamedName t.name t'.name) t'.constraints) (l := t.constraints) (by
          intro x hx
          simp only [dropConstraint, Run.nameStr_eq (nl x hx), Run.findConstraint_eq hd.2.2, Res.ok_bind]
          cases t'.constraints.find? (fun c => c.key == x.key) <;> exact ⟨_, rfl⟩)
        obtain ⟨r, h2⟩ := flatMapRes_total (f := replaceConstraint sd false (renamedName t.name t'.name) t'.constraints) (l := t.constraints) (by
          intro x hx
          simp only [replaceConstraint, Run.nameStr_eq (nl x hx), Run.findConstraint_eq hd.2.2, Res.ok_bind]
          cases t'.constraints.find? (fun c => c.key == x.key) with
          | none => exact ⟨_, rfl⟩
          | some a => simp only; split <;> exact ⟨_, rfl⟩)
        have h3 := Run.onlyLeft_eq nl hd.2.2 [] (by simp) (by simpa using key_nodup hd)
        have hk := hk nl
        rw [h1, h2, h3] at hk ⊢
        generalize ([] ++ t'.constraints.filter (fun c => c.key ∉ t.constraints.map Constraint.key)) = ad at hk ⊢
        simp only [Res.ok.injEq] at hk
        simp only [Res.ok_bind, hr, List.nil_append]
        constructor
        · intro e
          split at e
          · rename_i h
            simp only [List.isEmpty_iff, List.append_eq_nil_iff, List.map_eq_nil_iff] at h
            obtain ⟨⟨⟨⟨r1, r2⟩, r3⟩, r4⟩, r5⟩ := h
            exact ⟨hn, hc.1 r2, hk.1 ⟨r1, r3, r4⟩, ho.2 ‹_›, hp.1 r5⟩
          · cases e
        · rintro ⟨-, a1, a2, -, a4⟩
          obtain ⟨r1, r3, r4⟩ := hk.2 a2
          rw [hc.2 a1, hp.2 a4, r1, r3, r4]
          rfl
      · refine iff_of_false ?_ ?_
        · rw [flatMapRes_panics]
          · simp
          · intro x hx
            simp only [dropConstraint]
            cases hxn : x.name with
            | none => right; simp [Constraint.nameStr, hxn]
            | some n =>
              left
              simp only [Constraint.nameStr, hxn, Run.findConstraint_eq hd.2.2, Res.ok_bind]
              cases t'.constraints.find? (fun c => c.key == n.name) <;> exact ⟨_, rfl⟩
          · simp only [not_forall, not_not] at nl
            obtain ⟨x, hx, hxn⟩ := nl
            exact ⟨x, hx, by simp [dropConstraint, Constraint.nameStr, hxn]⟩
        · intro a
          apply nl
          intro c hc hcn
          obtain ⟨c', hc', e⟩ := (sameElems_matched.1 a.constraints).1 c hc
          have := (Constraint.diffStr_of_bare e).2
          rw [hcn] at this
          exact hd.2.2 c' hc' (by simpa using this.symm)

theorem diffTable_ne_nil {t t' : CreateTable} : (ops sd).diffTable t t' ≠ .ok [] := by
  show diffCreateTable sd false (some t) (some t') ≠ .ok []
  simp only [diffCreateTable]
  split
  · simp
  · split
    · simp
    · cases flatMapRes (dropConstraint sd (renamedName t.name t'.name) t'.constraints) t.constraints with
      | ok d =>
        cases flatMapRes (replaceConstraint sd false (renamedName t.name t'.name) t'.constraints) t.constraints with
        | ok r =>
          cases onlyLeftConstraint t.constraints [] t'.constraints with
          | ok a =>
            simp only [Res.ok_bind]
            split
            · simp
            · rename_i hne
              intro e
              rw [List.map_eq_nil_iff.1 (Res.ok.inj e)] at hne
              simp at hne
          | err => simp
          | panic => simp
          | outOfFuel => simp
        | err => simp
        | panic => simp
        | outOfFuel => simp
      | err => simp
      | panic => simp
      | outOfFuel => simp

theorem index_alike {i i' : CreateIndex} (ci : Run.IndexTame i) (ci' : Run.IndexTame i')
    (wi : Pg.IsWord i.tableName.diffStr) (wi' : Pg.IsWord i'.tableName.diffStr) (hn : i.name.diffStr = i'.name.diffStr) :
    i.diffStr = i'.diffStr ↔ i.Alike i' := by
  constructor
  · intro e
    have hu : i.isUnique = i'.isUnique := by
      revert e
      unfold CreateIndex.diffStr
      cases i.isUnique <;> cases i'.isUnique <;> simp
    simp only [CreateIndex.diffStr, hu, hn, List.append_assoc, List.append_cancel_left_eq] at e
    have e' : i.tableName.diffStr ++ ' ' :: (s%"(" ++ (columnsDiffStr i.columns ++ s%");\n")) =
        i'.tableName.diffStr ++ ' ' :: (s%"(" ++ (columnsDiffStr i'.columns ++ s%");\n")) := by
      simpa using e
    obtain ⟨e1, e2⟩ := append_sep_inj wi.not_mem.1 wi'.not_mem.1 e'
    have e3 := List.append_cancel_right (List.append_cancel_left e2)
    exact ⟨hn, e1, hu, Run.columns_inj ci ci' e3⟩
  · rintro ⟨-, h2, h3, h4⟩
    simp only [CreateIndex.diffStr, hn, h2, h3, columnsDiffStr_of_bare h4]

theorem noDiff_iff {b a : List SStmt} (cb : CreateOnly (ops sd) b) (ca : CreateOnly (ops sd) a) (da : DistinctObjects (ops sd) a)
    (tb : Comparable b) (ta : Comparable a) (hn : ∀ t, .createTable t ∈ a → DistinctNames t) (told : Told (ops sd) b a) :
    diff (ops sd) (some b) (some a) = .err .noDifference ↔ SameSchema CreateTable.Alike CreateIndex.Alike b a := by
  constructor
  · refine noDiff_of cb ca da told.2 (fun t _ => alike_refl) (fun i => ⟨rfl, rfl, rfl, rfl⟩) ?_ (fun _ _ => diffTable_ne_nil) ?_
    · intro t t' ht ht' e h
      exact (table_alike (tb.1.1 t ht) (ta.1.1 t' ht') (hn t' ht') (told.1 t t' ht ht') e).1 h
    · intro i i' hi hi' e h
      exact (index_alike (tb.1.2 i hi) (ta.1.2 i' hi') (tb.2 i hi) (ta.2 i' hi') e).1 h
  · refine noDiff_to da (fun t t' r => r.name) (fun i i' r => r.name) ?_ ?_
    · intro t t' ht ht' r
      exact (table_alike (tb.1.1 t ht) (ta.1.1 t' ht') (hn t' ht') (told.1 t t' ht ht') r.name).2 r
    · intro i i' hi hi' r
      exact (index_alike (tb.1.2 i hi) (ta.1.2 i' hi') (tb.2 i hi) (ta.2 i' hi') r.name).2 r

end Sp
end Ddl
