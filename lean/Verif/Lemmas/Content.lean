import Verif.Spec.Content
import Verif.Lemmas.Shape
import Verif.Lemmas.DiffObjects

/-! # Diffs depend on the bare definitions only -/

namespace Ddl
open Spec

theorem map_bare_diffStr (l : List Ident) : (l.map Ident.bare).map Ident.diffStr = l.map Ident.diffStr := by
  simp [Ident.bare, Ident.diffStr]

theorem ObjectName.bare_diffStr (n : ObjectName) : n.bare.diffStr = n.diffStr := by
  cases n with | mk s n => cases s <;> rfl

theorem ObjectName.diffStr_of_bare {n m : ObjectName} (h : n.bare = m.bare) : n.diffStr = m.diffStr := by
  rw [← n.bare_diffStr, h, m.bare_diffStr]

theorem bare_name_eq {i j : Ident} (h : i.bare = j.bare) : i.name = j.name := by
  simpa [Ident.bare] using h

/-- In a list with distinct names, looking up a name finds the element. -/
theorem find?_of_nodup {α : Type} {f : α → Str} {l : List α} (hd : (l.map f).Nodup) {a : α} (ha : a ∈ l) :
    l.find? (fun c => f c == f a) = some a := by
  induction l with
  | nil => simp at ha
  | cons x l ih =>
    simp only [List.map_cons, List.nodup_cons] at hd
    rcases List.mem_cons.1 ha with rfl | ha
    · simp
    · have : f x ≠ f a := fun e => hd.1 (e ▸ List.mem_map_of_mem ha)
      rw [List.find?_cons_of_neg (by simpa using this)]
      exact ih hd.2 ha

theorem sameElems_of {α β : Type} {f : α → β} {l r : List α} (h : SameElems (l.map f) (r.map f)) :
    (∀ x ∈ l, ∃ y ∈ r, f x = f y) ∧ (∀ y ∈ r, ∃ x ∈ l, f x = f y) := by
  constructor
  · intro x hx
    obtain ⟨y, hy, e⟩ := List.mem_map.1 ((h _).1 (List.mem_map_of_mem hx))
    exact ⟨y, hy, e.symm⟩
  · intro y hy
    obtain ⟨x, hx, e⟩ := List.mem_map.1 ((h _).2 (List.mem_map_of_mem hy))
    exact ⟨x, hx, e⟩

section
variable {T I A N : Type} {o : Ops T I A N}

theorem diff_same {sameT : T → T → Prop} {sameI : I → I → Prop} {b a : List (Stmt T I A N)}
    (hT : ∀ t t', sameT t t' → (o.tableName t).diffStr = (o.tableName t').diffStr ∧
      (.createTable t' ∈ a → o.diffTable t t' = .err .noDifference))
    (hI : ∀ i i', sameI i i' → o.nDiffStr (o.indexName i) = o.nDiffStr (o.indexName i') ∧ o.indexDiffStr i = o.indexDiffStr i')
    (hd : DistinctObjects o a) (h : SameSchema sameT sameI b a) :
    diff o (some b) (some a) = .err .noDifference := by
  have find : ∀ {s s' : Stmt T I A N}, s' ∈ a → SameStmt sameT sameI s s' → findStmt o s a = some s' := by
    intro s s' hs' hss
    clear h
    induction a with
    | nil => simp at hs'
    | cons x a ih =>
      have hd' : DistinctObjects o a := by
        unfold DistinctObjects at hd ⊢
        rw [List.filterMap_cons] at hd
        split at hd
        · exact hd
        · exact (List.nodup_cons.1 hd).2
      by_cases hx : x = s'
      · subst hx
        have : (sameType s x && nameForDiff o s == nameForDiff o x) = true := by
          cases hss with
          | table ht => simp [sameType, nameForDiff, (hT _ _ ht).1]
          | index hi => simp [sameType, nameForDiff, (hI _ _ hi).1]
        simp [findStmt, this]
      · have hs'' : s' ∈ a := by
          rcases List.mem_cons.1 hs' with h | h
          · exact absurd h.symm hx
          · exact h
        have hneg : ¬ (sameType s x && nameForDiff o s == nameForDiff o x) = true := by
          intro he
          simp only [Bool.and_eq_true, beq_iff_eq] at he
          have : creates o x = creates o s' ∧ (creates o x).isSome := by
            cases hss with
            | table ht =>
              cases x <;> simp [sameType] at he
              simp only [nameForDiff] at he
              simp [creates, ← he, (hT _ _ ht).1]
            | index hi =>
              cases x <;> simp [sameType] at he
              simp only [nameForDiff] at he
              simp [creates, ← he, (hI _ _ hi).1]
          obtain ⟨k, hk⟩ := Option.isSome_iff_exists.1 this.2
          unfold DistinctObjects at hd
          rw [List.filterMap_cons, hk] at hd
          exact (List.nodup_cons.1 hd).1 (List.mem_filterMap.2 ⟨s', hs'', by rw [← this.1, hk]⟩)
        have := ih (fun t t' ht => ⟨(hT t t' ht).1, fun hm => (hT t t' ht).2 (List.mem_cons_of_mem _ hm)⟩) hd' hs''
        unfold findStmt at this ⊢
        rw [List.find?_cons_of_neg (by exact hneg)]
        exact this
  have h1 : onlyLeftStmt o b a = [] := by
    unfold onlyLeftStmt
    rw [List.filter_eq_nil_iff]
    intro s hs
    obtain ⟨s', hs', hss⟩ := h.1 s hs
    rw [find hs' hss]
    simp
  have h2 : onlyLeftStmt o a b = [] := by
    unfold onlyLeftStmt
    rw [List.filter_eq_nil_iff]
    intro s' hs'
    obtain ⟨s, hs, hss⟩ := h.2 s' hs'
    have : (findStmt o s' b).isSome := by
      unfold findStmt
      rw [List.find?_isSome]
      refine ⟨s, hs, ?_⟩
      cases hss with
      | table ht => simp [sameType, nameForDiff, (hT _ _ ht).1]
      | index hi => simp [sameType, nameForDiff, (hI _ _ hi).1]
    simpa [Option.isSome_iff_ne_none] using this
  have h3 : ∀ c : List (Stmt T I A N), (∀ s ∈ c, s ∈ b) → flatMapRes (alterOf o a) c = .ok [] := by
    intro c hc
    induction c with
    | nil => rfl
    | cons s c ih =>
      obtain ⟨s', hs', hss⟩ := h.1 s (hc s (by simp))
      have hf := find hs' hss
      have : alterOf o a s = .ok [] := by
        cases hss with
        | table ht => simp [alterOf, hf, (hT _ _ ht).2 hs']
        | index hi => simp [alterOf, hf, (hI _ _ hi).2]
      simp [flatMapRes, this, ih (fun x hx => hc x (by simp [hx]))]
  simp only [diff]
  split
  · rfl
  · simp [h1, h2, h3 b (fun _ h => h), mapRes]

end

variable {sd : Str → Str → Str}

/-! ## PostgreSQL -/

namespace Pg

theorem DataType.diffStr_of_bare {a b : DataType} (h : a.bare = b.bare) : a.diffStr = b.diffStr := by
  have h1 : a.type = b.type := by have e := congrArg DataType.type h; exact e
  have h2 : a.expr.map Ident.bare = b.expr.map Ident.bare := by have e := congrArg DataType.expr h; exact e
  have h3 : a.expr.map Ident.diffStr = b.expr.map Ident.diffStr := by
    rw [← map_bare_diffStr, h2, map_bare_diffStr]
  have h4 : (a.expr = []) ↔ (b.expr = []) := by
    rw [← List.map_eq_nil_iff (f := Ident.bare), h2, List.map_eq_nil_iff]
  simp only [DataType.diffStr, h1, h3, h4]

theorem defaultDiffStr_of_bare {a b : Option Default} (h : a.map Default.bare = b.map Default.bare) :
    defaultDiffStr a = defaultDiffStr b ∧ a.isSome = b.isSome := by
  match a, b with
  | none, none => simp
  | none, some _ => simp at h
  | some _, none => simp at h
  | some ⟨x⟩, some ⟨y⟩ =>
    simp only [Option.map_some, Default.bare, Option.some.injEq, Default.mk.injEq] at h
    match x, y with
    | none, none => simp
    | none, some _ => simp at h
    | some _, none => simp at h
    | some x, some y =>
      simp only [Option.map_some, Option.some.injEq] at h
      refine ⟨?_, rfl⟩
      simp only [defaultDiffStr]
      rw [← map_bare_diffStr, h, map_bare_diffStr]

theorem alterColumn_of_bare {tn : ObjectName} {b a : Column} (h : b.bare = a.bare) : alterColumn sd tn b a = [] := by
  have h1 := DataType.diffStr_of_bare (by have e := congrArg Column.dataType h; exact e)
  obtain ⟨h2, h3⟩ := defaultDiffStr_of_bare (by have e := congrArg Column.default h; exact e)
  have h4 : b.notNull = a.notNull := by have e := congrArg Column.notNull h; exact e
  have h5 : a.default.isNone = !a.default.isSome := by cases a.default <;> rfl
  simp only [alterColumn, h1, h2, h3, h4]
  cases a.default <;> cases a.notNull <;> simp

theorem Constraint.diffStr_of_bare {a b : Constraint} (h : a.bare = b.bare) :
    a.diffStr = b.diffStr ∧ a.name.name = b.name.name := by
  have hc : ∀ {l r : List Ident}, l.map Ident.bare = r.map Ident.bare → l.map Ident.diffStr = r.map Ident.diffStr := by
    intro l r h
    rw [← map_bare_diffStr, h, map_bare_diffStr]
  cases a <;> cases b <;> simp only [Constraint.bare, reduceCtorEq, Constraint.primaryKey.injEq, Constraint.foreignKey.injEq,
    Constraint.unique.injEq, Constraint.check.injEq] at h
  · exact ⟨by simp only [Constraint.diffStr, columnsDiffStr, Ident.diffStr, bare_name_eq h.1, hc h.2], bare_name_eq h.1⟩
  · obtain ⟨h1, h2, h3, h4, h5⟩ := h
    exact ⟨by simp only [Constraint.diffStr, columnsDiffStr, Ident.diffStr, bare_name_eq h1, bare_name_eq h3, hc h2, hc h4, h5],
      bare_name_eq h1⟩
  · exact ⟨by simp only [Constraint.diffStr, columnsDiffStr, Ident.diffStr, bare_name_eq h.1, hc h.2], bare_name_eq h.1⟩
  · exact ⟨by simp only [Constraint.diffStr, Ident.diffStr, bare_name_eq h.1, hc h.2], bare_name_eq h.1⟩

theorem diffColumns_same {tn : ObjectName} {b a : List Column} (hd : (a.map (·.name.name)).Nodup)
    (h : SameElems (b.map Column.bare) (a.map Column.bare)) : diffColumns sd tn b a = [] := by
  obtain ⟨h1, h2⟩ := sameElems_of h
  simp only [diffColumns, List.append_eq_nil_iff, List.flatMap_eq_nil_iff, List.map_eq_nil_iff]
  constructor
  · intro c hc
    obtain ⟨c', hc', e⟩ := h1 c hc
    have : findColumn c.name.name a = some c' := by
      rw [bare_name_eq (by have e := congrArg Column.name e; exact e)]
      exact find?_of_nodup (f := fun c : Column => c.name.name) hd hc'
    simp only [columnRound, this]
    exact alterColumn_of_bare e
  · simp only [onlyLeftColumn, List.filter_eq_nil_iff]
    intro c' hc'
    obtain ⟨c, hc, e⟩ := h2 c' hc'
    have : findColumn c'.name.name b ≠ none := by
      rw [findColumn, Ne, find?_none_iff (f := fun c : Column => c.name.name), not_not]
      exact List.mem_map.2 ⟨c, hc, bare_name_eq (by have e := congrArg Column.name e; exact e)⟩
    simpa [Option.isNone_iff_eq_none] using this

theorem dropConstraints_same {tn : ObjectName} {b a : List Constraint}
    (h : ∀ k ∈ b, ∃ k' ∈ a, k.name.name = k'.name.name) : dropConstraints sd tn b a = [] := by
  simp only [dropConstraints, List.flatMap_eq_nil_iff]
  intro k hk
  obtain ⟨k', hk', e⟩ := h k hk
  split
  · rename_i hn
    rw [findConstraint, find?_none_iff (f := fun c : Constraint => c.name.name)] at hn
    exact absurd (List.mem_map.2 ⟨k', hk', e.symm⟩) hn
  · rfl

theorem addConstraints_same {nv : Bool} {tn : ObjectName} {b a : List Constraint}
    (h : ∀ k ∈ a, ∃ k' ∈ b, k.name.name = k'.name.name) : addConstraints sd nv tn b a = [] := by
  have : (a.filter (fun c => (findConstraint c.name.name b).isNone)) = [] := by
    rw [List.filter_eq_nil_iff]
    intro k hk
    obtain ⟨k', hk', e⟩ := h k hk
    have : findConstraint k.name.name b ≠ none := by
      rw [findConstraint, Ne, find?_none_iff (f := fun c : Constraint => c.name.name), not_not]
      exact List.mem_map.2 ⟨k', hk', e.symm⟩
    simpa [Option.isNone_iff_eq_none] using this
  simp [addConstraints, onlyLeftConstraint, this]

theorem replaceConstraints_same {nv : Bool} {tn : ObjectName} {b a : List Constraint} (hd : (a.map (·.name.name)).Nodup)
    (h : ∀ k ∈ b, ∃ k' ∈ a, k.name.name = k'.name.name ∧ k.diffStr = k'.diffStr) : replaceConstraints sd nv tn b a = [] := by
  simp only [replaceConstraints, List.flatMap_eq_nil_iff]
  intro k hk
  obtain ⟨k', hk', e, e'⟩ := h k hk
  have : findConstraint k.name.name a = some k' := by
    rw [e]
    exact find?_of_nodup (f := fun c : Constraint => c.name.name) hd hk'
  simp [this, e']

theorem renameTable_same {n m : ObjectName} (h : n.diffStr = m.diffStr) : renameTable sd n m = [] := by
  simp [renameTable, h]

theorem diffTable_same {nv : Bool} {t t' : CreateTable} (hd : DistinctNames t') (h : SameTable t t') :
    diffCreateTable sd nv (some t) (some t') = .err .noDifference := by
  obtain ⟨h1, h2, h3⟩ := h
  obtain ⟨h4, h5⟩ := sameElems_of h3
  simp only [diffCreateTable]
  split
  · rfl
  · rw [renameTable_same (ObjectName.diffStr_of_bare h1), diffColumns_same hd.1 h2,
      dropConstraints_same (fun k hk => ?_), replaceConstraints_same hd.2 (fun k hk => ?_),
      addConstraints_same (fun k hk => ?_)]
    · rfl
    · obtain ⟨k', hk', e⟩ := h5 k hk
      exact ⟨k', hk', (Constraint.diffStr_of_bare e).2.symm⟩
    · obtain ⟨k', hk', e⟩ := h4 k hk
      exact ⟨k', hk', (Constraint.diffStr_of_bare e).2, (Constraint.diffStr_of_bare e).1⟩
    · obtain ⟨k', hk', e⟩ := h4 k hk
      exact ⟨k', hk', (Constraint.diffStr_of_bare e).2⟩

theorem index_same {i i' : CreateIndex} (h : SameIndex i i') :
    i.name.diffStr = i'.name.diffStr ∧ i.diffStr = i'.diffStr := by
  have h1 : i.isUnique = i'.isUnique := by have e := congrArg CreateIndex.isUnique h; exact e
  have h2 : i.name.bare = i'.name.bare := by have e := congrArg CreateIndex.name h; exact e
  have h3 : i.tableName.bare = i'.tableName.bare := by have e := congrArg CreateIndex.tableName h; exact e
  have h4 : i.columns.map Ident.bare = i'.columns.map Ident.bare := by have e := congrArg CreateIndex.columns h; exact e
  have h5 : i.columns.map Ident.diffStr = i'.columns.map Ident.diffStr := by rw [← map_bare_diffStr, h4, map_bare_diffStr]
  refine ⟨bare_name_eq h2, ?_⟩
  simp only [CreateIndex.diffStr, h1, Ident.diffStr, bare_name_eq h2, ObjectName.diffStr_of_bare h3, columnsDiffStr, h5]

theorem diff_sameSchema {b a : List PStmt} (hd : DistinctObjects (ops sd) a) (hn : ∀ t, .createTable t ∈ a → DistinctNames t)
    (h : SameSchema SameTable SameIndex b a) : diff (ops sd) (some b) (some a) = .err .noDifference :=
  diff_same (fun _ _ ht => ⟨ObjectName.diffStr_of_bare ht.1, fun hm => diffTable_same (hn _ hm) ht⟩)
    (fun _ _ hi => index_same hi) hd h

end Pg
/-! ## CockroachDB -/

namespace Crdb

theorem ColumnIdent.bare_diffStr (i : ColumnIdent) : i.bare.diffStr = i.diffStr := by
  simp [ColumnIdent.bare, ColumnIdent.diffStr, Ident.bare, Ident.diffStr]

theorem columnsDiffStr_of_bare {l r : List ColumnIdent} (h : l.map ColumnIdent.bare = r.map ColumnIdent.bare) :
    columnsDiffStr l = columnsDiffStr r := by
  have : ∀ l : List ColumnIdent, (l.map ColumnIdent.bare).map ColumnIdent.diffStr = l.map ColumnIdent.diffStr := by
    intro l; simp [ColumnIdent.bare_diffStr]
  simp only [columnsDiffStr]
  rw [← this, h, this]

theorem DataType.diffStr_of_bare {a b : DataType} (h : a.bare = b.bare) : a.diffStr = b.diffStr := by
  have h1 : a.type = b.type := by have e := congrArg DataType.type h; exact e
  have h2 : a.expr.map Ident.bare = b.expr.map Ident.bare := by have e := congrArg DataType.expr h; exact e
  have h3 : a.expr.map Ident.diffStr = b.expr.map Ident.diffStr := by
    rw [← map_bare_diffStr, h2, map_bare_diffStr]
  have h4 : (a.expr = []) ↔ (b.expr = []) := by
    rw [← List.map_eq_nil_iff (f := Ident.bare), h2, List.map_eq_nil_iff]
  simp only [DataType.diffStr, h1, h3, h4]

theorem defaultDiffStr_of_bare {a b : Option Default} (h : a.map Default.bare = b.map Default.bare) :
    defaultDiffStr a = defaultDiffStr b ∧ a.isSome = b.isSome := by
  match a, b with
  | none, none => simp
  | none, some _ => simp at h
  | some _, none => simp at h
  | some ⟨x⟩, some ⟨y⟩ =>
    simp only [Option.map_some, Default.bare, Option.some.injEq, Default.mk.injEq] at h
    match x, y with
    | none, none => simp
    | none, some _ => simp at h
    | some _, none => simp at h
    | some x, some y =>
      simp only [Option.map_some, Option.some.injEq] at h
      refine ⟨?_, rfl⟩
      simp only [defaultDiffStr]
      rw [← map_bare_diffStr, h, map_bare_diffStr]

theorem alterColumn_of_bare {tn : ObjectName} {b a : Column} (h : b.bare = a.bare) : alterColumn sd tn b a = [] := by
  have h1 := DataType.diffStr_of_bare (by have e := congrArg Column.dataType h; exact e)
  obtain ⟨h2, h3⟩ := defaultDiffStr_of_bare (by have e := congrArg Column.default h; exact e)
  have h4 : b.notNull = a.notNull := by have e := congrArg Column.notNull h; exact e
  have h5 : a.default.isNone = !a.default.isSome := by cases a.default <;> rfl
  simp only [alterColumn, h1, h2, h3, h4]
  cases a.default <;> cases a.notNull <;> simp

theorem Constraint.diffStr_of_bare {a b : Constraint} (h : a.bare = b.bare) :
    a.diffStr = b.diffStr ∧ a.name.name = b.name.name := by
  have hc : ∀ {l r : List Ident}, l.map Ident.bare = r.map Ident.bare → l.map Ident.diffStr = r.map Ident.diffStr := by
    intro l r h
    rw [← map_bare_diffStr, h, map_bare_diffStr]
  cases a <;> cases b <;> simp only [Constraint.bare, reduceCtorEq, Constraint.primaryKey.injEq, Constraint.foreignKey.injEq,
    Constraint.index.injEq, Constraint.check.injEq] at h
  · exact ⟨by simp only [Constraint.diffStr, Ident.diffStr, bare_name_eq h.1, columnsDiffStr_of_bare h.2], bare_name_eq h.1⟩
  · obtain ⟨h1, h2, h3, h4, h5⟩ := h
    exact ⟨by simp only [Constraint.diffStr, Ident.diffStr, bare_name_eq h1, bare_name_eq h3, columnsDiffStr_of_bare h2,
      columnsDiffStr_of_bare h4, h5], bare_name_eq h1⟩
  · obtain ⟨h1, h2, h3, h4, h5⟩ := h
    exact ⟨by simp only [Constraint.diffStr, Ident.diffStr, bare_name_eq h1, h2, h3, columnsDiffStr_of_bare h4, h5],
      bare_name_eq h1⟩
  · exact ⟨by simp only [Constraint.diffStr, Ident.diffStr, bare_name_eq h.1, hc h.2], bare_name_eq h.1⟩

theorem diffColumns_same {tn : ObjectName} {b a : List Column} (hd : (a.map (·.name.name)).Nodup)
    (h : SameElems (b.map Column.bare) (a.map Column.bare)) : diffColumns sd tn b a = [] := by
  obtain ⟨h1, h2⟩ := sameElems_of h
  simp only [diffColumns, List.append_eq_nil_iff, List.flatMap_eq_nil_iff, List.map_eq_nil_iff]
  constructor
  · intro c hc
    obtain ⟨c', hc', e⟩ := h1 c hc
    have : findColumn c.name.name a = some c' := by
      rw [bare_name_eq (by have e := congrArg Column.name e; exact e)]
      exact find?_of_nodup (f := fun c : Column => c.name.name) hd hc'
    simp only [columnRound, this]
    exact alterColumn_of_bare e
  · simp only [onlyLeftColumn, List.filter_eq_nil_iff]
    intro c' hc'
    obtain ⟨c, hc, e⟩ := h2 c' hc'
    have : findColumn c'.name.name b ≠ none := by
      rw [findColumn, Ne, find?_none_iff (f := fun c : Column => c.name.name), not_not]
      exact List.mem_map.2 ⟨c, hc, bare_name_eq (by have e := congrArg Column.name e; exact e)⟩
    simpa [Option.isNone_iff_eq_none] using this

theorem dropConstraints_same {tn : ObjectName} {b a : List Constraint}
    (h : ∀ k ∈ b, ∃ k' ∈ a, k.name.name = k'.name.name) : dropConstraints sd tn b a = [] := by
  simp only [dropConstraints, List.flatMap_eq_nil_iff]
  intro k hk
  obtain ⟨k', hk', e⟩ := h k hk
  split
  · rename_i hn
    rw [findConstraint, find?_none_iff (f := fun c : Constraint => c.name.name)] at hn
    exact absurd (List.mem_map.2 ⟨k', hk', e.symm⟩) hn
  · rfl

theorem addConstraints_same {nv : Bool} {tn : ObjectName} {b a : List Constraint}
    (h : ∀ k ∈ a, ∃ k' ∈ b, k.name.name = k'.name.name) : addConstraints sd nv tn b a = [] := by
  have : (a.filter (fun c => (findConstraint c.name.name b).isNone)) = [] := by
    rw [List.filter_eq_nil_iff]
    intro k hk
    obtain ⟨k', hk', e⟩ := h k hk
    have : findConstraint k.name.name b ≠ none := by
      rw [findConstraint, Ne, find?_none_iff (f := fun c : Constraint => c.name.name), not_not]
      exact List.mem_map.2 ⟨k', hk', e.symm⟩
    simpa [Option.isNone_iff_eq_none] using this
  simp [addConstraints, onlyLeftConstraint, this]

theorem replaceConstraints_same {nv : Bool} {tn : ObjectName} {b a : List Constraint} (hd : (a.map (·.name.name)).Nodup)
    (h : ∀ k ∈ b, ∃ k' ∈ a, k.name.name = k'.name.name ∧ k.diffStr = k'.diffStr) : replaceConstraints sd nv tn b a = [] := by
  simp only [replaceConstraints, List.flatMap_eq_nil_iff]
  intro k hk
  obtain ⟨k', hk', e, e'⟩ := h k hk
  have : findConstraint k.name.name a = some k' := by
    rw [e]
    exact find?_of_nodup (f := fun c : Constraint => c.name.name) hd hk'
  simp [this, e']

theorem renameTable_same {n m : ObjectName} (h : n.diffStr = m.diffStr) : renameTable sd n m = [] := by
  simp [renameTable, h]

theorem diffTable_same {nv : Bool} {t t' : CreateTable} (hd : DistinctNames t') (h : SameTable t t') :
    diffCreateTable sd nv (some t) (some t') = .err .noDifference := by
  obtain ⟨h1, h2, h3⟩ := h
  obtain ⟨h4, h5⟩ := sameElems_of h3
  simp only [diffCreateTable]
  split
  · rfl
  · rw [renameTable_same (ObjectName.diffStr_of_bare h1), diffColumns_same hd.1 h2,
      dropConstraints_same (fun k hk => ?_), replaceConstraints_same hd.2 (fun k hk => ?_),
      addConstraints_same (fun k hk => ?_)]
    · rfl
    · obtain ⟨k', hk', e⟩ := h5 k hk
      exact ⟨k', hk', (Constraint.diffStr_of_bare e).2.symm⟩
    · obtain ⟨k', hk', e⟩ := h4 k hk
      exact ⟨k', hk', (Constraint.diffStr_of_bare e).2, (Constraint.diffStr_of_bare e).1⟩
    · obtain ⟨k', hk', e⟩ := h4 k hk
      exact ⟨k', hk', (Constraint.diffStr_of_bare e).2⟩

theorem index_same {i i' : CreateIndex} (h : SameIndex i i') :
    i.name.diffStr = i'.name.diffStr ∧ i.diffStr = i'.diffStr := by
  have h1 : i.isUnique = i'.isUnique := by have e := congrArg CreateIndex.isUnique h; exact e
  have h2 : i.name.bare = i'.name.bare := by have e := congrArg CreateIndex.name h; exact e
  have h3 : i.tableName.bare = i'.tableName.bare := by have e := congrArg CreateIndex.tableName h; exact e
  have h4 : i.columns.map ColumnIdent.bare = i'.columns.map ColumnIdent.bare := by
    have e := congrArg CreateIndex.columns h; exact e
  have h5 : i.usingPre = i'.usingPre := by have e := congrArg CreateIndex.usingPre h; exact e
  have h6 : i.usingPost = i'.usingPost := by have e := congrArg CreateIndex.usingPost h; exact e
  refine ⟨bare_name_eq h2, ?_⟩
  simp only [CreateIndex.diffStr, h1, Ident.diffStr, bare_name_eq h2, ObjectName.diffStr_of_bare h3, columnsDiffStr_of_bare h4,
    h5, h6]

theorem diff_sameSchema {b a : List CStmt} (hd : DistinctObjects (ops sd) a) (hn : ∀ t, .createTable t ∈ a → DistinctNames t)
    (h : SameSchema SameTable SameIndex b a) : diff (ops sd) (some b) (some a) = .err .noDifference :=
  diff_same (fun _ _ ht => ⟨ObjectName.diffStr_of_bare ht.1, fun hm => diffTable_same (hn _ hm) ht⟩)
    (fun _ _ hi => index_same hi) hd h

end Crdb
/-! ## MySQL -/

namespace My

theorem ColumnIdent.bare_diffStr (i : ColumnIdent) : i.bare.diffStr = i.diffStr := by
  simp [ColumnIdent.bare, ColumnIdent.diffStr, Ident.bare, Ident.diffStr]

theorem columnsDiffStr_of_bare {l r : List ColumnIdent} (h : l.map ColumnIdent.bare = r.map ColumnIdent.bare) :
    columnsDiffStr l = columnsDiffStr r := by
  have : ∀ l : List ColumnIdent, (l.map ColumnIdent.bare).map ColumnIdent.diffStr = l.map ColumnIdent.diffStr := by
    intro l; simp [ColumnIdent.bare_diffStr]
  simp only [columnsDiffStr]
  rw [← this, h, this]

theorem DataType.diffStr_of_bare {a b : DataType} (h : a.bare = b.bare) : a.diffStr = b.diffStr := by
  have h1 : a.type = b.type := by have e := congrArg DataType.type h; exact e
  have h2 : a.expr.map Ident.bare = b.expr.map Ident.bare := by have e := congrArg DataType.expr h; exact e
  have h3 : a.expr.map Ident.diffStr = b.expr.map Ident.diffStr := by
    rw [← map_bare_diffStr, h2, map_bare_diffStr]
  have h4 : (a.expr = []) ↔ (b.expr = []) := by
    rw [← List.map_eq_nil_iff (f := Ident.bare), h2, List.map_eq_nil_iff]
  simp only [DataType.diffStr, h1, h3, h4]

theorem defaultDiffStr_of_bare {a b : Option Default} (h : a.map Default.bare = b.map Default.bare) :
    defaultDiffStr a = defaultDiffStr b ∧ a.isSome = b.isSome := by
  match a, b with
  | none, none => simp
  | none, some _ => simp at h
  | some _, none => simp at h
  | some ⟨x⟩, some ⟨y⟩ =>
    simp only [Option.map_some, Default.bare, Option.some.injEq, Default.mk.injEq] at h
    match x, y with
    | none, none => simp
    | none, some _ => simp at h
    | some _, none => simp at h
    | some x, some y =>
      simp only [Option.map_some, Option.some.injEq] at h
      refine ⟨?_, rfl⟩
      simp only [defaultDiffStr]
      rw [← map_bare_diffStr, h, map_bare_diffStr]

theorem identDiffStr_of_bare {a b : Option Ident} (h : a.map Ident.bare = b.map Ident.bare) :
    identDiffStr a = identDiffStr b := by
  match a, b with
  | none, none => rfl
  | none, some _ => simp at h
  | some _, none => simp at h
  | some x, some y => exact bare_name_eq (by simpa using h)

theorem alterColumn_of_bare {tn : ObjectName} {b a : Column} (h : b.bare = a.bare) : alterColumn sd tn b a = [] := by
  have h1 := DataType.diffStr_of_bare (by have e := congrArg Column.dataType h; exact e)
  obtain ⟨h2, h3⟩ := defaultDiffStr_of_bare (by have e := congrArg Column.default h; exact e)
  have h4 : b.notNull = a.notNull := by have e := congrArg Column.notNull h; exact e
  have h5 := identDiffStr_of_bare (by have e := congrArg Column.characterSet h; exact e)
  have h6 := identDiffStr_of_bare (by have e := congrArg Column.collate h; exact e)
  have h7 : b.autoIncrement = a.autoIncrement := by have e := congrArg Column.autoIncrement h; exact e
  have h8 : b.onAction = a.onAction := by have e := congrArg Column.onAction h; exact e
  have h9 : b.comment = a.comment := by have e := congrArg Column.comment h; exact e
  have hm : ¬ needsModify b a := by simp [needsModify, h1, h2, h4, h5, h6, h7, h8, h9]
  have hdd : dropDefault b a = false := by
    simp only [dropDefault, h3]
    cases a.default <;> rfl
  simp [alterColumn, hm, hdd]

theorem Constraint.diffStr_of_bare {a b : Constraint} (h : a.bare = b.bare) :
    a.diffStr = b.diffStr ∧ a.name.name = b.name.name := by
  have hc : ∀ {l r : List Ident}, l.map Ident.bare = r.map Ident.bare → l.map Ident.diffStr = r.map Ident.diffStr := by
    intro l r h
    rw [← map_bare_diffStr, h, map_bare_diffStr]
  cases a <;> cases b <;> simp only [Constraint.bare, reduceCtorEq, Constraint.primaryKey.injEq, Constraint.foreignKey.injEq,
    Constraint.index.injEq, Constraint.check.injEq] at h
  · exact ⟨by simp only [Constraint.diffStr, columnsDiffStr_of_bare h.2], bare_name_eq h.1⟩
  · obtain ⟨h1, h2, h3, h4, h5⟩ := h
    exact ⟨by simp only [Constraint.diffStr, Ident.diffStr, bare_name_eq h1, bare_name_eq h3, columnsDiffStr_of_bare h2,
      columnsDiffStr_of_bare h4], bare_name_eq h1⟩
  · obtain ⟨h1, h2, h3⟩ := h
    exact ⟨by simp only [Constraint.diffStr, Ident.diffStr, bare_name_eq h1, h2, columnsDiffStr_of_bare h3],
      bare_name_eq h1⟩
  · exact ⟨by simp only [Constraint.diffStr, Ident.diffStr, bare_name_eq h.1, hc h.2], bare_name_eq h.1⟩

theorem diffColumns_same {tn : ObjectName} {b a : List Column} (hd : (a.map (·.name.name)).Nodup)
    (h : SameElems (b.map Column.bare) (a.map Column.bare)) : diffColumns sd tn b a = [] := by
  obtain ⟨h1, h2⟩ := sameElems_of h
  simp only [diffColumns, List.append_eq_nil_iff, List.flatMap_eq_nil_iff, List.map_eq_nil_iff]
  constructor
  · intro c hc
    obtain ⟨c', hc', e⟩ := h1 c hc
    have : findColumn c.name.name a = some c' := by
      rw [bare_name_eq (by have e := congrArg Column.name e; exact e)]
      exact find?_of_nodup (f := fun c : Column => c.name.name) hd hc'
    simp only [columnRound, this]
    exact alterColumn_of_bare e
  · simp only [onlyLeftColumn, List.filter_eq_nil_iff]
    intro c' hc'
    obtain ⟨c, hc, e⟩ := h2 c' hc'
    have : findColumn c'.name.name b ≠ none := by
      rw [findColumn, Ne, find?_none_iff (f := fun c : Column => c.name.name), not_not]
      exact List.mem_map.2 ⟨c, hc, bare_name_eq (by have e := congrArg Column.name e; exact e)⟩
    simpa [Option.isNone_iff_eq_none] using this

theorem dropConstraints_same {bs : Option Ident} {tn : ObjectName} {b a : List Constraint}
    (h : ∀ k ∈ b, ∃ k' ∈ a, k.name.name = k'.name.name) : dropConstraints sd bs tn b a = [] := by
  simp only [dropConstraints, List.flatMap_eq_nil_iff]
  intro k hk
  obtain ⟨k', hk', e⟩ := h k hk
  split
  · rename_i hn
    rw [findConstraint, find?_none_iff (f := fun c : Constraint => c.name.name)] at hn
    exact absurd (List.mem_map.2 ⟨k', hk', e.symm⟩) hn
  · rfl

theorem addConstraints_same {nv : Bool} {tn : ObjectName} {b a : List Constraint}
    (h : ∀ k ∈ a, ∃ k' ∈ b, k.name.name = k'.name.name) : addConstraints sd nv tn b a = [] := by
  have : (a.filter (fun c => (findConstraint c.name.name b).isNone)) = [] := by
    rw [List.filter_eq_nil_iff]
    intro k hk
    obtain ⟨k', hk', e⟩ := h k hk
    have : findConstraint k.name.name b ≠ none := by
      rw [findConstraint, Ne, find?_none_iff (f := fun c : Constraint => c.name.name), not_not]
      exact List.mem_map.2 ⟨k', hk', e.symm⟩
    simpa [Option.isNone_iff_eq_none] using this
  simp [addConstraints, onlyLeftConstraint, this]

theorem replaceConstraints_same {nv : Bool} {bs : Option Ident} {tn : ObjectName} {b a : List Constraint} (hd : (a.map (·.name.name)).Nodup)
    (h : ∀ k ∈ b, ∃ k' ∈ a, k.name.name = k'.name.name ∧ k.diffStr = k'.diffStr) : replaceConstraints sd nv bs tn b a = [] := by
  simp only [replaceConstraints, List.flatMap_eq_nil_iff]
  intro k hk
  obtain ⟨k', hk', e, e'⟩ := h k hk
  have : findConstraint k.name.name a = some k' := by
    rw [e]
    exact find?_of_nodup (f := fun c : Constraint => c.name.name) hd hk'
  simp [this, e']

theorem renameTable_same {n m : ObjectName} (h : n.diffStr = m.diffStr) : renameTable sd n m = [] := by
  simp [renameTable, h]

theorem TableOption.diffStr_of_bare {x y : TableOption} (h : x.bare = y.bare) : x.diffStr = y.diffStr := by
  have h1 : x.name = y.name := by have e := congrArg TableOption.name h; exact e
  have h2 : x.value.map Ident.bare = y.value.map Ident.bare := by have e := congrArg TableOption.value h; exact e
  simp only [TableOption.diffStr, h1]
  rw [← map_bare_diffStr, h2, map_bare_diffStr]

theorem changeOptions_same {tn : ObjectName} {b a : List TableOption} (hd : (a.map (·.name)).Nodup)
    (h : ∀ x ∈ b, upper x.name = s%"AUTO_INCREMENT" ∨ ∃ y ∈ a, x.name = y.name ∧ x.diffStr = y.diffStr) :
    changeOptions sd tn b a = [] := by
  simp only [changeOptions, List.flatMap_eq_nil_iff]
  intro x hx
  split
  · rfl
  · rename_i hne
    rcases h x hx with h | ⟨y, hy, e, e'⟩
    · exact absurd h hne
    · have : findOption x.name a = some y := by
        rw [e]
        exact find?_of_nodup (f := fun c : TableOption => c.name) hd hy
      simp [this, e']

theorem addOptions_same {tn : ObjectName} {b a : List TableOption}
    (h : ∀ y ∈ a, upper y.name = s%"AUTO_INCREMENT" ∨ ∃ x ∈ b, x.name = y.name) : addOptions sd tn b a = [] := by
  simp only [addOptions, List.flatMap_eq_nil_iff]
  intro y hy
  simp only [onlyLeftOption, List.mem_filter] at hy
  split
  · rfl
  · rename_i hne
    rcases h y hy.1 with h | ⟨x, hx, e⟩
    · exact absurd h hne
    · have : findOption y.name b = none := by simpa [Option.isNone_iff_eq_none] using hy.2
      rw [findOption, find?_none_iff (f := fun c : TableOption => c.name)] at this
      exact absurd (List.mem_map.2 ⟨x, hx, e⟩) this

theorem diffTable_same {nv : Bool} {t t' : CreateTable} (hd : DistinctNames t') (h : SameTable t t') :
    diffCreateTable sd nv (some t) (some t') = .err .noDifference := by
  obtain ⟨h1, h2, h3, h6⟩ := h
  obtain ⟨h4, h5⟩ := sameElems_of h3
  obtain ⟨h7, h8⟩ := sameElems_of h6
  simp only [diffCreateTable]
  split
  · rfl
  · rw [renameTable_same (ObjectName.diffStr_of_bare h1), diffColumns_same hd.1 h2,
      dropConstraints_same (fun k hk => ?_), replaceConstraints_same hd.2.1 (fun k hk => ?_),
      addConstraints_same (fun k hk => ?_), changeOptions_same hd.2.2 (fun k hk => ?_), addOptions_same (fun k hk => ?_)]
    · rfl
    · obtain ⟨x, hx, e⟩ := h8 k hk
      exact .inr ⟨x, hx, by have := congrArg TableOption.name e; exact this⟩
    · obtain ⟨y, hy, e⟩ := h7 k hk
      exact .inr ⟨y, hy, by have := congrArg TableOption.name e; exact this, TableOption.diffStr_of_bare e⟩
    · obtain ⟨k', hk', e⟩ := h5 k hk
      exact ⟨k', hk', (Constraint.diffStr_of_bare e).2.symm⟩
    · obtain ⟨k', hk', e⟩ := h4 k hk
      exact ⟨k', hk', (Constraint.diffStr_of_bare e).2, (Constraint.diffStr_of_bare e).1⟩
    · obtain ⟨k', hk', e⟩ := h4 k hk
      exact ⟨k', hk', (Constraint.diffStr_of_bare e).2⟩

theorem index_same {i i' : CreateIndex} (h : SameIndex i i') :
    i.name.diffStr = i'.name.diffStr ∧ i.diffStr = i'.diffStr := by
  have h1 : i.isUnique = i'.isUnique := by have e := congrArg CreateIndex.isUnique h; exact e
  have h2 : i.name.bare = i'.name.bare := by have e := congrArg CreateIndex.name h; exact e
  have h3 : i.tableName.bare = i'.tableName.bare := by have e := congrArg CreateIndex.tableName h; exact e
  have h4 : i.columns.map ColumnIdent.bare = i'.columns.map ColumnIdent.bare := by
    have e := congrArg CreateIndex.columns h; exact e
  refine ⟨ObjectName.diffStr_of_bare h2, ?_⟩
  simp only [CreateIndex.diffStr, h1, ObjectName.diffStr_of_bare h2, ObjectName.diffStr_of_bare h3, columnsDiffStr_of_bare h4]

theorem diff_sameSchema {b a : List MStmt} (hd : DistinctObjects (ops sd) a) (hn : ∀ t, .createTable t ∈ a → DistinctNames t)
    (h : SameSchema SameTable SameIndex b a) : diff (ops sd) (some b) (some a) = .err .noDifference :=
  diff_same (fun _ _ ht => ⟨ObjectName.diffStr_of_bare ht.1, fun hm => diffTable_same (hn _ hm) ht⟩)
    (fun _ _ hi => index_same hi) hd h

end My
/-! ## Spanner -/

namespace Sp

theorem ColumnIdent.bare_diffStr (i : ColumnIdent) : i.bare.diffStr = i.diffStr := by
  simp [ColumnIdent.bare, ColumnIdent.diffStr, Ident.bare, Ident.diffStr]

theorem columnsDiffStr_of_bare {l r : List ColumnIdent} (h : l.map ColumnIdent.bare = r.map ColumnIdent.bare) :
    columnsDiffStr l = columnsDiffStr r := by
  have : ∀ l : List ColumnIdent, (l.map ColumnIdent.bare).map ColumnIdent.diffStr = l.map ColumnIdent.diffStr := by
    intro l; simp [ColumnIdent.bare_diffStr]
  simp only [columnsDiffStr]
  rw [← this, h, this]

theorem DataType.diffStr_of_bare {a b : DataType} (h : a.bare = b.bare) : a.diffStr = b.diffStr := by
  have h1 : a.type = b.type := by have e := congrArg DataType.type h; exact e
  have h2 : a.expr.map Ident.bare = b.expr.map Ident.bare := by have e := congrArg DataType.expr h; exact e
  have h3 : a.expr.map Ident.diffStr = b.expr.map Ident.diffStr := by
    rw [← map_bare_diffStr, h2, map_bare_diffStr]
  have h4 : (a.expr = []) ↔ (b.expr = []) := by
    rw [← List.map_eq_nil_iff (f := Ident.bare), h2, List.map_eq_nil_iff]
  simp only [DataType.diffStr, h1, h3, h4]

theorem defaultDiffStr_of_bare {a b : Option Default} (h : a.map Default.bare = b.map Default.bare) :
    defaultDiffStr a = defaultDiffStr b ∧ a.isSome = b.isSome := by
  match a, b with
  | none, none => simp
  | none, some _ => simp at h
  | some _, none => simp at h
  | some ⟨x⟩, some ⟨y⟩ =>
    simp only [Option.map_some, Default.bare, Option.some.injEq, Default.mk.injEq] at h
    match x, y with
    | none, none => simp
    | none, some _ => simp at h
    | some _, none => simp at h
    | some x, some y =>
      simp only [Option.map_some, Option.some.injEq] at h
      refine ⟨?_, rfl⟩
      simp only [defaultDiffStr]
      rw [← map_bare_diffStr, h, map_bare_diffStr]

theorem optExpr_of_bare {a b : Option Expr} (h : a.map (·.map Ident.bare) = b.map (·.map Ident.bare)) :
    optExprDiffStr a = optExprDiffStr b ∧ a.isSome = b.isSome := by
  match a, b with
  | none, none => simp
  | none, some _ => simp at h
  | some _, none => simp at h
  | some x, some y =>
    simp only [Option.map_some, Option.some.injEq] at h
    refine ⟨?_, rfl⟩
    simp only [optExprDiffStr, exprDiffStr, Option.getD_some]
    rw [← map_bare_diffStr, h, map_bare_diffStr]

theorem alterColumn_of_bare {tn : ObjectName} {b a : Column} (h : b.bare = a.bare) : alterColumn sd tn b a = [] := by
  have h1 := DataType.diffStr_of_bare (by have e := congrArg Column.dataType h; exact e)
  obtain ⟨h2, h3⟩ := defaultDiffStr_of_bare (by have e := congrArg Column.default h; exact e)
  have h4 : b.notNull = a.notNull := by have e := congrArg Column.notNull h; exact e
  obtain ⟨h5, h6⟩ := optExpr_of_bare (by have e := congrArg Column.options h; exact e)
  simp only [alterColumn, h1, h2, h3, h4, h5, h6]
  cases a.default <;> cases a.options <;> simp

theorem Constraint.diffStr_of_bare {a b : Constraint} (h : a.bare = b.bare) :
    a.diffStr = b.diffStr ∧ a.name.map Ident.name = b.name.map Ident.name := by
  have hc : ∀ {l r : List Ident}, l.map Ident.bare = r.map Ident.bare → l.map Ident.diffStr = r.map Ident.diffStr := by
    intro l r h
    rw [← map_bare_diffStr, h, map_bare_diffStr]
  cases a <;> cases b <;> simp only [Constraint.bare, reduceCtorEq, Constraint.foreignKey.injEq, Constraint.check.injEq] at h
  · obtain ⟨h1, h2, h3, h4⟩ := h
    refine ⟨by simp only [Constraint.diffStr, Ident.diffStr, bare_name_eq h1, bare_name_eq h3, columnsDiffStr_of_bare h2,
      columnsDiffStr_of_bare h4], ?_⟩
    simp [Constraint.name, bare_name_eq h1]
  · rename_i n e m f
    obtain ⟨h1, h2⟩ := h
    match n, m with
    | none, none => exact ⟨by simp only [Constraint.diffStr, hc h2], rfl⟩
    | none, some _ => simp at h1
    | some _, none => simp at h1
    | some x, some y =>
      have h3 : x.name = y.name := bare_name_eq (by simpa using h1)
      exact ⟨by simp only [Constraint.diffStr, Ident.diffStr, h3, hc h2], by simp [Constraint.name, h3]⟩

theorem diffColumns_same {tn : ObjectName} {b a : List Column} (hd : (a.map (·.name.name)).Nodup)
    (h : SameElems (b.map Column.bare) (a.map Column.bare)) : diffColumns sd tn b a = [] := by
  obtain ⟨h1, h2⟩ := sameElems_of h
  simp only [diffColumns, List.append_eq_nil_iff, List.flatMap_eq_nil_iff, List.map_eq_nil_iff]
  constructor
  · intro c hc
    obtain ⟨c', hc', e⟩ := h1 c hc
    have : findColumn c.name.name a = some c' := by
      rw [bare_name_eq (by have e := congrArg Column.name e; exact e)]
      exact find?_of_nodup (f := fun c : Column => c.name.name) hd hc'
    simp only [columnRound, this]
    exact alterColumn_of_bare e
  · simp only [onlyLeftColumn, List.filter_eq_nil_iff]
    intro c' hc'
    obtain ⟨c, hc, e⟩ := h2 c' hc'
    have : findColumn c'.name.name b ≠ none := by
      rw [findColumn, Ne, find?_none_iff (f := fun c : Column => c.name.name), not_not]
      exact List.mem_map.2 ⟨c, hc, bare_name_eq (by have e := congrArg Column.name e; exact e)⟩
    simpa [Option.isNone_iff_eq_none] using this

theorem nameStr_of {k : Constraint} (h : k.name ≠ none) : ∃ n, k.nameStr = .ok n ∧ k.name.map Ident.name = some n := by
  cases hk : k.name with
  | none => exact absurd hk h
  | some n => exact ⟨n.name, by simp [Constraint.nameStr, hk], rfl⟩

theorem findConstraint_named {l : List Constraint} (hnn : ∀ k ∈ l, k.name ≠ none)
    (hd : (l.map (fun k => k.name.map Ident.name)).Nodup) {k : Constraint} (hk : k ∈ l) {n : Str}
    (hn : k.name.map Ident.name = some n) : findConstraint n l = .ok (some k) := by
  induction l with
  | nil => simp at hk
  | cons x l ih =>
    obtain ⟨m, hm, hm'⟩ := nameStr_of (hnn x (by simp))
    simp only [List.map_cons, List.nodup_cons] at hd
    simp only [findConstraint, hm, Res.ok_bind]
    rcases List.mem_cons.1 hk with rfl | hk
    · rw [hn] at hm'
      simp at hm'
      simp [hm']
    · have : m ≠ n := by
        rintro rfl
        exact hd.1 (by rw [hm', ← hn]; exact List.mem_map_of_mem hk)
      simp only [this, if_false]
      exact ih (fun k hk => hnn k (by simp [hk])) hd.2 hk

theorem flatMapRes_nil {α β : Type} {f : α → Res (List β)} {l : List α} (h : ∀ x ∈ l, f x = .ok []) :
    flatMapRes f l = .ok [] := by
  induction l with
  | nil => rfl
  | cons x l ih => simp [flatMapRes, h x (by simp), ih (fun y hy => h y (by simp [hy]))]

theorem onlyLeftConstraint_same {acc l r : List Constraint} (h : ∀ k ∈ l, ∃ n k', k.nameStr = .ok n ∧ findConstraint n r = .ok (some k')) :
    onlyLeftConstraint r acc l = .ok acc := by
  induction l with
  | nil => rfl
  | cons x l ih =>
    obtain ⟨n, k', h1, h2⟩ := h x (by simp)
    simp [onlyLeftConstraint, h1, h2, ih (fun y hy => h y (by simp [hy]))]

theorem findConstraint_isSome {l : List Constraint} (hnn : ∀ k ∈ l, k.name ≠ none) {k : Constraint} (hk : k ∈ l) {n : Str}
    (hn : k.name.map Ident.name = some n) : ∃ k', findConstraint n l = .ok (some k') := by
  induction l with
  | nil => simp at hk
  | cons x l ih =>
    obtain ⟨m, hm, hm'⟩ := nameStr_of (hnn x (by simp))
    simp only [findConstraint, hm, Res.ok_bind]
    by_cases e : m = n
    · exact ⟨x, by simp [e]⟩
    · simp only [e, if_false]
      rcases List.mem_cons.1 hk with rfl | hk
      · rw [hn] at hm'
        simp at hm'
        exact absurd hm'.symm e
      · exact ih (fun k hk => hnn k (by simp [hk])) hk

theorem renameTable_same {n m : ObjectName} (h : n.diffStr = m.diffStr) : renameTable sd n m = [] := by
  simp [renameTable, h]

theorem TableOption.diffStr_of_bare {x y : TableOption} (h : x.bare = y.bare) : x.diffStr = y.diffStr := by
  have h1 : x.name = y.name := by have e := congrArg TableOption.name h; exact e
  have h2 : x.value.map Ident.bare = y.value.map Ident.bare := by have e := congrArg TableOption.value h; exact e
  simp only [TableOption.diffStr, exprDiffStr, h1]
  rw [← map_bare_diffStr, h2, map_bare_diffStr]

theorem TableOption.bare_diffStr (x : TableOption) : x.bare.diffStr = x.diffStr :=
  TableOption.diffStr_of_bare (by simp [TableOption.bare, Ident.bare])

theorem diffTable_same {nv : Bool} {t t' : CreateTable} (hd : DistinctNames t') (h : SameTable t t') :
    diffCreateTable sd nv (some t) (some t') = .err .noDifference := by
  obtain ⟨h1, h2, h3, h6, h7⟩ := h
  obtain ⟨h4, h5⟩ := sameElems_of h3
  have ho : optionsDiffStr t.options = optionsDiffStr t'.options := by
    have : ∀ l : List TableOption, (l.map TableOption.bare).map TableOption.diffStr = l.map TableOption.diffStr := by
      intro l; simp [TableOption.bare_diffStr]
    simp only [optionsDiffStr]
    rw [← this, h6, this]
  have hp : optionDiffStr t.rowDeletionPolicy = optionDiffStr t'.rowDeletionPolicy := by
    match hx : t.rowDeletionPolicy, hy : t'.rowDeletionPolicy with
    | none, none => rfl
    | none, some _ => simp [hx, hy] at h7
    | some _, none => simp [hx, hy] at h7
    | some x, some y => exact TableOption.diffStr_of_bare (by simpa [hx, hy] using h7)
  have hnn : ∀ k ∈ t.constraints, k.name ≠ none := by
    intro k hk he
    obtain ⟨k', hk', e⟩ := h4 k hk
    have := (Constraint.diffStr_of_bare e).2
    rw [he] at this
    exact hd.2.2 k' hk' (by simpa using this.symm)
  have hfind : ∀ k ∈ t.constraints, ∃ n k', k.nameStr = .ok n ∧ findConstraint n t'.constraints = .ok (some k') ∧
      k.diffStr = k'.diffStr := by
    intro k hk
    obtain ⟨k', hk', e⟩ := h4 k hk
    obtain ⟨e1, e2⟩ := Constraint.diffStr_of_bare e
    obtain ⟨n, hn, hn'⟩ := nameStr_of (hnn k hk)
    exact ⟨n, k', hn, findConstraint_named hd.2.2 hd.2.1 hk' (by rw [← e2, hn']), e1⟩
  simp only [diffCreateTable, ho, ne_eq, not_true_eq_false, if_false]
  split
  · rfl
  · rw [flatMapRes_nil (l := t.constraints) (f := dropConstraint sd _ _) (fun k hk => ?_),
      flatMapRes_nil (l := t.constraints) (f := replaceConstraint sd _ _ _) (fun k hk => ?_),
      onlyLeftConstraint_same (fun k hk => ?_),
      renameTable_same (ObjectName.diffStr_of_bare h1), diffColumns_same hd.1 h2]
    · simp [diffRowDeletionPolicy, hp]
    · obtain ⟨n, hn, hn'⟩ := nameStr_of (hd.2.2 k hk)
      obtain ⟨k', hk', e⟩ := h5 k hk
      obtain ⟨x, hx⟩ := findConstraint_isSome hnn hk' (n := n) (by rw [(Constraint.diffStr_of_bare e).2, hn'])
      exact ⟨n, x, hn, hx⟩
    · obtain ⟨n, k', e1, e2, e3⟩ := hfind k hk
      simp [replaceConstraint, e1, e2, e3]
    · obtain ⟨n, k', e1, e2, e3⟩ := hfind k hk
      simp [dropConstraint, e1, e2]

theorem index_same {i i' : CreateIndex} (h : SameIndex i i') :
    i.name.diffStr = i'.name.diffStr ∧ i.diffStr = i'.diffStr := by
  have h1 : i.isUnique = i'.isUnique := by have e := congrArg CreateIndex.isUnique h; exact e
  have h2 : i.name.bare = i'.name.bare := by have e := congrArg CreateIndex.name h; exact e
  have h3 : i.tableName.bare = i'.tableName.bare := by have e := congrArg CreateIndex.tableName h; exact e
  have h4 : i.columns.map ColumnIdent.bare = i'.columns.map ColumnIdent.bare := by
    have e := congrArg CreateIndex.columns h; exact e
  refine ⟨ObjectName.diffStr_of_bare h2, ?_⟩
  simp only [CreateIndex.diffStr, h1, ObjectName.diffStr_of_bare h2, ObjectName.diffStr_of_bare h3, columnsDiffStr_of_bare h4]

theorem diff_sameSchema {b a : List SStmt} (hd : DistinctObjects (ops sd) a) (hn : ∀ t, .createTable t ∈ a → DistinctNames t)
    (h : SameSchema SameTable SameIndex b a) : diff (ops sd) (some b) (some a) = .err .noDifference :=
  diff_same (fun _ _ ht => ⟨ObjectName.diffStr_of_bare ht.1, fun hm => diffTable_same (hn _ hm) ht⟩)
    (fun _ _ hi => index_same hi) hd h

end Sp
end Ddl
