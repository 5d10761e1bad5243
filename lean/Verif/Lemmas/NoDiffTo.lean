import Verif.Lemmas.NoDiff

/-! # Schemas that are alike have no difference (CockroachDB, MySQL, Spanner)

For these directions of the theorems in `Verif.Lemmas.NoDiff`, definitions need not be told from their texts. -/

namespace Ddl
open Spec
set_option autoImplicit false

/-! ## CockroachDB -/

namespace Crdb
variable {sd : Str → Str → Str}

theorem alterColumn_of_alike {tn : ObjectName} {b a : Column} (h : b.Alike a) : alterColumn sd tn b a = [] := by
  obtain ⟨-, e1, e2, e3⟩ := h
  have h1 := DataType.diffStr_of_bare e1
  obtain ⟨h2, h3⟩ := defaultDiffStr_of_bare e2
  simp only [alterColumn, h1, h2, h3, e3]
  cases a.default <;> cases a.notNull <;> simp

theorem constraint_of_alike {b a : Constraint} (h : b.Alike a) : b.diffStr = a.diffStr := by
  obtain ⟨hn, hd⟩ := h
  cases b <;> cases a <;> simp only [Run.defOf, Run.Def.constraint.injEq, Run.Def.index.injEq, reduceCtorEq, Constraint.bare,
    Constraint.primaryKey.injEq, Constraint.foreignKey.injEq, Constraint.check.injEq] at hd <;> simp only [Constraint.name] at hn
  · simp only [Constraint.diffStr, Ident.diffStr, hn, columnsDiffStr_of_bare hd.2]
  · obtain ⟨-, h2, h3, h4, h5⟩ := hd
    simp only [Constraint.diffStr, Ident.diffStr, hn, columnsDiffStr_of_bare h2, bare_name_eq h3, columnsDiffStr_of_bare h4, h5]
  · obtain ⟨h1, h2, h3, h4⟩ := hd
    simp only [Constraint.diffStr, Ident.diffStr, hn, columnsDiffStr_of_bare h3, h1, h2, h4]
  · have : ∀ {l r : List Ident}, l.map Ident.bare = r.map Ident.bare → l.map Ident.diffStr = r.map Ident.diffStr := by
      intro l r h
      rw [← map_bare_diffStr, h, map_bare_diffStr]
    simp only [Constraint.diffStr, Ident.diffStr, hn, this hd.2]

theorem constraints_of_alike {nv : Bool} {tn : ObjectName} {l l' : List Constraint} (hd : (l'.map fun c => c.name.name).Nodup)
    (h : Matched Constraint.Alike l l') :
    dropConstraints sd tn l l' = [] ∧ replaceConstraints sd nv tn l l' = [] ∧ addConstraints sd nv tn l l' = [] := by
  rw [matched_iff (f := fun c : Constraint => c.name.name) hd (fun _ _ h => h.1)] at h
  obtain ⟨h, h'⟩ := h
  simp only [dropConstraints, replaceConstraints, List.flatMap_eq_nil_iff]
  refine ⟨fun x hx => ?_, fun x hx => ?_, ?_⟩
  · obtain ⟨a, hf, -⟩ := h x hx
    rw [show findConstraint x.name.name l' = some a from hf]
  · obtain ⟨a, hf, r⟩ := h x hx
    rw [show findConstraint x.name.name l' = some a from hf]
    simp [constraint_of_alike r]
  · rw [addConstraints, List.map_eq_nil_iff, List.eq_nil_iff_forall_not_mem]
    intro x
    rw [(Run.onlyLeft_iff (l := l') (r := l) hd).2, ← find?_congr_key (key := fun c : Constraint => c.name.name)]
    rintro ⟨hx, e⟩
    have := h' x hx
    rw [e] at this
    cases this

theorem columns_of_alike {tn : ObjectName} {l l' : List Column} (hd : (l'.map fun c => c.name.name).Nodup)
    (h1 : ∀ c ∈ l, (∃ c' ∈ l', c.Alike c') ∨ (c.IsShard ∧ ∀ c' ∈ l', c'.name.name ≠ c.name.name)) (h2 : ∀ c' ∈ l', ∃ c ∈ l, c.Alike c') :
    diffColumns sd tn l l' = [] := by
  simp only [diffColumns, List.append_eq_nil_iff, List.map_eq_nil_iff, onlyLeftColumn, List.filter_eq_nil_iff, List.flatMap_eq_nil_iff]
  refine ⟨fun c hc => ?_, fun c' hc' => ?_⟩
  · unfold columnRound
    rcases h1 c hc with ⟨c', hc', r⟩ | ⟨hs, hno⟩
    · have : findColumn c.name.name l' = some c' := by
        rw [r.1]
        exact find?_of_nodup (f := fun c : Column => c.name.name) hd hc'
      rw [this]
      exact alterColumn_of_alike r
    · have : findColumn c.name.name l' = none := by
        rw [findColumn, List.find?_eq_none]
        intro x hx
        simpa using hno x hx
      rw [this]
      obtain ⟨hv, a, ha, ht⟩ := hs
      simp only [hv, ha, ht, Option.any_some, decide_true, and_self, if_true]
  · obtain ⟨c, hc, r⟩ := h2 c' hc'
    have : (findColumn c'.name.name l).isSome := by
      rw [findColumn, List.find?_isSome]
      exact ⟨c, hc, by simp [r.1]⟩
    cases hf : findColumn c'.name.name l <;> simp [hf] at this ⊢

theorem table_of_alike {t t' : CreateTable} (hd : DistinctNames t') (h : t.Alike t') :
    diffCreateTable sd false (some t) (some t') = .err .noDifference := by
  have hr : renameTable sd t.name t'.name = [] := by simp [renameTable, h.name]
  obtain ⟨r2, r4, r5⟩ := constraints_of_alike (sd := sd) (nv := false) (tn := renamedName t.name t'.name) hd.2 h.constraints
  simp only [diffCreateTable]
  split
  · rfl
  · rw [hr, columns_of_alike hd.1 h.stays h.old, r2, r4, r5]
    rfl

theorem noDiff_of_alike {b a : List CStmt} (da : DistinctObjects (ops sd) a) (hn : ∀ t, .createTable t ∈ a → DistinctNames t)
    (h : SameSchema CreateTable.Alike CreateIndex.Alike b a) : diff (ops sd) (some b) (some a) = .err .noDifference := by
  refine noDiff_to da (fun t t' r => r.name) (fun i i' r => r.name) (fun t t' _ ht' r => table_of_alike (hn t' ht') r) ?_ h
  rintro i i' - - ⟨hn, h2, h3⟩
  simp only [Run.indexOf, Run.Def.index.injEq] at h3
  obtain ⟨h3, h4, h5, h6⟩ := h3
  show i.diffStr = i'.diffStr
  simp only [CreateIndex.diffStr, Ident.diffStr, hn, h2, h3, h4, columnsDiffStr_of_bare h5, h6]

end Crdb

/-! ## MySQL -/

namespace My
variable {sd : Str → Str → Str}

theorem constraint_of_alike {b a : Constraint} (h : b.Alike a) : b.diffStr = a.diffStr := by
  rw [← noAction_diffStr, ← noAction_diffStr a]
  exact (Constraint.diffStr_of_bare h).1

theorem constraints_of_alike {nv : Bool} {bs : Option Ident} {tn : ObjectName} {l l' : List Constraint}
    (hd : (l'.map fun c => c.name.name).Nodup) (h : Matched Constraint.Alike l l') :
    dropConstraints sd bs tn l l' = [] ∧ replaceConstraints sd nv bs tn l l' = [] ∧ addConstraints sd nv tn l l' = [] := by
  rw [matched_iff (f := fun c : Constraint => c.name.name) hd (fun _ _ h => alike_name h)] at h
  obtain ⟨h, h'⟩ := h
  simp only [dropConstraints, replaceConstraints, List.flatMap_eq_nil_iff]
  refine ⟨fun x hx => ?_, fun x hx => ?_, ?_⟩
  · obtain ⟨a, hf, -⟩ := h x hx
    rw [show findConstraint x.name.name l' = some a from hf]
  · obtain ⟨a, hf, r⟩ := h x hx
    rw [show findConstraint x.name.name l' = some a from hf]
    simp [constraint_of_alike r]
  · rw [addConstraints, List.map_eq_nil_iff, List.eq_nil_iff_forall_not_mem]
    intro x
    rw [(Run.onlyLeft_iff (l := l') (r := l) hd).2, ← find?_congr_key (key := fun c : Constraint => c.name.name)]
    rintro ⟨hx, e⟩
    have := h' x hx
    rw [e] at this
    cases this

theorem options_of_alike {tn : ObjectName} {l l' : List TableOption} (hd : (l'.map (·.name)).Nodup)
    (h1 : ∀ o ∈ l, o.IsCounter ∨ (∃ o' ∈ l', o.bare = o'.bare) ∨ ∀ o' ∈ l', o'.name ≠ o.name)
    (h2 : ∀ o' ∈ l', o'.IsCounter ∨ ∃ o ∈ l, o.bare = o'.bare) :
    changeOptions sd tn l l' = [] ∧ addOptions sd tn l l' = [] := by
  have hbn : ∀ {o o' : TableOption}, o.bare = o'.bare → o.name = o'.name := fun h => by have e := congrArg TableOption.name h; exact e
  constructor
  · simp only [changeOptions, List.flatMap_eq_nil_iff]
    intro o ho
    by_cases hc : upper o.name = s%"AUTO_INCREMENT"
    · rw [if_pos hc]
    · rw [if_neg hc]
      rcases h1 o ho with h | ⟨o', ho', e⟩ | h
      · exact absurd h hc
      · have : findOption o.name l' = some o' := by
          rw [hbn e]
          exact find?_of_nodup (f := fun o : TableOption => o.name) hd ho'
        rw [this]
        have hs : o.diffStr = o'.diffStr := by
          have e' := e
          simp only [TableOption.bare, TableOption.mk.injEq] at e'
          simp only [TableOption.diffStr, e'.1]
          rw [← map_bare_diffStr, e'.2, map_bare_diffStr]
        simp [hs]
      · have : findOption o.name l' = none := by
          rw [findOption, List.find?_eq_none]
          intro x hx
          simpa using h x hx
        rw [this]
  · simp only [addOptions, List.flatMap_eq_nil_iff, onlyLeftOption, List.mem_filter, and_imp]
    intro o ho hx
    by_cases hc : upper o.name = s%"AUTO_INCREMENT"
    · rw [if_pos hc]
    · rcases h2 o ho with h | ⟨o', ho', e⟩
      · exact absurd h hc
      · have : (findOption o.name l).isSome := by
          rw [findOption, List.find?_isSome]
          exact ⟨o', ho', by simp [hbn e]⟩
        cases hf : findOption o.name l <;> simp [hf] at this hx

theorem table_of_alike {t t' : CreateTable} (hd : DistinctNames t') (h : t.Alike t') :
    diffCreateTable sd false (some t) (some t') = .err .noDifference := by
  have hr : renameTable sd t.name t'.name = [] := by simp [renameTable, h.name]
  obtain ⟨r2, r4, r5⟩ := constraints_of_alike (sd := sd) (nv := false) (bs := t.name.schema) (tn := renamedName t.name t'.name) hd.2.1
    h.constraints
  obtain ⟨r6, r7⟩ := options_of_alike (sd := sd) (tn := renamedName t.name t'.name) hd.2.2 h.stays h.old
  simp only [diffCreateTable]
  split
  · rfl
  · rw [hr, diffColumns_same hd.1 h.columns, r2, r4, r5, r6, r7]
    rfl

theorem noDiff_of_alike {b a : List MStmt} (da : DistinctObjects (ops sd) a) (hn : ∀ t, .createTable t ∈ a → DistinctNames t)
    (h : SameSchema CreateTable.Alike CreateIndex.Alike b a) : diff (ops sd) (some b) (some a) = .err .noDifference := by
  refine noDiff_to da (fun t t' r => r.name) (fun i i' r => r.name) (fun t t' _ ht' r => table_of_alike (hn t' ht') r) ?_ h
  rintro i i' - - ⟨hn, h2, h3, h4⟩
  show i.diffStr = i'.diffStr
  simp only [CreateIndex.diffStr, hn, h2, h3, columnsDiffStr_of_bare h4]

end My

/-! ## Spanner -/

namespace Sp
variable {sd : Str → Str → Str}

theorem constraints_of_alike {tn : ObjectName} {l l' : List Constraint} (nl : ∀ c ∈ l, c.name ≠ none) (nl' : ∀ c ∈ l', c.name ≠ none)
    (hd : (l'.map Constraint.key).Nodup) (h : SameElems (l.map Constraint.bare) (l'.map Constraint.bare)) :
    flatMapRes (dropConstraint sd tn l') l = .ok [] ∧ flatMapRes (replaceConstraint sd false tn l') l = .ok [] ∧
      onlyLeftConstraint l [] l' = .ok [] := by
  rw [sameElems_matched, matched_iff (f := Constraint.key) hd (fun _ _ h => key_bare h)] at h
  obtain ⟨h1, h2⟩ := h
  refine ⟨flatMapRes_nil fun x hx => ?_, flatMapRes_nil fun x hx => ?_, ?_⟩
  · obtain ⟨a, hf, -⟩ := h1 x hx
    simp only [dropConstraint, Run.nameStr_eq (nl x hx), Run.findConstraint_eq nl', Res.ok_bind, hf]
  · obtain ⟨a, hf, r⟩ := h1 x hx
    simp only [replaceConstraint, Run.nameStr_eq (nl x hx), Run.findConstraint_eq nl', Res.ok_bind, hf]
    rw [if_neg (by rw [(Constraint.diffStr_of_bare r).1]; simp)]
  · rw [Run.onlyLeft_eq nl nl' [] (by simp) (by simpa using hd)]
    simp only [List.nil_append, Res.ok.injEq, List.filter_eq_nil_iff]
    intro x hx
    have := h2 x hx
    rw [List.find?_isSome] at this
    simpa using this

theorem table_of_alike {t t' : CreateTable} (hd : DistinctNames t') (h : t.Alike t') :
    diffCreateTable sd false (some t) (some t') = .err .noDifference := by
  have hr : renameTable sd t.name t'.name = [] := by simp [renameTable, h.name]
  have ho : optionsDiffStr t.options = optionsDiffStr t'.options := h.options
  have nl : ∀ c ∈ t.constraints, c.name ≠ none := by
    intro c hc hcn
    obtain ⟨c', hc', e⟩ := (sameElems_matched.1 h.constraints).1 c hc
    have := (Constraint.diffStr_of_bare e).2
    rw [hcn] at this
    exact hd.2.2 c' hc' (by simpa using this.symm)
  obtain ⟨r1, r2, r3⟩ := constraints_of_alike (sd := sd) (tn := renamedName t.name t'.name) nl hd.2.2 (key_nodup hd) h.constraints
  have hp : diffRowDeletionPolicy sd (renamedName t.name t'.name) t.rowDeletionPolicy t'.rowDeletionPolicy = [] := by
    have hp := h.policy
    unfold diffRowDeletionPolicy
    cases hb : t.rowDeletionPolicy with
    | none => cases ha : t'.rowDeletionPolicy with
      | none => simp
      | some a => simp [hb, ha] at hp
    | some b => cases ha : t'.rowDeletionPolicy with
      | none => simp [hb, ha] at hp
      | some a =>
        simp only [hb, ha, Option.map_some, Option.some.injEq] at hp
        simp [show optionDiffStr (some b) = optionDiffStr (some a) from TableOption.diffStr_of_bare hp]
  simp only [diffCreateTable]
  rw [if_neg (by simp [ho])]
  split
  · rfl
  · rw [r1, r2, r3]
    simp only [Res.ok_bind, hr, diffColumns_same hd.1 h.columns, hp]
    rfl

theorem noDiff_of_alike {b a : List SStmt} (da : DistinctObjects (ops sd) a) (hn : ∀ t, .createTable t ∈ a → DistinctNames t)
    (h : SameSchema CreateTable.Alike CreateIndex.Alike b a) : diff (ops sd) (some b) (some a) = .err .noDifference := by
  refine noDiff_to da (fun t t' r => r.name) (fun i i' r => r.name) (fun t t' _ ht' r => table_of_alike (hn t' ht') r) ?_ h
  rintro i i' - - ⟨hn, h2, h3, h4⟩
  show i.diffStr = i'.diffStr
  simp only [CreateIndex.diffStr, hn, h2, h3, columnsDiffStr_of_bare h4]

end Sp
end Ddl
