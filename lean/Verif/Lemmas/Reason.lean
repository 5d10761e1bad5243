import Verif.Spec.Reason
import Verif.Lemmas.Once
import Verif.Lemmas.OnceTables
import Verif.Lemmas.Shape

/-! # Every statement of a migration has a reason -/

namespace Ddl
open Spec
set_option autoImplicit false

theorem differs_none {K : Type} {name text : K → Str} {k : K} {l : List K} (h : l.find? (fun c => name c == name k) = none) : Differs name text k l :=
  .inl fun x hx e => by simpa [e] using List.find?_eq_none.1 h x hx

theorem differs_some {K : Type} {name text : K → Str} {k x : K} {l : List K} (h : l.find? (fun c => name c == name k) = some x) (ht : text x ≠ text k) :
    Differs name text k l := by
  obtain ⟨h1, h2⟩ := find?_some_mem h
  exact .inr ⟨x, h1, h2, ht⟩

section
variable {T I A N : Type} {o : Ops T I A N} {w : Reasons T I A N}

theorem tableDefs_mem {l : List (Stmt T I A N)} {t : T} (h : t ∈ tableDefs l) : Stmt.createTable t ∈ l := by
  simp only [tableDefs, List.mem_filterMap] at h
  obtain ⟨s, hs, h⟩ := h
  cases s <;> simp_all

theorem indexDefs_mem {l : List (Stmt T I A N)} {i : I} : i ∈ indexDefs l ↔ Stmt.createIndex i ∈ l := by
  simp only [indexDefs, List.mem_filterMap]
  constructor
  · rintro ⟨s, hs, h⟩
    cases s <;> simp_all
  · exact fun h => ⟨_, h, rfl⟩

/-- The reason for a statement in the difference of two tables. -/
def TableReason (o : Ops T I A N) (w : Reasons T I A N) (t t' : T) : Stmt T I A N → Prop
  | .createTable x => x = t' ∧ w.recreate t t'
  | .dropTable _ e n => e = false ∧ n = o.tableName t ∧ w.recreate t t'
  | .createIndex i => w.createIndex t t' i
  | .dropIndex _ e n => e = false ∧ w.dropIndex t t' n
  | .alterTable x => w.alter t t' x

theorem diff_reason {b a r : List (Stmt T I A N)}
    (ht : ∀ t t' l, t ∈ tableDefs b → t' ∈ tableDefs a → (o.tableName t).diffStr = (o.tableName t').diffStr → o.diffTable t t' = .ok l → ∀ s ∈ l, TableReason o w t t' s)
    (h : diff o (some b) (some a) = .ok r) : ∀ s ∈ r, HasReason o w b a s := by
  obtain ⟨ds, cs, rs, hd, rfl, hc, hr, rfl, -⟩ := diff_ok h
  intro s hs
  simp only [List.mem_append, List.mem_flatten] at hs
  have hno : ∀ (x : Stmt T I A N) (l : List (Stmt T I A N)) (y : Stmt T I A N), (findStmt o x l).isNone = true → y ∈ l → sameType x y = true →
      nameForDiff o x ≠ nameForDiff o y := by
    intro x l y hf hy hst hn
    rw [Option.isNone_iff_eq_none, findStmt, List.find?_eq_none] at hf
    exact hf y hy (by simp [hst, hn])
  rcases hs with (hs | hs) | ⟨l, hl, hs⟩
  · obtain ⟨x, hx, hxd⟩ := forall₂_mem_right hd s hs
    simp only [onlyLeftStmt, List.mem_filter] at hx
    cases hxd with
    | table t =>
      refine ⟨rfl, t, mem_tableDefs hx.1, rfl, .inl fun t' ht' e => ?_⟩
      exact hno _ _ _ hx.2 (tableDefs_mem ht') rfl e.symm
    | index i =>
      refine ⟨rfl, .inl ⟨i, indexDefs_mem.2 hx.1, rfl, .inl fun i' hi' e => ?_⟩⟩
      exact hno _ _ _ hx.2 (indexDefs_mem.1 hi') rfl e.symm
  · have hx := hs
    simp only [onlyLeftStmt, List.mem_filter] at hx
    have hcs := hc s hs
    cases s with
    | createTable t => exact ⟨mem_tableDefs hx.1, .inl fun t' ht' e => hno _ _ _ hx.2 (tableDefs_mem ht') rfl e.symm⟩
    | createIndex i => exact .inl ⟨indexDefs_mem.2 hx.1, .inl fun i' hi' e => hno _ _ _ hx.2 (indexDefs_mem.1 hi') rfl e.symm⟩
    | _ => simp [creates] at hcs
  · obtain ⟨x, hx, hxl⟩ := forall₂_mem_right hr l hl
    rcases alterOf_ok hxl with rfl | ⟨t, t', rfl, h1, h2, h3⟩ | ⟨i, i', rfl, h1, h2, h3, rfl⟩
    · simp at hs
    · have hb := mem_tableDefs hx
      have ha := mem_tableDefs h1
      have := ht t t' l hb ha h2 h3 s hs
      cases s with
      | createTable x =>
        obtain ⟨rfl, hw⟩ := this
        exact ⟨ha, .inr ⟨t, hb, h2, hw⟩⟩
      | dropTable c e n =>
        obtain ⟨rfl, rfl, hw⟩ := this
        exact ⟨rfl, t, hb, rfl, .inr ⟨t', ha, h2.symm, hw⟩⟩
      | createIndex i => exact .inr ⟨t, hb, t', ha, h2, this⟩
      | dropIndex c e n => exact ⟨this.1, .inr ⟨t, hb, t', ha, h2, this.2⟩⟩
      | alterTable x => exact ⟨t, hb, t', ha, h2, this⟩
    · simp only [List.mem_cons, List.not_mem_nil, or_false] at hs
      rcases hs with rfl | rfl
      · exact ⟨rfl, .inl ⟨i, indexDefs_mem.2 hx, rfl, .inr ⟨i', indexDefs_mem.2 h1, h2.symm, h3.symm⟩⟩⟩
      · exact .inl ⟨indexDefs_mem.2 h1, .inr ⟨i, indexDefs_mem.2 hx, h2, h3⟩⟩

end

/-! ## PostgreSQL -/

namespace Pg
variable {sd : Str → Str → Str} {t t' : CreateTable}

theorem alterColumn_reason {c₀ c : Column} (h0 : c₀ ∈ t.columns) (h1 : c ∈ t'.columns) (hn : c.name.name = c₀.name.name) :
    ∀ x ∈ alterColumn sd t'.name c₀ c, alterReason t t' x := by
  intro x hx
  simp only [alterColumn, List.mem_append] at hx
  rcases hx with (hx | hx) | hx <;> split_ifs at hx <;> simp only [List.mem_singleton, List.not_mem_nil] at hx <;> subst hx <;>
    refine ⟨rfl, c₀, h0, c, h1, hn.symm, rfl, ?_⟩ <;> simp_all

theorem diffColumns_reason : ∀ x ∈ diffColumns sd t'.name t.columns t'.columns, alterReason t t' x := by
  intro x hx
  simp only [diffColumns, List.mem_append, List.mem_flatMap, List.mem_map] at hx
  rcases hx with ⟨c₀, h0, hx⟩ | ⟨c, hc, rfl⟩
  · unfold columnRound at hx
    split at hx
    · rename_i hf
      simp only [List.mem_singleton] at hx
      subst hx
      exact ⟨rfl, ⟨c₀, h0, rfl⟩, fun c hc e => by simpa [e] using List.find?_eq_none.1 hf c hc⟩
    · rename_i c hf
      obtain ⟨h1, h2⟩ := find?_some_mem (f := fun c : Column => c.name.name) hf
      exact alterColumn_reason h0 h1 h2 x hx
  · simp only [onlyLeftColumn, List.mem_filter, Option.isNone_iff_eq_none] at hc
    exact ⟨rfl, hc.1, fun c₀ h0 e => by simpa [e] using List.find?_eq_none.1 hc.2 c₀ h0⟩

theorem table_reason (hn : t.name.diffStr = t'.name.diffStr) {l : List PStmt} (h : (ops sd).diffTable t t' = .ok l) :
    ∀ s ∈ l, TableReason (ops sd) reasons t t' s := by
  simp only [ops, diffCreateTable] at h
  split at h
  · cases h
  have h1 : renamedName t.name t'.name = t'.name := by simp [renamedName, hn]
  have h2 : renameTable sd t.name t'.name = [] := by simp [renameTable, hn]
  rw [h1, h2] at h
  split at h
  · cases h
  cases h
  intro s hs
  simp only [List.nil_append, List.mem_map, List.mem_append] at hs
  obtain ⟨x, hx, rfl⟩ := hs
  change alterReason t t' x
  rcases hx with ((hx | hx) | hx) | hx
  · simp only [dropConstraints, List.mem_flatMap] at hx
    obtain ⟨k, hk, hx⟩ := hx
    split at hx
    · rename_i hf
      simp only [List.mem_singleton] at hx
      subst hx
      exact ⟨rfl, k, hk, rfl, differs_none (name := fun k : Constraint => k.name.name) hf⟩
    · simp at hx
  · exact diffColumns_reason x hx
  · simp only [replaceConstraints, List.mem_flatMap] at hx
    obtain ⟨k, hk, hx⟩ := hx
    split at hx
    · simp at hx
    · rename_i k' hf
      split_ifs at hx with hne
      · obtain ⟨m1, m2⟩ := find?_some_mem (f := fun c : Constraint => c.name.name) hf
        simp only [List.mem_cons, List.not_mem_nil, or_false] at hx
        rcases hx with rfl | rfl
        · exact ⟨rfl, k, hk, rfl, .inr ⟨k', m1, m2, Ne.symm hne⟩⟩
        · exact ⟨rfl, rfl, m1, .inr ⟨k, hk, m2.symm, hne⟩⟩
      · simp at hx
  · simp only [addConstraints, List.mem_map] at hx
    obtain ⟨k, hk, rfl⟩ := hx
    obtain ⟨m1, m2⟩ := onlyLeftConstraint_spec.1 k hk
    exact ⟨rfl, rfl, m1, .inl fun x hx e => m2 (List.mem_map.2 ⟨x, hx, e⟩)⟩

end Pg

/-! ## CockroachDB -/

namespace Crdb
variable {sd : Str → Str → Str} {t t' : CreateTable}

theorem alterColumn_reason {c₀ c : Column} (h0 : c₀ ∈ t.columns) (h1 : c ∈ t'.columns) (hn : c.name.name = c₀.name.name) :
    ∀ x ∈ alterColumn sd t'.name c₀ c, alterReason t t' x := by
  intro x hx
  simp only [alterColumn, List.mem_append] at hx
  rcases hx with (hx | hx) | hx <;> split_ifs at hx <;> simp only [List.mem_singleton, List.not_mem_nil] at hx <;> subst hx <;>
    refine ⟨rfl, c₀, h0, c, h1, hn.symm, rfl, ?_⟩ <;> simp_all

theorem diffColumns_reason : ∀ x ∈ diffColumns sd t'.name t.columns t'.columns, alterReason t t' x := by
  intro x hx
  simp only [diffColumns, List.mem_append, List.mem_flatMap, List.mem_map] at hx
  rcases hx with ⟨c₀, h0, hx⟩ | ⟨c, hc, rfl⟩
  · unfold columnRound at hx
    split at hx
    · rename_i hf
      split at hx
      · simp at hx
      simp only [List.mem_singleton] at hx
      subst hx
      exact ⟨rfl, ⟨c₀, h0, rfl⟩, fun c hc e => by simpa [e] using List.find?_eq_none.1 hf c hc⟩
    · rename_i c hf
      obtain ⟨h1, h2⟩ := find?_some_mem (f := fun c : Column => c.name.name) hf
      exact alterColumn_reason h0 h1 h2 x hx
  · simp only [onlyLeftColumn, List.mem_filter, Option.isNone_iff_eq_none] at hc
    exact ⟨rfl, hc.1, fun c₀ h0 e => by simpa [e] using List.find?_eq_none.1 hc.2 c₀ h0⟩

theorem table_reason (hn : t.name.diffStr = t'.name.diffStr)
    (hk : ∀ k ∈ t.constraints, ∀ k' ∈ t'.constraints, k.name.name = k'.name.name → Crdb.isIndex k = Crdb.isIndex k')
    {l : List CStmt} (h : (ops sd).diffTable t t' = .ok l) : ∀ s ∈ l, TableReason (ops sd) reasons t t' s := by
  simp only [ops, diffCreateTable] at h
  split at h
  · cases h
  have h1 : renamedName t.name t'.name = t'.name := by simp [renamedName, hn]
  have h2 : renameTable sd t.name t'.name = [] := by simp [renameTable, hn]
  rw [h1, h2] at h
  split at h
  · cases h
  cases h
  intro s hs
  simp only [List.map_nil, List.nil_append, List.mem_append] at hs
  rcases hs with ((hx | hx) | hx) | hx
  · simp only [dropConstraints, List.mem_flatMap] at hx
    obtain ⟨k, hkm, hx⟩ := hx
    split at hx
    · rename_i hf
      have hD : Differs (fun k : Constraint => k.name.name) Constraint.diffStr k t'.constraints := differs_none (name := fun k : Constraint => k.name.name) hf
      cases k <;> simp only [List.mem_singleton] at hx <;> subst hx
      all_goals first
        | exact ⟨rfl, _, hkm, rfl, rfl, hD⟩
    · simp at hx
  · obtain ⟨x, hy, rfl⟩ := List.mem_map.1 hx
    exact diffColumns_reason x hy
  · simp only [replaceConstraints, List.mem_flatMap] at hx
    obtain ⟨k, hkm, hx⟩ := hx
    split at hx
    · simp at hx
    · rename_i k' hf
      split_ifs at hx with hne
      · obtain ⟨m1, m2⟩ := find?_some_mem (f := fun c : Constraint => c.name.name) hf
        have hi := hk k hkm k' m1 m2.symm
        have hD : Differs (fun k : Constraint => k.name.name) Constraint.diffStr k t'.constraints := .inr ⟨k', m1, m2, Ne.symm hne⟩
        have hD' : Differs (fun k : Constraint => k.name.name) Constraint.diffStr k' t.constraints := .inr ⟨k, hkm, m2.symm, hne⟩
        cases k' <;> simp only [List.mem_cons, List.not_mem_nil, or_false] at hx <;> rcases hx with rfl | rfl
        all_goals first
          | exact ⟨rfl, k, hkm, rfl, hi, hD⟩
          | exact ⟨rfl, rfl, k, hkm, rfl, hi, hD⟩
          | exact ⟨rfl, rfl, m1, rfl, hD'⟩
          | exact ⟨rfl, rfl, m1, hD'⟩
      · simp at hx
  · simp only [addConstraints, List.mem_map] at hx
    obtain ⟨k, hkm, rfl⟩ := hx
    obtain ⟨m1, m2⟩ := onlyLeftConstraint_spec.1 k hkm
    have hD : Differs (fun k : Constraint => k.name.name) Constraint.diffStr k t.constraints := .inl fun x hx e => m2 (List.mem_map.2 ⟨x, hx, e⟩)
    cases k
    all_goals first
      | exact ⟨rfl, rfl, m1, rfl, hD⟩
      | exact ⟨rfl, rfl, m1, hD⟩

end Crdb

/-! ## MySQL -/

namespace My
variable {sd : Str → Str → Str} {t t' : CreateTable}

theorem alterColumn_reason {c₀ c : Column} (h0 : c₀ ∈ t.columns) (h1 : c ∈ t'.columns) (hn : c.name.name = c₀.name.name) :
    ∀ x ∈ alterColumn sd t'.name c₀ c, alterReason t t' x := by
  intro x hx
  simp only [alterColumn, List.mem_append] at hx
  rcases hx with hx | hx <;> split_ifs at hx with h <;> simp only [List.mem_singleton, List.not_mem_nil] at hx <;> subst hx
  · refine ⟨rfl, c₀, h0, c, h1, hn.symm, rfl, rfl, rfl, rfl, rfl, rfl, rfl, rfl, ?_⟩
    unfold needsModify at h
    tauto
  · simp only [dropDefault, Bool.and_eq_true, Option.isNone_iff_eq_none] at h
    exact ⟨rfl, c₀, h0, c, h1, hn.symm, rfl, h.2, h.1⟩

theorem diffColumns_reason : ∀ x ∈ diffColumns sd t'.name t.columns t'.columns, alterReason t t' x := by
  intro x hx
  simp only [diffColumns, List.mem_append, List.mem_flatMap, List.mem_map] at hx
  rcases hx with ⟨c₀, h0, hx⟩ | ⟨c, hc, rfl⟩
  · unfold columnRound at hx
    split at hx
    · rename_i hf
      simp only [List.mem_singleton] at hx
      subst hx
      exact ⟨rfl, ⟨c₀, h0, rfl⟩, fun c hc e => by simpa [e] using List.find?_eq_none.1 hf c hc⟩
    · rename_i c hf
      obtain ⟨h1, h2⟩ := find?_some_mem (f := fun c : Column => c.name.name) hf
      exact alterColumn_reason h0 h1 h2 x hx
  · simp only [onlyLeftColumn, List.mem_filter, Option.isNone_iff_eq_none] at hc
    exact ⟨rfl, hc.1, fun c₀ h0 e => by simpa [e] using List.find?_eq_none.1 hc.2 c₀ h0⟩

theorem table_reason (hn : t.name.diffStr = t'.name.diffStr)
    (hk : ∀ k ∈ t.constraints, ∀ k' ∈ t'.constraints, k.name.name = k'.name.name → My.isIndex k = My.isIndex k')
    {l : List MStmt} (h : (ops sd).diffTable t t' = .ok l) : ∀ s ∈ l, TableReason (ops sd) reasons t t' s := by
  simp only [ops, diffCreateTable] at h
  split at h
  · cases h
  have h1 : renamedName t.name t'.name = t'.name := by simp [renamedName, hn]
  have h2 : renameTable sd t.name t'.name = [] := by simp [renameTable, hn]
  rw [h1, h2] at h
  split at h
  · cases h
  cases h
  intro s hs
  simp only [List.map_nil, List.nil_append, List.mem_append] at hs
  rcases hs with (((hx | hx) | hx) | hx) | hx
  · simp only [dropConstraints, List.mem_flatMap] at hx
    obtain ⟨k, hkm, hx⟩ := hx
    split at hx
    · rename_i hf
      have hD : Differs (fun k : Constraint => k.name.name) Constraint.diffStr k t'.constraints := differs_none (name := fun k : Constraint => k.name.name) hf
      cases k <;> simp only [List.mem_singleton] at hx <;> subst hx
      all_goals first
        | exact ⟨rfl, _, hkm, rfl, rfl, hD⟩
        | exact ⟨rfl, rfl, _, hkm, rfl, rfl, hD⟩
    · simp at hx
  · obtain ⟨x, hy, rfl⟩ := List.mem_map.1 hx
    exact diffColumns_reason x hy
  · simp only [replaceConstraints, List.mem_flatMap] at hx
    obtain ⟨k, hkm, hx⟩ := hx
    split at hx
    · simp at hx
    · rename_i k' hf
      split_ifs at hx with hne
      · obtain ⟨m1, m2⟩ := find?_some_mem (f := fun c : Constraint => c.name.name) hf
        have hi := hk k hkm k' m1 m2.symm
        have hD : Differs (fun k : Constraint => k.name.name) Constraint.diffStr k t'.constraints := .inr ⟨k', m1, m2, Ne.symm hne⟩
        have hD' : Differs (fun k : Constraint => k.name.name) Constraint.diffStr k' t.constraints := .inr ⟨k, hkm, m2.symm, hne⟩
        cases k' <;> simp only [List.mem_cons, List.not_mem_nil, or_false] at hx <;> rcases hx with rfl | rfl
        all_goals first
          | exact ⟨rfl, k, hkm, rfl, hi, hD⟩
          | exact ⟨rfl, rfl, k, hkm, rfl, hi, hD⟩
          | exact ⟨rfl, rfl, m1, rfl, hD'⟩
          | exact ⟨rfl, rfl, m1, hD'⟩
          | exact ⟨rfl, rfl, rfl, m1, hD'⟩
      · simp at hx
  · simp only [addConstraints, List.mem_map] at hx
    obtain ⟨k, hkm, rfl⟩ := hx
    obtain ⟨m1, m2⟩ := onlyLeftConstraint_spec.1 k hkm
    have hD : Differs (fun k : Constraint => k.name.name) Constraint.diffStr k t.constraints := .inl fun x hx e => m2 (List.mem_map.2 ⟨x, hx, e⟩)
    cases k
    all_goals first
      | exact ⟨rfl, rfl, m1, rfl, hD⟩
      | exact ⟨rfl, rfl, m1, hD⟩
      | exact ⟨rfl, rfl, rfl, m1, hD⟩
  · obtain ⟨x, hy, rfl⟩ := List.mem_map.1 hx
    clear hx
    rcases List.mem_append.1 hy with hx | hx
    · simp only [changeOptions, List.mem_flatMap] at hx
      obtain ⟨p, hp, hx⟩ := hx
      split at hx
      · simp at hx
      rename_i ha
      split at hx
      · simp at hx
      · rename_i p' hf
        split_ifs at hx with hne
        · simp only [List.mem_singleton] at hx
          subst hx
          obtain ⟨m1, m2⟩ := find?_some_mem (f := TableOption.name) hf
          exact ⟨rfl, m1, m2 ▸ ha, .inr ⟨p, hp, m2.symm, hne⟩⟩
        · simp at hx
    · simp only [addOptions, List.mem_flatMap] at hx
      obtain ⟨p, hp, hx⟩ := hx
      split at hx
      · simp at hx
      rename_i ha
      simp only [List.mem_singleton] at hx
      subst hx
      simp only [onlyLeftOption, List.mem_filter, Option.isNone_iff_eq_none] at hp
      exact ⟨rfl, hp.1, ha, differs_none hp.2⟩

end My

/-! ## Spanner -/

namespace Sp
variable {sd : Str → Str → Str} {t t' : CreateTable}

theorem alterColumn_reason {c₀ c : Column} (h0 : c₀ ∈ t.columns) (h1 : c ∈ t'.columns) (hn : c.name.name = c₀.name.name) :
    ∀ x ∈ alterColumn sd t'.name c₀ c, alterReason t t' x := by
  intro x hx
  simp only [alterColumn, List.mem_append] at hx
  rcases hx with (hx | hx) | hx <;> split_ifs at hx <;> simp only [List.mem_singleton, List.not_mem_nil] at hx <;> subst hx <;>
    refine ⟨rfl, c₀, h0, c, h1, hn.symm, rfl, ?_⟩ <;> simp_all

theorem diffColumns_reason : ∀ x ∈ diffColumns sd t'.name t.columns t'.columns, alterReason t t' x := by
  intro x hx
  simp only [diffColumns, List.mem_append, List.mem_flatMap, List.mem_map] at hx
  rcases hx with ⟨c₀, h0, hx⟩ | ⟨c, hc, rfl⟩
  · unfold columnRound at hx
    split at hx
    · rename_i hf
      simp only [List.mem_singleton] at hx
      subst hx
      exact ⟨rfl, ⟨c₀, h0, rfl⟩, fun c hc e => by simpa [e] using List.find?_eq_none.1 hf c hc⟩
    · rename_i c hf
      obtain ⟨h1, h2⟩ := find?_some_mem (f := fun c : Column => c.name.name) hf
      exact alterColumn_reason h0 h1 h2 x hx
  · simp only [onlyLeftColumn, List.mem_filter, Option.isNone_iff_eq_none] at hc
    exact ⟨rfl, hc.1, fun c₀ h0 e => by simpa [e] using List.find?_eq_none.1 hc.2 c₀ h0⟩

theorem findConstraint_found {n : Str} {l : List Constraint} {k : Constraint} (h : findConstraint n l = .ok (some k)) : k ∈ l ∧ k.name.map (·.name) = some n := by
  induction l with
  | nil => cases h
  | cons x l ih =>
    simp only [findConstraint, Constraint.nameStr] at h
    cases hx : x.name with
    | none => simp [hx] at h
    | some i =>
      simp only [hx, Res.ok_bind] at h
      split at h
      · cases h
        rename_i e
        exact ⟨by simp, by simp [hx, e]⟩
      · exact ⟨by simp [(ih h).1], (ih h).2⟩

theorem findConstraint_absent {n : Str} {l : List Constraint} (h : findConstraint n l = .ok none) : ∀ k ∈ l, k.name.map (·.name) ≠ some n := by
  induction l with
  | nil => simp
  | cons x l ih =>
    simp only [findConstraint, Constraint.nameStr] at h
    cases hx : x.name with
    | none => simp [hx] at h
    | some i =>
      simp only [hx, Res.ok_bind] at h
      split at h
      · cases h
      · rename_i e
        intro k hk
        rcases List.mem_cons.1 hk with rfl | hk
        · simpa [hx] using e
        · exact ih h k hk

theorem nameStr_mapped {k : Constraint} {n : Str} (h : k.nameStr = .ok n) : k.name.map (·.name) = some n := by
  unfold Constraint.nameStr at h
  split at h
  · cases h
    rename_i e
    simp [e]
  · cases h

theorem onlyLeft_reason {r l acc out : List Constraint} (h : onlyLeftConstraint r acc l = .ok out) :
    ∀ k ∈ out, k ∈ acc ∨ (k ∈ l ∧ ∀ x ∈ r, x.name.map (·.name) ≠ k.name.map (·.name)) := by
  have hap : ∀ (acc : List Constraint) (c : Constraint) (out : List Constraint), appendConstraint acc c = .ok out → ∀ k ∈ out, k ∈ acc ∨ k = c := by
    intro acc
    induction acc with
    | nil => intro c out h; cases h; simp
    | cons x acc ih =>
      intro c out h k hk
      simp only [appendConstraint, bind_eq_ok] at h
      obtain ⟨a, -, b, -, h⟩ := h
      split at h
      · cases h
        rcases List.mem_cons.1 hk with rfl | hk
        · exact .inr rfl
        · exact .inl (by simp [hk])
      · simp only [bind_eq_ok] at h
        obtain ⟨r', hr, h⟩ := h
        cases h
        rcases List.mem_cons.1 hk with rfl | hk
        · exact .inl (by simp)
        · rcases ih c r' hr k hk with h | h
          · exact .inl (by simp [h])
          · exact .inr h
  induction l generalizing acc with
  | nil => cases h; exact fun k hk => .inl hk
  | cons c l ih =>
    simp only [onlyLeftConstraint, bind_eq_ok] at h
    obtain ⟨n, hn, f, hf, h⟩ := h
    intro k hk
    cases f with
    | none =>
      simp only [bind_eq_ok] at h
      obtain ⟨acc', ha, h⟩ := h
      rcases ih h k hk with h1 | h1
      · rcases hap acc c acc' ha k h1 with h2 | rfl
        · exact .inl h2
        · exact .inr ⟨by simp, fun x hx => nameStr_mapped hn ▸ findConstraint_absent hf x hx⟩
      · exact .inr ⟨by simp [h1.1], h1.2⟩
    | some y =>
      rcases ih h k hk with h1 | h1
      · exact .inl h1
      · exact .inr ⟨by simp [h1.1], h1.2⟩

theorem table_reason (hn : t.name.diffStr = t'.name.diffStr) {l : List SStmt} (h : (ops sd).diffTable t t' = .ok l) :
    ∀ s ∈ l, TableReason (ops sd) reasons t t' s := by
  simp only [ops, diffCreateTable] at h
  split at h
  · rename_i hop
    cases h
    intro s hs
    simp only [List.mem_cons, List.not_mem_nil, or_false] at hs
    rcases hs with rfl | rfl
    · exact ⟨rfl, rfl, hop⟩
    · exact ⟨rfl, hop⟩
  split at h
  · cases h
  have h1 : renamedName t.name t'.name = t'.name := by simp [renamedName, hn]
  have h2 : renameTable sd t.name t'.name = [] := by simp [renameTable, hn]
  rw [h1, h2] at h
  simp only [bind_eq_ok] at h
  obtain ⟨d, hd, e, he, g, hg, h⟩ := h
  split at h
  · cases h
  cases h
  intro s hs
  simp only [List.nil_append, List.mem_map, List.mem_append] at hs
  obtain ⟨x, hx, rfl⟩ := hs
  change alterReason t t' x
  rcases hx with (((hx | hx) | hx) | ⟨k, hk, rfl⟩) | hx
  · obtain ⟨rs, hrs, rfl⟩ := flatMapRes_ok.1 hd
    obtain ⟨m, hmm, hx⟩ := List.mem_flatten.1 hx
    obtain ⟨k, hk, hm⟩ := forall₂_mem_right hrs m hmm
    simp only [dropConstraint, bind_eq_ok] at hm
    obtain ⟨n, hkn, f, hf, hm⟩ := hm
    cases f with
    | none =>
      cases hm
      simp only [List.mem_singleton] at hx
      subst hx
      exact ⟨rfl, k, hk, rfl, .inl fun y hy e => findConstraint_absent hf y hy (e.trans (nameStr_mapped hkn))⟩
    | some y =>
      cases hm
      simp at hx
  · exact diffColumns_reason x hx
  · obtain ⟨rs, hrs, rfl⟩ := flatMapRes_ok.1 he
    obtain ⟨m, hmm, hx⟩ := List.mem_flatten.1 hx
    obtain ⟨k, hk, hm⟩ := forall₂_mem_right hrs m hmm
    simp only [replaceConstraint, bind_eq_ok] at hm
    obtain ⟨n, hkn, f, hf, hm⟩ := hm
    cases f with
    | none =>
      cases hm
      simp at hx
    | some y =>
      obtain ⟨m1, m2⟩ := findConstraint_found hf
      have e' : y.name.map (·.name) = k.name.map (·.name) := by rw [m2, nameStr_mapped hkn]
      simp only at hm
      split_ifs at hm with hne
      · cases hm
        simp only [List.mem_cons, List.not_mem_nil, or_false] at hx
        rcases hx with rfl | rfl
        · exact ⟨rfl, k, hk, rfl, .inr ⟨y, m1, e', Ne.symm hne⟩⟩
        · exact ⟨rfl, rfl, m1, .inr ⟨k, hk, e'.symm, hne⟩⟩
      · cases hm
        simp at hx
  · rcases onlyLeft_reason hg k hk with h | ⟨m1, m2⟩
    · simp at h
    · exact ⟨rfl, rfl, m1, .inl m2⟩
  · unfold diffRowDeletionPolicy at hx
    split at hx
    · rename_i hne
      split at hx <;> rename_i e1 e2 <;> simp only [List.mem_singleton, List.not_mem_nil] at hx <;> subst hx
      · exact ⟨rfl, e1, e2⟩
      · exact ⟨rfl, by simp [e1], e2⟩
      · exact ⟨rfl, e2, _, e1, by simpa [e1, e2, optionDiffStr] using hne⟩
    · simp at hx

end Sp

end Ddl
