import Verif.Lemmas.Converge
import Verif.Lemmas.DecideDb
import Verif.Lemmas.DecideSchema
import Verif.Lemmas.DecideSchemaCrdb
import Verif.Lemmas.DecideSchemaMy

/-! # Deciding that schemas create the same database -/

namespace Ddl
set_option autoImplicit false

/-- Two partial functions that are defined on a list of names only are the same if they agree there. -/
theorem partial_ext {β : Type} {f g : Str → Option β} (ks : List Str) (hf : ∀ k, k ∉ ks → f k = none) (hg : ∀ k, k ∉ ks → g k = none)
    (h : ∀ k ∈ ks, f k = g k) : f = g := by
  funext k
  by_cases hk : k ∈ ks
  · exact h k hk
  · rw [hf k hk, hg k hk]

end Ddl

namespace Ddl.Pg.Db
open Ddl Spec
set_option autoImplicit false

deriving instance DecidableEq for Col, Con

/-- The names of the columns and the constraints. -/
def keysOf (t : CreateTable) : List Str := t.columns.map (·.name.name) ++ t.constraints.map (·.name.name)

/-- `tableOf t = tableOf t'` with bounded quantifiers. -/
def sameTable (t t' : CreateTable) : Prop :=
  ∀ k ∈ keysOf t ++ keysOf t', (tableOf t).cols k = (tableOf t').cols k ∧ (tableOf t).cons k = (tableOf t').cons k

instance (t t' : CreateTable) : Decidable (sameTable t t') := by unfold sameTable; infer_instance

theorem keys_none {t : CreateTable} {k : Str} (h : k ∉ keysOf t) : (tableOf t).cols k = none ∧ (tableOf t).cons k = none := by
  simp only [keysOf, List.mem_append, List.mem_map, not_or, not_exists, not_and] at h
  constructor
  · rw [← Option.not_isSome_iff_eq_none, tableOf_cols]
    rintro ⟨c, hc, e⟩
    exact h.1 c hc e
  · refine tableOf_con_none ?_
    rintro ⟨c, hc, e⟩
    exact h.2 c hc e

theorem sameTable_eq {t t' : CreateTable} (h : sameTable t t') : tableOf t = tableOf t' := by
  have n1 : ∀ k, k ∉ keysOf t ++ keysOf t' → k ∉ keysOf t := fun k hk h => hk (List.mem_append_left _ h)
  have n2 : ∀ k, k ∉ keysOf t ++ keysOf t' → k ∉ keysOf t' := fun k hk h => hk (List.mem_append_right _ h)
  have h1 := partial_ext _ (fun k hk => (keys_none (n1 k hk)).1) (fun k hk => (keys_none (n2 k hk)).1) fun k hk => (h k hk).1
  have h2 := partial_ext _ (fun k hk => (keys_none (n1 k hk)).2) (fun k hk => (keys_none (n2 k hk)).2) fun k hk => (h k hk).2
  cases e : tableOf t
  cases e' : tableOf t'
  rw [e, e'] at h1 h2
  cases h1
  cases h2
  rfl

/-- What the first schema creates, the second one creates too. -/
def subCat (b a : List PStmt) : Prop :=
  (∀ t ∈ tables b, ∃ t' ∈ tables a, t.name.diffStr = t'.name.diffStr ∧ sameTable t t') ∧
  ∀ i ∈ indexes b, ∃ i' ∈ indexes a, i.name.name = i'.name.name ∧ i.bare = i'.bare

instance (b a : List PStmt) : Decidable (subCat b a) := by unfold subCat; infer_instance

theorem loads_same {b a : List PStmt} (hb : loadable b) (ha : loadable a) (h1 : subCat b a) (h2 : subCat a b) :
    ∃ D, Execs empty b D ∧ Execs empty a D ∧ Holds (· ∈ b) D := by
  obtain ⟨D, hD, hh⟩ := loads_holds hb
  obtain ⟨D', hD', hh'⟩ := loads_holds ha
  have : Holds (· ∈ a) D := by
    constructor
    · intro n T
      rw [hh.tabs]
      constructor
      · rintro ⟨t, ht, rfl, rfl⟩
        obtain ⟨t', ht', e, e'⟩ := h1.1 t (mem_tables.2 ht)
        exact ⟨t', mem_tables.1 ht', e.symm, (sameTable_eq e').symm⟩
      · rintro ⟨t, ht, rfl, rfl⟩
        obtain ⟨t', ht', e, e'⟩ := h2.1 t (mem_tables.2 ht)
        exact ⟨t', mem_tables.1 ht', e.symm, (sameTable_eq e').symm⟩
    · intro n T
      rw [hh.idxs]
      constructor
      · rintro ⟨t, ht, rfl, rfl⟩
        obtain ⟨t', ht', e, e'⟩ := h1.2 t (mem_indexes.2 ht)
        exact ⟨t', mem_indexes.1 ht', e.symm, e'.symm⟩
      · rintro ⟨t, ht, rfl, rfl⟩
        obtain ⟨t', ht', e, e'⟩ := h2.2 t (mem_indexes.2 ht)
        exact ⟨t', mem_indexes.1 ht', e.symm, e'.symm⟩
  cases this.unique hh'
  exact ⟨D, hD, hD', hh⟩

/-- As `subCat`, but for the methods of the indexes. -/
def subAlike (b a : List PStmt) : Prop :=
  (∀ t ∈ tables b, ∃ t' ∈ tables a, t.name.diffStr = t'.name.diffStr ∧ sameTable t t') ∧
  ∀ i ∈ indexes b, ∃ i' ∈ indexes a, i.name.name = i'.name.name ∧ { i.bare with using_ := [] } = { i'.bare with using_ := [] }

instance (b a : List PStmt) : Decidable (subAlike b a) := by unfold subAlike; infer_instance

theorem loads_alike {b a : List PStmt} (hb : loadable b) (ha : loadable a) (h1 : subAlike b a) (h2 : subAlike a b) :
    ∃ B A, Execs empty b B ∧ Execs empty a A ∧ B.Alike A ∧ Holds (· ∈ b) B := by
  obtain ⟨B, hB, hh⟩ := loads_holds hb
  obtain ⟨A, hA, hh'⟩ := loads_holds ha
  refine ⟨B, A, hB, hA, ⟨?_, ?_⟩, hh⟩
  · funext n
    ext T
    rw [hh.tabs, hh'.tabs]
    constructor
    · rintro ⟨t, ht, rfl, rfl⟩
      obtain ⟨t', ht', e, e'⟩ := h1.1 t (mem_tables.2 ht)
      exact ⟨t', mem_tables.1 ht', e.symm, (sameTable_eq e').symm⟩
    · rintro ⟨t, ht, rfl, rfl⟩
      obtain ⟨t', ht', e, e'⟩ := h2.1 t (mem_tables.2 ht)
      exact ⟨t', mem_tables.1 ht', e.symm, (sameTable_eq e').symm⟩
  · intro n
    ext T
    simp only [Option.map_eq_some_iff]
    constructor
    · rintro ⟨x, hx, rfl⟩
      obtain ⟨t, ht, rfl, rfl⟩ := (hh.idxs n x).1 hx
      obtain ⟨t', ht', e, e'⟩ := h1.2 t (mem_indexes.2 ht)
      exact ⟨_, (hh'.idxs _ _).2 ⟨t', mem_indexes.1 ht', e.symm, rfl⟩, e'.symm⟩
    · rintro ⟨x, hx, rfl⟩
      obtain ⟨t, ht, rfl, rfl⟩ := (hh'.idxs n x).1 hx
      obtain ⟨t', ht', e, e'⟩ := h2.2 t (mem_indexes.2 ht)
      exact ⟨_, (hh.idxs _ _).2 ⟨t', mem_indexes.1 ht', e.symm, rfl⟩, e'.symm⟩

/-- `SameNotNull` with bounded quantifiers. -/
def sameNotNull (b a : List PStmt) : Prop :=
  ∀ t ∈ tables b, ∀ t' ∈ tables a, t.name.diffStr = t'.name.diffStr → ∀ c ∈ t.columns, ∀ c' ∈ t'.columns, c.name.name = c'.name.name →
    c.notNull = c'.notNull

instance (b a : List PStmt) : Decidable (sameNotNull b a) := by unfold sameNotNull; infer_instance

theorem sameNotNull_of {b a : List PStmt} (h : sameNotNull b a) : SameNotNull b a := fun t t' c c' hs hc hc' e =>
  h t (mem_tables.2 hs.1) t' (mem_tables.2 hs.2.1) hs.2.2 c hc c' hc' e

end Ddl.Pg.Db

namespace Ddl.Crdb.Run
open Ddl Spec
set_option autoImplicit false

/-- `SameNotNull` with bounded quantifiers. -/
def sameNotNull (b a : List CStmt) : Prop :=
  ∀ t ∈ tables b, ∀ t' ∈ tables a, t.name.diffStr = t'.name.diffStr → ∀ c ∈ t.columns, ∀ c' ∈ t'.columns, c.name.name = c'.name.name →
    c.notNull = c'.notNull

instance (b a : List CStmt) : Decidable (sameNotNull b a) := by unfold sameNotNull; infer_instance

theorem sameNotNull_of {b a : List CStmt} (h : sameNotNull b a) : SameNotNull b a := fun t t' c c' hs hc hc' e =>
  h t (mem_tables.2 hs.1) t' (mem_tables.2 hs.2.1) hs.2.2 c hc c' hc' e

/-- `SameForm` with bounded quantifiers. -/
def sameForm (b a : List CStmt) : Prop :=
  ∀ t ∈ tables b, ∀ t' ∈ tables a, t.name.diffStr = t'.name.diffStr →
    (∀ c ∈ t.constraints, ∃ c' ∈ t'.constraints, c'.name.name = c.name.name) ∧
    ∀ c' ∈ t'.constraints, ∃ c ∈ t.constraints, c.name.name = c'.name.name

instance (b a : List CStmt) : Decidable (sameForm b a) := by unfold sameForm; infer_instance

theorem sameForm_of {b a : List CStmt} (h : sameForm b a) : SameForm b a := by
  intro t t' k hs
  have := h t (mem_tables.2 hs.1) t' (mem_tables.2 hs.2.1) hs.2.2
  constructor
  · rintro ⟨c, hc, rfl⟩
    exact this.1 c hc
  · rintro ⟨c, hc, rfl⟩
    exact this.2 c hc

/-- `OneForm` with bounded quantifiers. -/
def oneForm (l : List CStmt) : Prop :=
  ∀ t ∈ tables l, ∀ i ∈ indexes l, i.tableName.diffStr = t.name.diffStr → ∀ c ∈ t.constraints, c.name.name ≠ i.name.name

instance (l : List CStmt) : Decidable (oneForm l) := by unfold oneForm; infer_instance

theorem oneForm_of {l : List CStmt} (h : oneForm l) : OneForm l := fun t i ht hi => h t (mem_tables.2 ht) i (mem_indexes.2 hi)

theorem not_createIndex_again {l l' : List CStmt} {i : CreateIndex} {T : Tbl} {D : Db} (hi : i.ifNotExists = false)
    (hT : st l i.tableName.diffStr = some T) (hc : (T.cons i.name.name).isSome) : ¬ Runs Exec (st l) (.createIndex i :: l') D := by
  rintro (_ | ⟨h, _⟩)
  cases h with
  | createIndex _ T' h1 h2 =>
    rw [hT] at h1
    cases h1
    rw [h2] at hc
    cases hc
  | createIndexExists _ _ _ _ h => rw [hi] at h; cases h

/-- The names of tables, columns, constraints and indexes. -/
def allNames (l : List CStmt) : List Str :=
  (tables l).map (·.name.diffStr) ++ (tables l).flatMap (fun t => t.columns.map (·.name.name)) ++
    (tables l).flatMap (fun t => t.constraints.map (·.name.name)) ++ (indexes l).map (·.name.name)

/-- The names that are columns of a primary key. -/
def keyNames (T : Tbl) (ks : List Str) : List Str :=
  ks.flatMap fun j => match T.cons j with
    | some ⟨.constraint (.primaryKey _ cs), _⟩ => cs.map (·.ident.name)
    | _ => []

/-- `Tbl.Same` with bounded quantifiers. -/
def sameTbl (ks : List Str) (T T' : Tbl) : Prop :=
  T.name = T'.name ∧ ∀ k ∈ ks, T.cons k = T'.cons k ∧
    (T.cols k).map (fun c => { c with notNull := true }) = (T'.cols k).map (fun c => { c with notNull := true }) ∧
    ((T.cols k).map (·.notNull) = (T'.cols k).map (·.notNull) ∨ k ∈ keyNames T ks)

instance (ks : List Str) (T T' : Tbl) : Decidable (sameTbl ks T T') := by unfold sameTbl; infer_instance

/-- `Db.Same` with bounded quantifiers. -/
def sameDb (b a : List CStmt) : Prop :=
  ∀ n ∈ allNames b ++ allNames a, (st b n).isSome = (st a n).isSome ∧ ∀ T ∈ (st b n).toList, ∀ T' ∈ (st a n).toList,
    sameTbl (allNames b ++ allNames a) T T'

instance (b a : List CStmt) : Decidable (sameDb b a) := by unfold sameDb; infer_instance

theorem isKey_of {T : Tbl} {ks : List Str} {k : Str} (h : k ∈ keyNames T ks) : T.IsKey k := by
  simp only [keyNames, List.mem_flatMap] at h
  obtain ⟨j, -, h⟩ := h
  split at h
  case h_1 n cs v e => exact ⟨j, n, cs, v, e, h⟩
  case h_2 => cases h

theorem st_none_of {l : List CStmt} {n : Str} (h : n ∉ allNames l) : st l n = none := by
  cases e : st l n with
  | none => rfl
  | some T =>
    obtain ⟨t, ht, en, -⟩ := st_some e
    refine absurd ?_ h
    simp only [allNames, List.append_assoc, List.mem_append]
    exact .inl (List.mem_map.2 ⟨t, mem_tables.2 ht, en⟩)

theorem tbl_none_of {l : List CStmt} {n k : Str} {T : Tbl} (hT : st l n = some T) (h : k ∉ allNames l) :
    T.cols k = none ∧ T.cons k = none := by
  obtain ⟨t, ht, en, rfl⟩ := st_some hT
  simp only [allNames, List.mem_append, not_or, List.mem_flatMap, List.mem_map, not_exists, not_and] at h
  refine ⟨?_, ?_⟩
  · rw [← Option.not_isSome_iff_eq_none]
    rintro hs
    obtain ⟨c, hc, e⟩ := tableOf_cols.1 hs
    exact h.1.1.2 t (mem_tables.2 ht) c hc e
  · simp only [ext, Option.or_eq_none_iff]
    refine ⟨tableOf_cons_none.2 fun c hc e => h.1.2 t (mem_tables.2 ht) c hc e, ?_⟩
    cases e : idx l n k with
    | none => simp [ixs, e]
    | some i =>
      obtain ⟨hi, -, e2⟩ := idx_mem e
      exact absurd e2 (h.2 i (mem_indexes.2 hi))

theorem same_of {b a : List CStmt} (h : sameDb b a) : (st b).Same (st a) := by
  have n1 : ∀ k, k ∉ allNames b ++ allNames a → k ∉ allNames b := fun k hk h => hk (List.mem_append_left _ h)
  have n2 : ∀ k, k ∉ allNames b ++ allNames a → k ∉ allNames a := fun k hk h => hk (List.mem_append_right _ h)
  intro n
  by_cases hn : n ∈ allNames b ++ allNames a
  · obtain ⟨e, h⟩ := h n hn
    refine ⟨by rw [← Option.isNone_iff_eq_none, ← Option.isNone_iff_eq_none, ← Option.not_isSome, ← Option.not_isSome, e], fun T T' hT hT' => ?_⟩
    obtain ⟨e, h⟩ := h T (by simp [hT]) T' (by simp [hT'])
    have z1 := fun k hk => tbl_none_of hT (n1 k hk)
    have z2 := fun k hk => tbl_none_of hT' (n2 k hk)
    refine ⟨e, partial_ext _ (fun k hk => (z1 k hk).2) (fun k hk => (z2 k hk).2) fun k hk => (h k hk).1, fun k => ?_, fun k c c' hc hc' hk => ?_⟩
    · by_cases hk : k ∈ allNames b ++ allNames a
      · exact (h k hk).2.1
      · rw [(z1 k hk).1, (z2 k hk).1]
    · by_cases hk' : k ∈ allNames b ++ allNames a
      · rcases (h k hk').2.2 with e | e
        · rw [hc, hc'] at e
          simpa using e
        · exact absurd (isKey_of e) hk
      · rw [(z1 k hk').1] at hc
        cases hc
  · rw [st_none_of (n1 n hn), st_none_of (n2 n hn)]
    exact ⟨Iff.rfl, by intro T T' h; cases h⟩

end Ddl.Crdb.Run

namespace Ddl.My.Run
open Ddl Spec
set_option autoImplicit false

/-- `SameNotNull` with bounded quantifiers. -/
def sameNotNull (b a : List MStmt) : Prop :=
  ∀ t ∈ tables b, ∀ t' ∈ tables a, t.name.diffStr = t'.name.diffStr → ∀ c ∈ t.columns, ∀ c' ∈ t'.columns, c.name.name = c'.name.name →
    c.notNull = c'.notNull

instance (b a : List MStmt) : Decidable (sameNotNull b a) := by unfold sameNotNull; infer_instance

theorem sameNotNull_of {b a : List MStmt} (h : sameNotNull b a) : SameNotNull b a := fun t t' c c' hs hc hc' e =>
  h t (mem_tables.2 hs.1) t' (mem_tables.2 hs.2.1) hs.2.2 c hc c' hc' e

/-- `SameForm` with bounded quantifiers. -/
def sameForm (b a : List MStmt) : Prop :=
  ∀ t ∈ tables b, ∀ t' ∈ tables a, t.name.diffStr = t'.name.diffStr →
    (∀ c ∈ t.constraints, ∃ c' ∈ t'.constraints, c'.name.name = c.name.name) ∧
    ∀ c' ∈ t'.constraints, ∃ c ∈ t.constraints, c.name.name = c'.name.name

instance (b a : List MStmt) : Decidable (sameForm b a) := by unfold sameForm; infer_instance

theorem sameForm_of {b a : List MStmt} (h : sameForm b a) : SameForm b a := by
  intro t t' k hs
  have := h t (mem_tables.2 hs.1) t' (mem_tables.2 hs.2.1) hs.2.2
  constructor
  · rintro ⟨c, hc, rfl⟩
    exact this.1 c hc
  · rintro ⟨c, hc, rfl⟩
    exact this.2 c hc

/-- `OneForm` with bounded quantifiers. -/
def oneForm (l : List MStmt) : Prop :=
  ∀ t ∈ tables l, ∀ i ∈ indexes l, i.tableName.diffStr = t.name.diffStr → ∀ c ∈ t.constraints, c.name.name ≠ i.name.diffStr

instance (l : List MStmt) : Decidable (oneForm l) := by unfold oneForm; infer_instance

theorem oneForm_of {l : List MStmt} (h : oneForm l) : OneForm l := fun t i ht hi => h t (mem_tables.2 ht) i (mem_indexes.2 hi)

theorem not_createIndex_again {l l' : List MStmt} {i : CreateIndex} {T : Tbl} {D : Db} (hi : i.ifNotExists = false)
    (hT : st l i.tableName.diffStr = some T) (hc : (T.cons i.name.name.name).isSome) : ¬ Runs Exec (st l) (.createIndex i :: l') D := by
  rintro (_ | ⟨h, _⟩)
  cases h with
  | createIndex _ T' _ _ h1 h2 =>
    rw [hT] at h1
    cases h1
    rw [h2] at hc
    cases hc

/-- The names of tables, columns, constraints and indexes and options. -/
def allNames (l : List MStmt) : List Str :=
  (tables l).map (·.name.diffStr) ++ (tables l).flatMap (fun t => t.columns.map (·.name.name)) ++
    (tables l).flatMap (fun t => t.constraints.map (·.name.name)) ++ (indexes l).map (·.name.diffStr) ++
    (tables l).flatMap (fun t => t.options.map (·.name))

/-- The names that are columns of a primary key. -/
def keyNames (T : Tbl) (ks : List Str) : List Str :=
  ks.flatMap fun j => match T.cons j with
    | some ⟨.primaryKey _ cs, _⟩ => cs.map (·.ident.name)
    | _ => []

/-- `Tbl.Same` with bounded quantifiers. -/
def sameTbl (ks : List Str) (T T' : Tbl) : Prop :=
  T.name = T'.name ∧ ∀ k ∈ ks, T.cons k = T'.cons k ∧ T.options k = T'.options k ∧
    (T.cols k).map (fun c => { c with notNull := true }) = (T'.cols k).map (fun c => { c with notNull := true }) ∧
    ((T.cols k).map (·.notNull) = (T'.cols k).map (·.notNull) ∨ k ∈ keyNames T ks)

instance (ks : List Str) (T T' : Tbl) : Decidable (sameTbl ks T T') := by unfold sameTbl; infer_instance

/-- `Db.Same` with bounded quantifiers. -/
def sameDb (b a : List MStmt) : Prop :=
  ∀ n ∈ allNames b ++ allNames a, (st b n).isSome = (st a n).isSome ∧ ∀ T ∈ (st b n).toList, ∀ T' ∈ (st a n).toList,
    sameTbl (allNames b ++ allNames a) T T'

instance (b a : List MStmt) : Decidable (sameDb b a) := by unfold sameDb; infer_instance

theorem isKey_of {T : Tbl} {ks : List Str} {k : Str} (h : k ∈ keyNames T ks) : T.IsKey k := by
  simp only [keyNames, List.mem_flatMap] at h
  obtain ⟨j, -, h⟩ := h
  split at h
  case h_1 n cs v e => exact ⟨j, n, cs, v, e, h⟩
  case h_2 => cases h

theorem st_none_of {l : List MStmt} {n : Str} (h : n ∉ allNames l) : st l n = none := by
  cases e : st l n with
  | none => rfl
  | some T =>
    obtain ⟨t, ht, en, -⟩ := st_some e
    refine absurd ?_ h
    simp only [allNames, List.append_assoc, List.mem_append]
    exact .inl (List.mem_map.2 ⟨t, mem_tables.2 ht, en⟩)

theorem tbl_none_of {l : List MStmt} {n k : Str} {T : Tbl} (hT : st l n = some T) (h : k ∉ allNames l) :
    T.cols k = none ∧ T.cons k = none ∧ T.options k = none := by
  obtain ⟨t, ht, en, rfl⟩ := st_some hT
  simp only [allNames, List.mem_append, not_or, List.mem_flatMap, List.mem_map, not_exists, not_and] at h
  refine ⟨?_, ?_, ?_⟩
  · rw [← Option.not_isSome_iff_eq_none]
    rintro hs
    obtain ⟨c, hc, e⟩ := tableOf_cols.1 hs
    exact h.1.1.1.2 t (mem_tables.2 ht) c hc e
  · simp only [ext, Option.or_eq_none_iff]
    refine ⟨tableOf_cons_none.2 fun c hc e => h.1.1.2 t (mem_tables.2 ht) c hc e, ?_⟩
    cases e : idx l n k with
    | none => simp [ixs, e]
    | some i =>
      obtain ⟨hi, -, e2⟩ := idx_mem e
      exact absurd e2 (h.1.2 i (mem_indexes.2 hi))
  · show (tableOf t).options k = none
    cases e : (tableOf t).options k with
    | none => rfl
    | some x =>
      simp only [tableOf, Option.map_eq_some_iff] at e
      obtain ⟨o, ho, -⟩ := e
      have := List.find?_some ho
      simp only [Bool.and_eq_true, beq_iff_eq] at this
      exact absurd this.2 (h.2 t (mem_tables.2 ht) o (List.mem_of_find?_eq_some ho))

theorem same_of {b a : List MStmt} (h : sameDb b a) : (st b).Same (st a) := by
  have n1 : ∀ k, k ∉ allNames b ++ allNames a → k ∉ allNames b := fun k hk h => hk (List.mem_append_left _ h)
  have n2 : ∀ k, k ∉ allNames b ++ allNames a → k ∉ allNames a := fun k hk h => hk (List.mem_append_right _ h)
  intro n
  by_cases hn : n ∈ allNames b ++ allNames a
  · obtain ⟨e, h⟩ := h n hn
    refine ⟨by rw [← Option.isNone_iff_eq_none, ← Option.isNone_iff_eq_none, ← Option.not_isSome, ← Option.not_isSome, e], fun T T' hT hT' => ?_⟩
    obtain ⟨e, h⟩ := h T (by simp [hT]) T' (by simp [hT'])
    have z1 := fun k hk => tbl_none_of hT (n1 k hk)
    have z2 := fun k hk => tbl_none_of hT' (n2 k hk)
    refine ⟨e, partial_ext _ (fun k hk => (z1 k hk).2.1) (fun k hk => (z2 k hk).2.1) fun k hk => (h k hk).1,
      partial_ext _ (fun k hk => (z1 k hk).2.2) (fun k hk => (z2 k hk).2.2) fun k hk => (h k hk).2.1, fun k => ?_, fun k c c' hc hc' hk => ?_⟩
    · by_cases hk : k ∈ allNames b ++ allNames a
      · exact (h k hk).2.2.1
      · rw [(z1 k hk).1, (z2 k hk).1]
    · by_cases hk' : k ∈ allNames b ++ allNames a
      · rcases (h k hk').2.2.2 with e | e
        · rw [hc, hc'] at e
          simpa using e
        · exact absurd (isKey_of e) hk
      · rw [(z1 k hk').1] at hc
        cases hc
  · rw [st_none_of (n1 n hn), st_none_of (n2 n hn)]
    exact ⟨Iff.rfl, by intro T T' h; cases h⟩

end Ddl.My.Run

namespace Ddl.Sp.Run
open Ddl Spec
set_option autoImplicit false

/-- The names of the columns and the constraints. -/
def keysOf (t : CreateTable) : List Str := t.columns.map (·.name.name) ++ t.constraints.flatMap fun c => (c.name.map Ident.name).toList

/-- `tableOf t = tableOf t'` with bounded quantifiers. -/
def sameTable (t t' : CreateTable) : Prop :=
  (∀ k ∈ keysOf t ++ keysOf t', (tableOf t).cols k = (tableOf t').cols k ∧ (tableOf t).cons k = (tableOf t').cons k) ∧
    t.name.diffStr = t'.name.diffStr ∧ (tableOf t).options = (tableOf t').options ∧ (tableOf t).policy = (tableOf t').policy

instance (t t' : CreateTable) : Decidable (sameTable t t') := by unfold sameTable; infer_instance

theorem keys_none {t : CreateTable} {k : Str} (h : k ∉ keysOf t) : (tableOf t).cols k = none ∧ (tableOf t).cons k = none := by
  simp only [keysOf, List.mem_append, List.mem_map, List.mem_flatMap, Option.mem_toList, not_or, not_exists, not_and] at h
  constructor
  · rw [← Option.not_isSome_iff_eq_none, tableOf_cols]
    rintro ⟨c, hc, e⟩
    exact h.1 c hc e
  · simp only [tableOf, Option.map_eq_none_iff, List.find?_eq_none]
    intro c hc e
    exact h.2 c hc (of_decide_eq_true e : c.Named k)

theorem sameTable_eq {t t' : CreateTable} (h : sameTable t t') : tableOf t = tableOf t' := by
  obtain ⟨h, h3, h4, h5⟩ := h
  have n1 : ∀ k, k ∉ keysOf t ++ keysOf t' → k ∉ keysOf t := fun k hk h => hk (List.mem_append_left _ h)
  have n2 : ∀ k, k ∉ keysOf t ++ keysOf t' → k ∉ keysOf t' := fun k hk h => hk (List.mem_append_right _ h)
  have h1 := partial_ext _ (fun k hk => (keys_none (n1 k hk)).1) (fun k hk => (keys_none (n2 k hk)).1) fun k hk => (h k hk).1
  have h2 := partial_ext _ (fun k hk => (keys_none (n1 k hk)).2) (fun k hk => (keys_none (n2 k hk)).2) fun k hk => (h k hk).2
  have h3 : (tableOf t).name = (tableOf t').name := h3
  cases e : tableOf t
  cases e' : tableOf t'
  rw [e, e'] at h1 h2 h3 h4 h5
  cases h1
  cases h2
  cases h3
  cases h4
  cases h5
  rfl

/-- The names of the tables and indexes. -/
def objNames (l : List SStmt) : List Str := (tables l).map (·.name.diffStr) ++ (indexes l).map (·.name.diffStr)

/-- `st b = st a` with bounded quantifiers. -/
def sameSt (b a : List SStmt) : Prop :=
  ∀ n ∈ objNames b ++ objNames a, (idx b n).map indexOf = (idx a n).map indexOf ∧ (tab b n).isSome = (tab a n).isSome ∧
    ∀ t ∈ (tab b n).toList, ∀ t' ∈ (tab a n).toList, sameTable t t'

instance (b a : List SStmt) : Decidable (sameSt b a) := by unfold sameSt; infer_instance

theorem obj_none {l : List SStmt} {n : Str} (h : n ∉ objNames l) : tab l n = none ∧ idx l n = none := by
  simp only [objNames, List.mem_append, List.mem_map, not_or, not_exists, not_and] at h
  constructor
  · cases e : tab l n with
    | none => rfl
    | some t =>
      obtain ⟨ht, en⟩ := tab_mem e
      exact absurd en (h.1 t (mem_tables.2 ht))
  · cases e : idx l n with
    | none => rfl
    | some t =>
      obtain ⟨ht, en⟩ := idx_mem e
      exact absurd en (h.2 t (mem_indexes.2 ht))

theorem sameSt_eq {b a : List SStmt} (h : sameSt b a) : st b = st a := by
  have n1 : ∀ k, k ∉ objNames b ++ objNames a → k ∉ objNames b := fun k hk h => hk (List.mem_append_left _ h)
  have n2 : ∀ k, k ∉ objNames b ++ objNames a → k ∉ objNames a := fun k hk h => hk (List.mem_append_right _ h)
  have h1 : (fun n => (tab b n).map tableOf) = fun n => (tab a n).map tableOf := by
    refine partial_ext (objNames b ++ objNames a) (fun k hk => by rw [(obj_none (n1 k hk)).1]; rfl)
      (fun k hk => by rw [(obj_none (n2 k hk)).1]; rfl) fun k hk => ?_
    obtain ⟨-, e, h⟩ := h k hk
    cases e1 : tab b k with
    | none =>
      rw [e1] at e
      cases e2 : tab a k with
      | none => rfl
      | some t' => rw [e2] at e; cases e
    | some t =>
      rw [e1] at e
      cases e2 : tab a k with
      | none => rw [e2] at e; cases e
      | some t' => exact congrArg some (sameTable_eq (h t (by simp [e1]) t' (by simp [e2])))
  have h2 : (fun n => (idx b n).map indexOf) = fun n => (idx a n).map indexOf :=
    partial_ext (objNames b ++ objNames a) (fun k hk => by rw [(obj_none (n1 k hk)).2]; rfl)
      (fun k hk => by rw [(obj_none (n2 k hk)).2]; rfl) fun k hk => (h k hk).1
  simp only [st, h1, h2]

end Ddl.Sp.Run
