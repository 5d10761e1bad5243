import Verif.Lemmas.DbTable

/-! # Executing the statements of a diff -/

namespace Ddl.Pg.Db
open Ddl Spec
set_option autoImplicit false

/-- The object a statement creates. -/
abbrev obj (s : PStmt) : Option Obj := creates (ops fun _ _ => []) s

theorem obj_eq (sd : Str → Str → Str) (s : PStmt) : creates (ops sd) s = obj s := by cases s <;> rfl

theorem obj_table (t : CreateTable) : obj (.createTable t) = some (.table t.name.diffStr) := rfl
theorem obj_index (i : CreateIndex) : obj (.createIndex i) = some (.index i.name.name) := rfl

/-- A set of statements has a statement that creates the object. -/
def Has (S : PStmt → Prop) (k : Obj) : Prop := ∃ s, S s ∧ obj s = some k

/-- The database contains what the statements create. -/
structure Holds (S : PStmt → Prop) (D : Catalog) : Prop where
  tabs : ∀ n T, D.tables n = some T ↔ ∃ t, S (.createTable t) ∧ t.name.diffStr = n ∧ tableOf t = T
  idxs : ∀ n I, D.indexes n = some I ↔ ∃ i, S (.createIndex i) ∧ i.name.name = n ∧ i.bare = I

theorem Holds.unique {S : PStmt → Prop} {D D' : Catalog} (h : Holds S D) (h' : Holds S D') : D = D' := by
  obtain ⟨t, i⟩ := D
  obtain ⟨t', i'⟩ := D'
  have e1 : t = t' := by
    funext n
    refine Option.ext fun T => ?_
    exact (h.tabs n T).trans (h'.tabs n T).symm
  have e2 : i = i' := by
    funext n
    refine Option.ext fun T => ?_
    exact (h.idxs n T).trans (h'.idxs n T).symm
  rw [e1, e2]

theorem Holds.congr {S S' : PStmt → Prop} {D : Catalog} (h : Holds S D) (e : ∀ s, (obj s).isSome → (S s ↔ S' s)) : Holds S' D := by
  refine ⟨fun n T => (h.tabs n T).trans ?_, fun n I => (h.idxs n I).trans ?_⟩
  · exact exists_congr fun t => and_congr_left' (e _ rfl)
  · exact exists_congr fun t => and_congr_left' (e _ rfl)

theorem Holds.none_table {S : PStmt → Prop} {D : Catalog} (h : Holds S D) {n : Str} : D.tables n = none ↔ ¬ Has S (.table n) := by
  rw [Option.eq_none_iff_forall_ne_some]
  constructor
  · rintro h' ⟨s, hs, hk⟩
    cases s with
    | createTable t =>
      rw [obj_table, Option.some.injEq, Obj.table.injEq] at hk
      exact h' _ ((h.tabs n _).2 ⟨t, hs, hk, rfl⟩)
    | createIndex i => rw [obj_index] at hk; cases hk
    | _ => cases hk
  · rintro h' T hT
    obtain ⟨t, ht, hn, _⟩ := (h.tabs n T).1 hT
    exact h' ⟨_, ht, by rw [obj_table, hn]⟩

theorem Holds.none_index {S : PStmt → Prop} {D : Catalog} (h : Holds S D) {n : Str} : D.indexes n = none ↔ ¬ Has S (.index n) := by
  rw [Option.eq_none_iff_forall_ne_some]
  constructor
  · rintro h' ⟨s, hs, hk⟩
    cases s with
    | createIndex i =>
      rw [obj_index, Option.some.injEq, Obj.index.injEq] at hk
      exact h' _ ((h.idxs n _).2 ⟨i, hs, hk, rfl⟩)
    | createTable t => rw [obj_table] at hk; cases hk
    | _ => cases hk
  · rintro h' T hT
    obtain ⟨t, ht, hn, _⟩ := (h.idxs n T).1 hT
    exact h' ⟨_, ht, by rw [obj_index, hn]⟩

/-- What the tables of a constraint need. -/
def FitsIn (S : CreateTable → Prop) (t : CreateTable) (c : Constraint) : Prop :=
  (∀ k ∈ c.columnNames, HasColumn t k) ∧
    ∀ r rcs, c.target = some (r, rcs) → ∃ u, S u ∧ u.name.diffStr = r ∧ ∀ k ∈ rcs, HasColumn u k

/-- What a statement needs. -/
def OkIn (S : PStmt → Prop) : PStmt → Prop
  | .createTable t => DistinctNames t ∧ ∀ c ∈ t.constraints, FitsIn (fun u => S (.createTable u) ∨ u = t) t c
  | .createIndex i => ∃ u, S (.createTable u) ∧ u.name.diffStr = i.tableName.diffStr ∧ ∀ k ∈ i.columns, HasColumn u k.name
  | _ => False

theorem exec_create {S : PStmt → Prop} {D : Catalog} (h : Holds S D) {s : PStmt} {k : Obj} (hk : obj s = some k) (hno : ¬ Has S k)
    (hs : OkIn S s) : ∃ D', Exec D s D' ∧ Holds (fun x => S x ∨ x = s) D' := by
  cases s with
  | createTable t =>
    rw [obj_table] at hk
    cases hk
    have hnone := h.none_table.2 hno
    refine ⟨_, Exec.createTable t hnone hs.1 fun c hc => ?_, ?_⟩
    · obtain ⟨h1, h2⟩ := hs.2 c hc
      refine ⟨fun k hk => tableOf_cols.2 (h1 k hk), fun r rcs hr => ?_⟩
      obtain ⟨u, hu, hn, hcs⟩ := h2 r rcs hr
      by_cases hr' : r = t.name.diffStr
      · rcases hu with hu | hu
        · exact absurd ⟨_, hu, by rw [obj_table, hn, hr']⟩ hno
        · subst hu
          exact ⟨_, by rw [hr', put_same], fun k hk => tableOf_cols.2 (hcs k hk)⟩
      · rcases hu with hu | hu
        · exact ⟨tableOf u, by rw [put_ne _ _ hr']; exact (h.tabs _ _).2 ⟨u, hu, hn, rfl⟩, fun k hk => tableOf_cols.2 (hcs k hk)⟩
        · subst hu
          exact absurd hn.symm hr'
    · refine ⟨fun n T => ?_, fun n I => ?_⟩
      · simp only [Catalog.setTable]
        by_cases hn : n = t.name.diffStr
        · subst hn
          rw [put_same, Option.some.injEq]
          constructor
          · rintro rfl
            exact ⟨t, Or.inr rfl, rfl, rfl⟩
          · rintro ⟨u, hu | hu, hn, rfl⟩
            · exact absurd ⟨_, hu, by rw [obj_table, hn]⟩ hno
            · cases hu; rfl
        · rw [put_ne _ _ hn, h.tabs]
          constructor
          · rintro ⟨u, hu, r⟩
            exact ⟨u, Or.inl hu, r⟩
          · rintro ⟨u, hu | hu, hn', r⟩
            · exact ⟨u, hu, hn', r⟩
            · cases hu; exact absurd hn'.symm hn
      · simp only [Catalog.setTable]
        rw [h.idxs]
        constructor
        · rintro ⟨u, hu, r⟩
          exact ⟨u, Or.inl hu, r⟩
        · rintro ⟨u, hu | hu, r⟩
          · exact ⟨u, hu, r⟩
          · cases hu
  | createIndex i =>
    rw [obj_index] at hk
    cases hk
    have hnone := h.none_index.2 hno
    obtain ⟨u, hu, hun, hcs⟩ := hs
    refine ⟨_, Exec.createIndex i (tableOf u) hnone ((h.tabs _ _).2 ⟨u, hu, hun, rfl⟩) fun k hk => tableOf_cols.2 (hcs k hk), ?_⟩
    refine ⟨fun n T => ?_, fun n I => ?_⟩
    · simp only
      rw [h.tabs]
      constructor
      · rintro ⟨u, hu, r⟩
        exact ⟨u, Or.inl hu, r⟩
      · rintro ⟨u, hu | hu, r⟩
        · exact ⟨u, hu, r⟩
        · cases hu
    · simp only
      by_cases hn : n = i.name.name
      · subst hn
        rw [put_same, Option.some.injEq]
        constructor
        · rintro rfl
          exact ⟨i, Or.inr rfl, rfl, rfl⟩
        · rintro ⟨j, hj | hj, hn, rfl⟩
          · exact absurd ⟨_, hj, by rw [obj_index, hn]⟩ hno
          · cases hj; rfl
      · rw [put_ne _ _ hn, h.idxs]
        constructor
        · rintro ⟨u, hu, r⟩
          exact ⟨u, Or.inl hu, r⟩
        · rintro ⟨u, hu | hu, hn', r⟩
          · exact ⟨u, hu, hn', r⟩
          · cases hu; exact absurd hn'.symm hn
  | _ => cases hk

theorem create_ok {S : PStmt → Prop} {D D' : Catalog} (h : Holds S D) {s : PStmt} {k : Obj} (hk : obj s = some k) (hno : ¬ Has S k)
    (he : Exec D s D') : OkIn S s := by
  cases he with
  | createTable t h1 h2 h3 =>
    refine ⟨h2, fun c hc => ?_⟩
    obtain ⟨c1, c2⟩ := h3 c hc
    refine ⟨fun k hk => tableOf_cols.1 (c1 k hk), fun r rcs hr => ?_⟩
    obtain ⟨R, hR, hcs⟩ := c2 r rcs hr
    by_cases hr' : r = t.name.diffStr
    · subst hr'
      rw [put_same, Option.some.injEq] at hR
      subst hR
      exact ⟨t, Or.inr rfl, rfl, fun k hk => tableOf_cols.1 (hcs k hk)⟩
    · rw [put_ne _ _ hr', h.tabs] at hR
      obtain ⟨u, hu, hn, rfl⟩ := hR
      exact ⟨u, Or.inl hu, hn, fun k hk => tableOf_cols.1 (hcs k hk)⟩
  | createTableExists t h1 _ =>
    rw [obj_table] at hk
    cases hk
    rw [h.none_table.2 hno] at h1
    cases h1
  | createIndex i T h1 h2 h3 =>
    obtain ⟨u, hu, hn, rfl⟩ := (h.tabs _ _).1 h2
    exact ⟨u, hu, hn, fun k hk => tableOf_cols.1 (h3 k hk)⟩
  | createIndexExists i h1 _ =>
    rw [obj_index] at hk
    cases hk
    rw [h.none_index.2 hno] at h1
    cases h1
  | _ => cases hk

theorem exec_create_unique {D D' D'' : Catalog} {s : PStmt} {k : Obj} (hk : obj s = some k) (h : Exec D s D') (h' : Exec D s D'') : D' = D'' := by
  cases h with
  | createTable t h1 h2 h3 =>
    cases h' with
    | createTable => rfl
    | createTableExists _ h => rw [h1] at h; cases h
  | createTableExists t h1 _ =>
    cases h' with
    | createTable _ h => rw [h] at h1; cases h1
    | createTableExists => rfl
  | createIndex i T h1 h2 h3 =>
    cases h' with
    | createIndex => rfl
    | createIndexExists _ h => rw [h1] at h; cases h
  | createIndexExists i h1 _ =>
    cases h' with
    | createIndex _ _ h => rw [h] at h1; cases h1
    | createIndexExists => rfl
  | _ => cases hk

theorem holds_empty : Holds (fun s => s ∈ ([] : List PStmt)) empty :=
  ⟨fun n T => by simp [empty], fun n T => by simp [empty]⟩

theorem fresh {l p q : List PStmt} {s : PStmt} {k : Obj} (hd : (l.filterMap obj).Nodup) (e : l = p ++ s :: q) (hk : obj s = some k) :
    ¬ Has (· ∈ p) k := by
  rintro ⟨x, hx, hxk⟩
  rw [e, List.filterMap_append, List.nodup_append] at hd
  exact hd.2.2 k (List.mem_filterMap.2 ⟨x, hx, hxk⟩) k (by rw [List.filterMap_cons_some hk]; simp) rfl

theorem fresh_after {l p q : List PStmt} {s : PStmt} {k : Obj} (hd : (l.filterMap obj).Nodup) (e : l = p ++ s :: q) (hk : obj s = some k) :
    ¬ Has (· ∈ q) k := by
  rintro ⟨x, hx, hxk⟩
  rw [e, List.filterMap_append, List.nodup_append] at hd
  have := hd.2.1
  rw [List.filterMap_cons_some hk, List.nodup_cons] at this
  exact this.1 (List.mem_filterMap.2 ⟨x, hx, hxk⟩)

/-- A schema that can be loaded. -/
def Loadable (l : List PStmt) : Prop := ∀ p s q, l = p ++ s :: q → OkIn (· ∈ p) s

theorem load {l : List PStmt} {D : Catalog} (hc : ∀ s ∈ l, (obj s).isSome) (hd : (l.filterMap obj).Nodup) (h : Execs empty l D) :
    Loadable l ∧ Holds (· ∈ l) D := by
  have main : ∀ q p, l = p ++ q → ∀ D1, Holds (· ∈ p) D1 → Execs D1 q D →
      (∀ p' s q', l = p' ++ s :: q' → p.length ≤ p'.length → OkIn (· ∈ p') s) ∧ Holds (· ∈ l) D := by
    intro q
    induction q with
    | nil =>
      intro p e D1 h1 h2
      cases h2
      rw [List.append_nil] at e
      subst e
      refine ⟨fun p' s q' e hl => ?_, h1⟩
      have := congrArg List.length e
      simp at this
      omega
    | cons s q ih =>
      intro p e D1 h1 h2
      cases h2 with
      | cons he hr =>
        obtain ⟨k, hk⟩ := Option.isSome_iff_exists.1 (hc s (by rw [e]; simp))
        have hno := fresh hd e hk
        have hok := create_ok h1 hk hno he
        obtain ⟨D2, he', h2'⟩ := exec_create h1 hk hno hok
        cases exec_create_unique hk he he'
        obtain ⟨i1, i2⟩ := ih (p ++ [s]) (by simp [e]) _ (h2'.congr fun x _ => by simp) hr
        refine ⟨fun p' x q' e' hl => ?_, i2⟩
        by_cases hl' : p.length = p'.length
        · rw [e] at e'
          obtain ⟨rfl, e''⟩ := List.append_inj e' hl'
          cases e''
          exact hok
        · exact i1 p' x q' e' (by simp; omega)
  obtain ⟨h1, h2⟩ := main l [] rfl empty holds_empty h
  exact ⟨fun p s q e => h1 p s q e (by simp), h2⟩

theorem loadable_execs {l : List PStmt} (hc : ∀ s ∈ l, (obj s).isSome) (hd : (l.filterMap obj).Nodup) (h : Loadable l) :
    ∃ D, Execs empty l D := by
  have main : ∀ q p, l = p ++ q → ∀ D1, Holds (· ∈ p) D1 → ∃ D, Execs D1 q D := by
    intro q
    induction q with
    | nil => exact fun p e D1 h1 => ⟨D1, .nil _⟩
    | cons s q ih =>
      intro p e D1 h1
      obtain ⟨k, hk⟩ := Option.isSome_iff_exists.1 (hc s (by rw [e]; simp))
      obtain ⟨D2, he, h2⟩ := exec_create h1 hk (fresh hd e hk) (h p s q e)
      obtain ⟨D, hD⟩ := ih (p ++ [s]) (by simp [e]) D2 (h2.congr fun x _ => by simp)
      exact ⟨D, .cons he hD⟩
  exact main l [] rfl empty holds_empty

/-! ## Dropping -/

theorem exec_dropIndex {S : PStmt → Prop} {D : Catalog} (h : Holds S D) {i : CreateIndex} (hs : S (.createIndex i)) (cm : Str) :
    ∃ D', Exec D (.dropIndex cm false i.name) D' ∧ Holds (fun y => S y ∧ obj y ≠ obj (.createIndex i)) D' := by
  refine ⟨_, Exec.dropIndex cm false i.name ?_, ?_⟩
  · rw [(h.idxs _ _).2 ⟨i, hs, rfl, rfl⟩]
    rfl
  · refine ⟨fun n T => ?_, fun n I => ?_⟩
    · simp only
      rw [h.tabs]
      constructor
      · rintro ⟨u, hu, r⟩
        exact ⟨u, ⟨hu, by rw [obj_index, obj_table]; simp⟩, r⟩
      · rintro ⟨u, ⟨hu, _⟩, r⟩
        exact ⟨u, hu, r⟩
    · simp only
      by_cases hn : n = i.name.name
      · subst hn
        rw [put_same]
        constructor
        · intro h; cases h
        · rintro ⟨u, ⟨_, hu⟩, hn, _⟩
          exact absurd (by rw [obj_index, obj_index, hn]) hu
      · rw [put_ne _ _ hn, h.idxs]
        constructor
        · rintro ⟨u, hu, hn', r⟩
          refine ⟨u, ⟨hu, ?_⟩, hn', r⟩
          rw [obj_index, obj_index]
          simp [hn', hn]
        · rintro ⟨u, ⟨hu, _⟩, r⟩
          exact ⟨u, hu, r⟩

theorem bare_tableName (i : CreateIndex) : i.bare.tableName.diffStr = i.tableName.diffStr := ObjectName.bare_diffStr _

theorem bare_columns (i : CreateIndex) : i.bare.columns.map (·.name) = i.columns.map (·.name) := by
  simp [CreateIndex.bare, Ident.bare]

theorem exec_dropTable {S : PStmt → Prop} {D : Catalog} (h : Holds S D) {t : CreateTable} (hs : S (.createTable t))
    (hidx : ∀ i, S (.createIndex i) → i.tableName.diffStr ≠ t.name.diffStr)
    (href : ∀ u c rcs, S (.createTable u) → u.name.diffStr ≠ t.name.diffStr → c ∈ u.constraints → c.target ≠ some (t.name.diffStr, rcs)) :
    ∃ D', Exec D (.dropTable [] false t.name) D' ∧ Holds (fun y => S y ∧ obj y ≠ obj (.createTable t)) D' := by
  refine ⟨_, Exec.dropTable [] false t.name ?_ ?_, ?_⟩
  · rw [(h.tabs _ _).2 ⟨t, hs, rfl, rfl⟩]
    rfl
  · intro m U j c rcs hm hU hc htg
    obtain ⟨u, hu, hun, rfl⟩ := (h.tabs _ _).1 hU
    obtain ⟨c0, hc0, _, rfl⟩ := tableOf_con_some hc
    simp only [bare_target] at htg
    exact href u c0 rcs hu (hun ▸ hm) hc0 htg
  · refine ⟨fun n T => ?_, fun n I => ?_⟩
    · simp only
      by_cases hn : n = t.name.diffStr
      · subst hn
        rw [put_same]
        constructor
        · intro h; cases h
        · rintro ⟨u, ⟨_, hu⟩, hn, _⟩
          exact absurd (by rw [obj_table, obj_table, hn]) hu
      · rw [put_ne _ _ hn, h.tabs]
        constructor
        · rintro ⟨u, hu, hn', r⟩
          refine ⟨u, ⟨hu, ?_⟩, hn', r⟩
          rw [obj_table, obj_table]
          simp [hn', hn]
        · rintro ⟨u, ⟨hu, _⟩, r⟩
          exact ⟨u, hu, r⟩
    · simp only
      have : (D.indexes n).filter (fun i => !(i.tableName.diffStr == t.name.diffStr)) = D.indexes n := by
        cases hI : D.indexes n with
        | none => rfl
        | some J =>
          obtain ⟨i, hi, hin, rfl⟩ := (h.idxs _ _).1 hI
          refine Option.filter_eq_some_iff.2 ⟨rfl, ?_⟩
          simp [bare_tableName, hidx i hi]
      rw [this, h.idxs]
      constructor
      · rintro ⟨u, hu, r⟩
        exact ⟨u, ⟨hu, by rw [obj_index, obj_table]; simp⟩, r⟩
      · rintro ⟨u, ⟨hu, _⟩, r⟩
        exact ⟨u, hu, r⟩

/-- The DROP statements. -/
theorem drops_run {sd : Str → Str → Str} : ∀ (l : List PStmt) {S : PStmt → Prop} {D : Catalog}, Holds S D → (∀ s ∈ l, S s ∧ (obj s).isSome) →
    (l.filterMap obj).Nodup →
    (∀ t i, .createTable t ∈ l → S (.createIndex i) → i.tableName.diffStr ≠ t.name.diffStr) →
    (∀ t u c rcs, .createTable t ∈ l → S (.createTable u) → u.name.diffStr ≠ t.name.diffStr → c ∈ u.constraints →
      c.target ≠ some (t.name.diffStr, rcs)) →
    ∃ ds D', mapRes (dropOf (ops sd)) l = .ok ds ∧ Execs D ds D' ∧ Holds (fun y => S y ∧ ∀ x ∈ l, obj y ≠ obj x) D' := by
  intro l
  induction l with
  | nil =>
    intro S D h _ _ _ _
    exact ⟨[], D, rfl, .nil _, h.congr fun s _ => by simp⟩
  | cons s l ih =>
    intro S D h hs hnd hidx href
    obtain ⟨hS, hk⟩ := hs s (by simp)
    obtain ⟨k, hk⟩ := Option.isSome_iff_exists.1 hk
    have hone : ∃ x D1, dropOf (ops sd) s = .ok x ∧ Exec D x D1 ∧ Holds (fun y => S y ∧ obj y ≠ obj s) D1 := by
      cases s with
      | createTable t =>
        obtain ⟨D1, h1, h2⟩ := exec_dropTable h hS (fun i hi => hidx t i (by simp) hi) (fun u c rcs hu => href t u c rcs (by simp) hu)
        exact ⟨_, D1, rfl, h1, h2⟩
      | createIndex i =>
        obtain ⟨D1, h1, h2⟩ := exec_dropIndex h hS []
        exact ⟨_, D1, rfl, h1, h2⟩
      | _ => cases hk
    obtain ⟨x, D1, hx, he, h1⟩ := hone
    rw [List.filterMap_cons_some hk, List.nodup_cons] at hnd
    obtain ⟨ds, D2, hds, hr, h2⟩ := ih h1 (fun y hy => ⟨⟨(hs y (by simp [hy])).1, fun e => hnd.1
        (List.mem_filterMap.2 ⟨y, hy, e.trans hk⟩)⟩, (hs y (by simp [hy])).2⟩) hnd.2
      (fun t i ht hi => hidx t i (by simp [ht]) hi.1) (fun t u c rcs ht hu => href t u c rcs (by simp [ht]) hu.1)
    refine ⟨x :: ds, D2, ?_, .cons he hr, h2.congr fun y _ => ?_⟩
    · simp [mapRes, hx, hds]
    · simp only [List.mem_cons, forall_eq_or_imp, and_assoc]

/-! ## Schemas -/

/-- Two schemas that can be loaded, without the changes that do not work. -/
structure Pair (b a : List PStmt) : Prop where
  okb : ∀ x ∈ b, StmtOk x
  oka : ∀ x ∈ a, StmtOk x
  tb : TameSchema b
  ta : TameSchema a
  db : (b.filterMap obj).Nodup
  da : (a.filterMap obj).Nodup
  lb : Loadable b
  la : Loadable a
  hz : NoHazard b a

theorem obj_of_ok {s : PStmt} (h : StmtOk s) : (obj s).isSome := by
  cases s <;> first | rfl | exact h.elim

theorem unique_of_nodup {l : List PStmt} (hd : (l.filterMap obj).Nodup) {s s' : PStmt} {k : Obj} (hs : s ∈ l) (hs' : s' ∈ l)
    (h : obj s = some k) (h' : obj s' = some k) : s = s' :=
  distinct_unique (o := ops fun _ _ => []) hd hs hs' h h'

theorem unique_table {l : List PStmt} (hd : (l.filterMap obj).Nodup) {t u : CreateTable} (hs : .createTable t ∈ l) (hs' : .createTable u ∈ l)
    (h : t.name.diffStr = u.name.diffStr) : t = u := by
  have := unique_of_nodup hd hs hs' (obj_table t) (by rw [obj_table, h])
  cases this
  rfl

theorem unique_index {l : List PStmt} (hd : (l.filterMap obj).Nodup) {t u : CreateIndex} (hs : .createIndex t ∈ l) (hs' : .createIndex u ∈ l)
    (h : t.name.name = u.name.name) : t = u := by
  have := unique_of_nodup hd hs hs' (obj_index t) (by rw [obj_index, h])
  cases this
  rfl

theorem has_table {l : List PStmt} {n : Str} : Has (· ∈ l) (.table n) ↔ HasTable l n := by
  constructor
  · rintro ⟨s, hs, hk⟩
    cases s with
    | createTable t => rw [obj_table] at hk; cases hk; exact ⟨t, hs, rfl⟩
    | createIndex i => rw [obj_index] at hk; cases hk
    | _ => cases hk
  · rintro ⟨t, ht, rfl⟩
    exact ⟨_, ht, obj_table t⟩

theorem has_index {l : List PStmt} {n : Str} : Has (· ∈ l) (.index n) ↔ HasIndex l n := by
  constructor
  · rintro ⟨s, hs, hk⟩
    cases s with
    | createIndex t => rw [obj_index] at hk; cases hk; exact ⟨t, hs, rfl⟩
    | createTable i => rw [obj_table] at hk; cases hk
    | _ => cases hk
  · rintro ⟨t, ht, rfl⟩
    exact ⟨_, ht, obj_index t⟩

theorem isNone_iff {sd : Str → Str → Str} {s : PStmt} {l : List PStmt} {k : Obj} (hk : obj s = some k) :
    (findStmt (ops sd) s l).isNone = true ↔ ¬ Has (· ∈ l) k := by
  rw [findStmt_none_iff (o := ops sd) (by rw [obj_eq]; exact hk)]
  refine not_congr (exists_congr fun x => and_congr_right fun _ => ?_)
  rw [obj_eq]

theorem find_some {sd : Str → Str → Str} {s x : PStmt} {l : List PStmt} {k : Obj} (hd : (l.filterMap obj).Nodup) (hk : obj s = some k) (hx : x ∈ l)
    (hxk : obj x = some k) : findStmt (ops sd) s l = some x := by
  cases hf : findStmt (ops sd) s l with
  | none => exact absurd ⟨x, hx, hxk⟩ ((isNone_iff hk).1 (by rw [hf]; rfl))
  | some y =>
    obtain ⟨h1, h2⟩ := findStmt_creates (o := ops sd) (by rw [obj_eq]; exact hk) hf
    rw [obj_eq] at h2
    rw [unique_of_nodup hd h1 hx h2 hxk]

section
variable {b a : List PStmt} (h : Pair b a)
include h

omit h in
theorem table_split {l : List PStmt} (hl : Loadable l) {t : CreateTable} (ht : .createTable t ∈ l) :
    DistinctNames t ∧ ∀ c ∈ t.constraints, FitsIn (fun u => .createTable u ∈ l) t c := by
  obtain ⟨p, q, e⟩ := List.append_of_mem ht
  obtain ⟨h1, h2⟩ := hl p _ q e
  refine ⟨h1, fun c hc => ⟨(h2 c hc).1, fun r rcs hr => ?_⟩⟩
  obtain ⟨u, hu, r⟩ := (h2 c hc).2 r rcs hr
  refine ⟨u, ?_, r⟩
  rcases hu with hu | rfl
  · rw [e]; simp [hu]
  · exact ht

omit h in
theorem index_split {l : List PStmt} (hl : Loadable l) {i : CreateIndex} (ht : .createIndex i ∈ l) :
    ∃ u, .createTable u ∈ l ∧ u.name.diffStr = i.tableName.diffStr ∧ ∀ k ∈ i.columns, HasColumn u k.name := by
  obtain ⟨p, q, e⟩ := List.append_of_mem ht
  obtain ⟨u, hu, r⟩ := hl p _ q e
  exact ⟨u, by rw [e]; simp [hu], r⟩

/-- The statements of `b` about objects that stay. -/
def Kept (b a : List PStmt) (y : PStmt) : Prop := y ∈ b ∧ ∃ k, obj y = some k ∧ Has (· ∈ a) k

/-- What there is after the DROP and CREATE statements. -/
theorem creates_run {sd : Str → Str → Str} {D : Catalog} (hD : Holds (Kept b a) D) :
    ∃ D', mapRes createOf (onlyLeftStmt (ops sd) a b) = .ok (onlyLeftStmt (ops sd) a b) ∧ Execs D (onlyLeftStmt (ops sd) a b) D' ∧
      Holds (fun y => Kept b a y ∨ (y ∈ a ∧ ∀ k, obj y = some k → ¬ Has (· ∈ b) k)) D' := by
  have main : ∀ q p, a = p ++ q → ∀ D, Holds (fun y => Kept b a y ∨ (y ∈ p ∧ ∀ k, obj y = some k → ¬ Has (· ∈ b) k)) D →
      ∃ D', mapRes createOf (onlyLeftStmt (ops sd) q b) = .ok (onlyLeftStmt (ops sd) q b) ∧ Execs D (onlyLeftStmt (ops sd) q b) D' ∧
        Holds (fun y => Kept b a y ∨ (y ∈ a ∧ ∀ k, obj y = some k → ¬ Has (· ∈ b) k)) D' := by
    intro q
    induction q with
    | nil =>
      intro p e D hD
      rw [List.append_nil] at e
      subst e
      exact ⟨D, rfl, .nil _, hD⟩
    | cons s q ih =>
      intro p e D hD
      have hs : s ∈ a := by rw [e]; simp
      obtain ⟨k, hk⟩ := Option.isSome_iff_exists.1 (obj_of_ok (h.oka s hs))
      by_cases hb : Has (· ∈ b) k
      · have : onlyLeftStmt (ops sd) (s :: q) b = onlyLeftStmt (ops sd) q b := by
          unfold onlyLeftStmt
          rw [List.filter_cons_of_neg]
          rw [isNone_iff hk]
          simpa using hb
        rw [this]
        refine ih (p ++ [s]) (by simp [e]) D (hD.congr fun y _ => ?_)
        refine or_congr_right (and_congr_left fun hy => ?_)
        rw [List.mem_append, List.mem_singleton]
        refine ⟨Or.inl, fun hy' => hy'.elim id fun e => ?_⟩
        subst e
        exact absurd hb (hy k hk)
      · have : onlyLeftStmt (ops sd) (s :: q) b = s :: onlyLeftStmt (ops sd) q b := by
          unfold onlyLeftStmt
          rw [List.filter_cons_of_pos]
          rw [isNone_iff hk]
          exact hb
        rw [this]
        have hno : ¬ Has (fun y => Kept b a y ∨ (y ∈ p ∧ ∀ k, obj y = some k → ¬ Has (· ∈ b) k)) k := by
          rintro ⟨x, hx | hx, hxk⟩
          · exact hb ⟨x, hx.1, hxk⟩
          · exact fresh h.da e hk ⟨x, hx.1, hxk⟩
        -- a table created before is there, with the columns of the old one if it stays
        have tab : ∀ u, .createTable u ∈ p → ∀ ks : List Str, (∀ k ∈ ks, HasColumn u k) →
            (∀ t, Stays b a t u → ∀ k ∈ ks, HasColumn t k) →
            ∃ v, (Kept b a (.createTable v) ∨ (.createTable v ∈ p ∧ ∀ k, obj (.createTable v) = some k → ¬ Has (· ∈ b) k)) ∧
              v.name.diffStr = u.name.diffStr ∧ ∀ k ∈ ks, HasColumn v k := by
          intro u hu ks hks hst
          have hua : .createTable u ∈ a := by rw [e]; simp [hu]
          by_cases hub : Has (· ∈ b) (.table u.name.diffStr)
          · obtain ⟨v, hv, hvn⟩ := has_table.1 hub
            exact ⟨v, Or.inl ⟨hv, _, obj_table v, has_table.2 ⟨u, hua, hvn.symm⟩⟩, hvn, hst v ⟨hv, hua, hvn⟩⟩
          · refine ⟨u, Or.inr ⟨hu, fun k hk => ?_⟩, rfl, hks⟩
            rw [obj_table] at hk
            cases hk
            exact hub
        have hok : OkIn (fun y => Kept b a y ∨ (y ∈ p ∧ ∀ k, obj y = some k → ¬ Has (· ∈ b) k)) s := by
          have := h.la p s q e
          cases s with
          | createTable t =>
            refine ⟨this.1, fun c hc => ⟨(this.2 c hc).1, fun r rcs hr => ?_⟩⟩
            obtain ⟨u, hu, hun, hcs⟩ := (this.2 c hc).2 r rcs hr
            rcases hu with hu | rfl
            · obtain ⟨v, hv, hvn, hvc⟩ := tab u hu rcs hcs (fun v hv k' hkk => by
                have hne : t.name.diffStr ≠ v.name.diffStr := by
                  intro he
                  rw [obj_table] at hk
                  cases hk
                  exact hb (has_table.2 ⟨v, hv.1, he.symm⟩)
                rcases h.hz.referredColumn v u t c rcs k' hv hs hne hc (by rw [hr, hv.2.2, hun]) hkk with h1 | h1
                · exact h1
                · rw [obj_table] at hk
                  cases hk
                  exact absurd (has_table.2 h1.1) hb)
              exact ⟨v, Or.inl hv, hvn.trans hun, hvc⟩
            · exact ⟨u, Or.inr rfl, hun, hcs⟩
          | createIndex i =>
            obtain ⟨u, hu, hun, hcs⟩ := this
            obtain ⟨v, hv, hvn, hvc⟩ := tab u hu (i.columns.map (·.name)) (by simpa using hcs) (fun v hv k' hk' => by
              obtain ⟨c, hc, rfl⟩ := List.mem_map.1 hk'
              refine h.hz.newIndexColumn v u i c hv hs (fun hi => hb ?_) (by rw [hv.2.2, hun]) hc
              rw [obj_index] at hk
              cases hk
              exact has_index.2 hi)
            exact ⟨v, hv, hvn.trans hun, fun k hk => hvc _ (List.mem_map.2 ⟨k, hk, rfl⟩)⟩
          | _ => cases hk
        obtain ⟨D1, he, h1⟩ := exec_create hD hk hno hok
        obtain ⟨D2, h2, h3, h4⟩ := ih (p ++ [s]) (by simp [e]) D1 (h1.congr fun y _ => by
          rw [List.mem_append, List.mem_singleton]
          constructor
          · rintro ((h1 | h1) | rfl)
            · exact Or.inl h1
            · exact Or.inr ⟨Or.inl h1.1, h1.2⟩
            · refine Or.inr ⟨Or.inr rfl, fun k' hk' => ?_⟩
              rw [hk] at hk'
              cases hk'
              exact hb
          · rintro (h1 | ⟨h1 | h1, h2⟩)
            · exact Or.inl (Or.inl h1)
            · exact Or.inl (Or.inr ⟨h1, h2⟩)
            · exact Or.inr h1)
        refine ⟨D2, ?_, .cons he h3, h4⟩
        have : createOf s = .ok s := by
          cases s <;> first | rfl | cases hk
        simp [mapRes, this, h2]
  exact main a [] rfl D (hD.congr fun y _ => by simp)

/-- What there is after the statements for `p`, where `b` is `p` followed by `q`. -/
def Mid (a q : List PStmt) (y : PStmt) : Prop :=
  (y ∈ q ∧ ∃ k, obj y = some k ∧ Has (· ∈ a) k) ∨ (y ∈ a ∧ ∀ k, obj y = some k → ¬ Has (· ∈ q) k)

theorem tabCond {p q : List PStmt} {t t' : CreateTable} (e : b = p ++ .createTable t :: q) (ht' : .createTable t' ∈ a)
    (hn : t.name.diffStr = t'.name.diffStr) {D : Catalog} (hD : Holds (Mid a (.createTable t :: q)) D) :
    TabCond D t.name.diffStr t t' := by
  have ht : .createTable t ∈ b := by rw [e]; simp
  have hst : Stays b a t t' := ⟨ht, ht', hn⟩
  have hq : ∀ y ∈ .createTable t :: q, y ∈ b := fun y hy => by rw [e]; exact List.mem_append_right _ hy
  obtain ⟨d1, d2⟩ := table_split h.lb ht
  obtain ⟨d1', d2'⟩ := table_split h.la ht'
  refine
    { name := rfl
      name' := hn.symm
      ok := h.okb _ ht
      ok' := h.oka _ ht'
      tame := h.tb.1 t ht
      tame' := h.ta.1 t' ht'
      dist := d1
      dist' := d1'
      columns := fun c hc => (d2 c hc).1
      columns' := fun c hc => (d2' c hc).1
      target := ?_
      targetSelf := ?_
      dropRef := ?_
      dropRefSelf := ?_
      dropCon := ?_
      dropIdx := ?_
      lostNotNull := fun c hc c' hc' => fun h1 h2 h3 p hp hp' => h.hz.lostNotNull t t' c c' p hst hc hc' h1 h2 h3 hp hp'
      lostKey := fun c hc c' hc' => fun h1 h2 h3 p hp hp' => h.hz.lostKey t t' c c' p hst hc hc' h1 h2 h3 hp hp' }
  · intro c hc r rcs hr hrn
    obtain ⟨u, hu, hun, hcs⟩ := (d2' c hc).2 r rcs hr
    by_cases hq' : Has (· ∈ .createTable t :: q) (.table r)
    · obtain ⟨v, hv, hvn⟩ := has_table.1 hq'
      refine ⟨tableOf v, (hD.tabs _ _).2 ⟨v, Or.inl ⟨hv, _, obj_table v, has_table.2 ⟨u, hu, by rw [hun, hvn]⟩⟩, hvn, rfl⟩,
        fun k hk => tableOf_cols.2 ?_⟩
      rcases h.hz.referredColumn v u t' c rcs k ⟨hq _ hv, hu, by rw [hvn, hun]⟩ ht' (by rw [hvn, ← hn]; exact Ne.symm hrn) hc
        (by rw [hr, hvn]) hk with h1 | ⟨_, p1, q1, e1, hp1, hp2⟩
      · exact h1
      · exfalso
        obtain ⟨w, hw, hwn⟩ := hp1
        have hwv : w = v := unique_table h.db (by rw [e1]; simp [hw]) (hq _ hv) hwn
        subst hwv
        -- `t` is before `v`, so in `p1`
        have hvq : .createTable w ∈ q := by
          rcases List.mem_cons.1 hv with hv | hv
          · cases hv
            exact absurd hvn.symm hrn
          · exact hv
        have hwp : .createTable w ∉ p := by
          intro hwp
          obtain ⟨q2, q3, e3⟩ := List.append_of_mem hvq
          exact fresh (l := b) h.db (p := p ++ .createTable t :: q2) (q := q3) (by rw [e, e3]; simp) (obj_table w)
            ⟨_, by simp [hwp], obj_table w⟩
        rw [e] at e1
        rcases List.append_eq_append_iff.1 e1 with ⟨l, h1, h2⟩ | ⟨l, h1, h2⟩
        · cases l with
          | nil =>
            rw [List.append_nil] at h1
            exact hwp (h1 ▸ hw)
          | cons x l =>
            rw [List.cons_append] at h2
            cases h2
            exact hp2 ⟨t, by rw [h1]; simp, hn⟩
        · exact hwp (by rw [h1]; simp [hw])
    · refine ⟨tableOf u, (hD.tabs _ _).2 ⟨u, Or.inr ⟨hu, fun k hk => ?_⟩, hun, rfl⟩, fun k hk => tableOf_cols.2 (hcs k hk)⟩
      rw [obj_table, hun] at hk
      cases hk
      exact hq'
  · intro c hc rcs hr k hk
    obtain ⟨u, hu, hun, hcs⟩ := (d2' c hc).2 _ rcs hr
    rw [← unique_table h.da hu ht' (hun.trans hn)]
    exact hcs k hk
  · intro m U j c rcs hm hU hc htg k hk hkt
    obtain ⟨u, hu, hun, rfl⟩ := (hD.tabs _ _).1 hU
    obtain ⟨c0, hc0, _, rfl⟩ := tableOf_con_some hc
    simp only [bare_target] at htg
    by_contra hno
    rcases hu with ⟨hu, x, hx, hxa⟩ | ⟨hu, _⟩
    · rw [obj_table] at hx
      cases hx
      have := h.hz.droppedColumnReferred t t' u k c0 rcs hst hkt hno (hq _ hu) (has_table.1 hxa) hc0 htg hk
      exact hm (hun ▸ this.1)
    · obtain ⟨v, hv, hvn, hcs⟩ := ((table_split h.la hu).2 c0 hc0).2 _ rcs htg
      rw [unique_table h.da hv ht' (hvn.trans hn)] at hcs
      exact hno (hcs k hk)
  · intro c hc hcn rcs hr k hk hkt
    by_contra hno
    exact (h.hz.droppedColumnReferred t t' t k c rcs hst hkt hno ht ⟨t', ht', hn.symm⟩ hc hr hk).2 hcn
  · intro c hc hcn k hk hkt
    by_contra hno
    exact h.hz.droppedColumnConstraint t t' k c hst hkt hno hc hcn hk
  · intro j I hI hIn k hk hkt
    obtain ⟨i, hi, hin, rfl⟩ := (hD.idxs _ _).1 hI
    rw [bare_tableName] at hIn
    rw [bare_columns] at hk
    by_contra hno
    rcases hi with ⟨hi, x, hx, hxa⟩ | ⟨hi, _⟩
    · rw [obj_index] at hx
      cases hx
      exact h.hz.droppedColumnIndex t t' k i hst hkt hno (hq _ hi) (has_index.1 hxa) hIn hk
    · obtain ⟨v, hv, hvn, hcs⟩ := index_split h.la hi
      rw [unique_table h.da hv ht' (hvn.trans (hIn.trans hn))] at hcs
      obtain ⟨x, hx, rfl⟩ := List.mem_map.1 hk
      exact hno (hcs x hx)

/-- The old statement is replaced by the new one. -/
theorem mid_step {p q : List PStmt} {s s' : PStmt} {k : Obj} (e : b = p ++ s :: q) (hs : obj s = some k) (hs' : s' ∈ a) (hk' : obj s' = some k)
    (y : PStmt) : Mid a q y ↔ (Mid a (s :: q) y ∧ obj y ≠ some k) ∨ y = s' := by
  have hq := fresh_after h.db e hs
  have hasq : ∀ x, Has (· ∈ s :: q) x ↔ x = k ∨ Has (· ∈ q) x := by
    intro x
    constructor
    · rintro ⟨y, hy, hyx⟩
      rcases List.mem_cons.1 hy with rfl | hy
      · rw [hs] at hyx; cases hyx; exact Or.inl rfl
      · exact Or.inr ⟨y, hy, hyx⟩
    · rintro (rfl | ⟨y, hy, hyx⟩)
      · exact ⟨s, by simp, hs⟩
      · exact ⟨y, by simp [hy], hyx⟩
  constructor
  · rintro (⟨hy, x, hx, hxa⟩ | ⟨hy, hyq⟩)
    · refine Or.inl ⟨Or.inl ⟨by simp [hy], x, hx, hxa⟩, fun hyk => hq ⟨y, hy, hyk⟩⟩
    · by_cases hyk : obj y = some k
      · exact Or.inr (unique_of_nodup h.da hy hs' hyk hk')
      · refine Or.inl ⟨Or.inr ⟨hy, fun x hx => ?_⟩, hyk⟩
        rw [hasq]
        rintro (rfl | h1)
        · exact hyk hx
        · exact hyq x hx h1
  · rintro (⟨⟨hy, x, hx, hxa⟩ | ⟨hy, hyq⟩, hyk⟩ | rfl)
    · rcases List.mem_cons.1 hy with rfl | hy
      · exact absurd hs hyk
      · exact Or.inl ⟨hy, x, hx, hxa⟩
    · refine Or.inr ⟨hy, fun x hx hxq => hyq x hx ?_⟩
      rw [hasq]
      exact Or.inr hxq
    · refine Or.inr ⟨hs', fun x hx => ?_⟩
      rw [hk'] at hx
      cases hx
      exact hq

theorem alter_step {sd : Str → Str → Str} {p q : List PStmt} {s : PStmt} (e : b = p ++ s :: q) {D : Catalog} (hD : Holds (Mid a (s :: q)) D) :
    ∃ l D', alterOf (ops sd) a s = .ok l ∧ Execs D l D' ∧ Holds (Mid a q) D' := by
  have hsb : s ∈ b := by rw [e]; simp
  obtain ⟨k, hk⟩ := Option.isSome_iff_exists.1 (obj_of_ok (h.okb s hsb))
  by_cases ha : Has (· ∈ a) k
  · obtain ⟨s', hs', hk'⟩ := ha
    have hf := find_some (sd := sd) h.da hk hs' hk'
    have hms := mid_step h e hk hs' hk'
    have hS : Mid a (s :: q) s := Or.inl ⟨by simp, k, hk, s', hs', hk'⟩
    cases s with
    | createTable t =>
      rw [obj_table] at hk
      cases hk
      obtain ⟨t', ht', hn⟩ := has_table.1 ⟨s', hs', hk'⟩
      cases unique_of_nodup h.da ht' hs' (by rw [obj_table, hn]) hk'
      have hc := tabCond h e ht' hn.symm hD
      -- the result of the alterations
      have hres : ∀ D', D' = D.setTable t.name.diffStr (tableOf t') → Holds (Mid a q) D' := by
        rintro _ rfl
        refine Holds.congr (S := fun y => (Mid a (.createTable t :: q) y ∧ obj y ≠ some (.table t.name.diffStr)) ∨ y = .createTable t') ?_
          (fun y _ => (hms y).symm)
        refine ⟨fun n T => ?_, fun n I => ?_⟩
        · simp only [Catalog.setTable]
          by_cases hnn : n = t.name.diffStr
          · subst hnn
            rw [put_same, Option.some.injEq]
            constructor
            · rintro rfl
              exact ⟨t', Or.inr rfl, hn, rfl⟩
            · rintro ⟨u, ⟨_, hu⟩ | hu, hun, rfl⟩
              · exact absurd (by rw [obj_table, hun]) hu
              · cases hu; rfl
          · rw [put_ne _ _ hnn, hD.tabs]
            constructor
            · rintro ⟨u, hu, hun, r⟩
              exact ⟨u, Or.inl ⟨hu, by rw [obj_table]; simp [hun, hnn]⟩, hun, r⟩
            · rintro ⟨u, ⟨hu, _⟩ | hu, hun, r⟩
              · exact ⟨u, hu, hun, r⟩
              · cases hu
                exact absurd (hun.symm.trans hn) hnn
        · simp only [Catalog.setTable]
          rw [hD.idxs]
          constructor
          · rintro ⟨u, hu, r⟩
            exact ⟨u, Or.inl ⟨hu, by rw [obj_index]; simp⟩, r⟩
          · rintro ⟨u, ⟨hu, _⟩ | hu, r⟩
            · exact ⟨u, hu, r⟩
            · cases hu
      have hself : D.setTable t.name.diffStr (tableOf t) = D := setTable_self ((hD.tabs _ _).2 ⟨t, hS, rfl, rfl⟩)
      have hrun := table_run (sd := sd) hc
      unfold Run at hrun
      rw [hself] at hrun
      have hsp : ∀ {t : CreateTable}, t.Tame → t.Spelled := fun ht => ⟨fun c hc => (ht.2 c hc).2, fun c hc => (ht.1 c hc).2.2⟩
      have hdt : (diffCreateTable sd false (some t) (some t') = .err .noDifference ∧ Execs D [] (D.setTable t.name.diffStr (tableOf t'))) ∨
          ∃ l, diffCreateTable sd false (some t) (some t') = .ok l ∧ Execs D l (D.setTable t.name.diffStr (tableOf t')) := by
        simp only [diffCreateTable]
        split
        · rename_i hstr
          have := tableStr_inj ⟨hc.ok, hsp hc.tame⟩ ⟨hc.ok', hsp hc.tame'⟩ hstr
          subst this
          rw [hself]
          exact Or.inl ⟨rfl, .nil _⟩
        · split
          · rename_i hemp
            rw [List.isEmpty_iff] at hemp
            rw [hemp] at hrun
            exact Or.inl ⟨rfl, hrun⟩
          · exact Or.inr ⟨_, rfl, hrun⟩
      rcases hdt with ⟨h1, h2⟩ | ⟨l, h1, h2⟩
      · refine ⟨[], _, ?_, h2, hres _ rfl⟩
        simp only [alterOf, hf]
        rw [show (ops sd).diffTable t t' = diffCreateTable sd false (some t) (some t') from rfl, h1]
      · refine ⟨l, _, ?_, h2, hres _ rfl⟩
        simp only [alterOf, hf]
        rw [show (ops sd).diffTable t t' = diffCreateTable sd false (some t) (some t') from rfl, h1]
    | createIndex i =>
      rw [obj_index] at hk
      cases hk
      obtain ⟨i', hi', hn⟩ := has_index.1 ⟨s', hs', hk'⟩
      cases unique_of_nodup h.da hi' hs' (by rw [obj_index, hn]) hk'
      obtain ⟨hkt, hkm⟩ := h.hz.keptIndex i i' hsb hi' hn.symm
      by_cases hd : i.diffStr = i'.diffStr
      · refine ⟨[], D, ?_, .nil _, ?_⟩
        · simp only [alterOf, hf]
          rw [show (ops sd).indexDiffStr i = i.diffStr from rfl, show (ops sd).indexDiffStr i' = i'.diffStr from rfl]
          simp [hd]
        · have hsame : i.bare = i'.bare := hkm (index_noDiff (h.okb _ hsb) (h.oka _ hi') (h.tb.2 i hsb) (h.ta.2 i' hi') hn.symm hd)
          refine Holds.congr (S := fun y => (Mid a (.createIndex i :: q) y ∧ obj y ≠ some (.index i.name.name)) ∨ y = .createIndex i') ?_
            (fun y _ => (hms y).symm)
          refine ⟨fun n T => ?_, fun n I => ?_⟩
          · rw [hD.tabs]
            constructor
            · rintro ⟨u, hu, r⟩
              exact ⟨u, Or.inl ⟨hu, by rw [obj_table]; simp⟩, r⟩
            · rintro ⟨u, ⟨hu, _⟩ | hu, r⟩
              · exact ⟨u, hu, r⟩
              · cases hu
          · by_cases hnn : n = i.name.name
            · subst hnn
              rw [(hD.idxs _ i.bare).2 ⟨i, hS, rfl, rfl⟩, Option.some.injEq]
              constructor
              · rintro rfl
                exact ⟨i', Or.inr rfl, hn, hsame.symm⟩
              · rintro ⟨u, ⟨_, hu⟩ | hu, hun, rfl⟩
                · exact absurd (by rw [obj_index, hun]) hu
                · cases hu; exact hsame
            · rw [hD.idxs]
              constructor
              · rintro ⟨u, hu, hun, r⟩
                exact ⟨u, Or.inl ⟨hu, by rw [obj_index]; simp [hun, hnn]⟩, hun, r⟩
              · rintro ⟨u, ⟨hu, _⟩ | hu, hun, r⟩
                · exact ⟨u, hu, hun, r⟩
                · cases hu
                  exact absurd (hun.symm.trans hn) hnn
      · obtain ⟨D1, e1, h1⟩ := exec_dropIndex hD hS (sd i.diffStr i'.diffStr)
        have hok : OkIn (fun y => Mid a (.createIndex i :: q) y ∧ obj y ≠ obj (.createIndex i)) (.createIndex i') := by
          obtain ⟨u, hu, hun, hcs⟩ := index_split h.la hi'
          refine ⟨u, ⟨Or.inr ⟨hu, fun x hx hq => ?_⟩, by rw [obj_index, obj_table]; simp⟩, hun, hcs⟩
          -- the table of the index is defined before the index
          rw [obj_table, hun, ← hkt] at hx
          cases hx
          obtain ⟨v, hv, hvn, _⟩ := h.lb p _ q e
          obtain ⟨w, hw, hwn⟩ := has_table.1 hq
          rcases List.mem_cons.1 hw with hw | hw
          · cases hw
          · obtain ⟨q2, q3, e3⟩ := List.append_of_mem hw
            exact fresh (l := b) h.db (p := p ++ .createIndex i :: q2) (q := q3) (by rw [e, e3]; simp) (obj_table w)
              ⟨.createTable v, by simp [hv], by rw [obj_table, hvn, hwn]⟩
        obtain ⟨D2, e2, h2⟩ := exec_create h1 (s := .createIndex i') (k := .index i.name.name) (by rw [obj_index, hn])
          (by rintro ⟨x, ⟨_, hx⟩, hxk⟩; exact hx (by rw [hxk, obj_index])) hok
        refine ⟨_, D2, ?_, .cons e1 (.cons e2 (.nil _)), h2.congr fun y _ => ?_⟩
        · simp only [alterOf, hf]
          rw [show (ops sd).indexDiffStr i = i.diffStr from rfl, show (ops sd).indexDiffStr i' = i'.diffStr from rfl,
            if_pos hd]
          rfl
        · rw [hms y, obj_index]
    | _ => cases hk
  · refine ⟨[], D, ?_, .nil _, hD.congr fun y _ => ?_⟩
    · have : findStmt (ops sd) s a = none := by
        rw [← Option.isNone_iff_eq_none, isNone_iff hk]
        exact ha
      cases s <;> simp [alterOf, this]
    · constructor
      · rintro (⟨hy, x, hx, hxa⟩ | ⟨hy, hyq⟩)
        · rcases List.mem_cons.1 hy with rfl | hy
          · rw [hk] at hx
            cases hx
            exact absurd hxa ha
          · exact Or.inl ⟨hy, x, hx, hxa⟩
        · exact Or.inr ⟨hy, fun x hx ⟨z, hz, hzx⟩ => hyq x hx ⟨z, by simp [hz], hzx⟩⟩
      · rintro (⟨hy, r⟩ | ⟨hy, hyq⟩)
        · exact Or.inl ⟨by simp [hy], r⟩
        · refine Or.inr ⟨hy, fun x hx ⟨z, hz, hzx⟩ => ?_⟩
          rcases List.mem_cons.1 hz with rfl | hz
          · rw [hk] at hzx
            cases hzx
            exact ha ⟨y, hy, hx⟩
          · exact hyq x hx ⟨z, hz, hzx⟩

theorem alters_run {sd : Str → Str → Str} : ∀ (q p : List PStmt), b = p ++ q → ∀ D, Holds (Mid a q) D →
    ∃ l D', flatMapRes (alterOf (ops sd) a) q = .ok l ∧ Execs D l D' ∧ Holds (· ∈ a) D' := by
  intro q
  induction q with
  | nil =>
    intro p e D hD
    refine ⟨[], D, rfl, .nil _, hD.congr fun y hy => ?_⟩
    unfold Mid
    simp [Has]
  | cons s q ih =>
    intro p e D hD
    obtain ⟨l1, D1, h1, h2, h3⟩ := alter_step (sd := sd) h e hD
    obtain ⟨l2, D2, h4, h5, h6⟩ := ih (p ++ [s]) (by simp [e]) D1 h3
    exact ⟨l1 ++ l2, D2, by simp [flatMapRes, h1, h4], h2.append h5, h6⟩

theorem diff_run {sd : Str → Str → Str} {B A : Catalog} (hB : Holds (· ∈ b) B) (hA : Holds (· ∈ a) A) :
    ∃ ds as, mapRes (dropOf (ops sd)) (onlyLeftStmt (ops sd) b a) = .ok ds ∧
      mapRes createOf (onlyLeftStmt (ops sd) a b) = .ok (onlyLeftStmt (ops sd) a b) ∧
      flatMapRes (alterOf (ops sd) a) b = .ok as ∧ Execs B (ds ++ onlyLeftStmt (ops sd) a b ++ as) A := by
  have hmem : ∀ s ∈ onlyLeftStmt (ops sd) b a, s ∈ b ∧ (obj s).isSome ∧ ∀ k, obj s = some k → ¬ Has (· ∈ a) k := by
    intro s hs
    have hsb := (List.mem_filter.1 hs).1
    refine ⟨hsb, obj_of_ok (h.okb s hsb), fun k hk => ?_⟩
    rw [← isNone_iff (sd := sd) hk]
    exact (List.mem_filter.1 hs).2
  obtain ⟨ds, D1, d1, d2, d3⟩ := drops_run (sd := sd) (onlyLeftStmt (ops sd) b a) hB (fun s hs => ⟨(hmem s hs).1, (hmem s hs).2.1⟩)
    (h.db.sublist ((List.filter_sublist).filterMap _))
    (fun t i ht hi => h.hz.droppedTableIndex t i (hmem _ ht).1 (fun hh => (hmem _ ht).2.2 _ (obj_table t) (has_table.2 hh)) hi)
    (fun t u c rcs ht hu hne hc => h.hz.droppedTableReferred t u c rcs (hmem _ ht).1
      (fun hh => (hmem _ ht).2.2 _ (obj_table t) (has_table.2 hh)) hu hne hc)
  have d3' : Holds (Kept b a) D1 := by
    refine d3.congr fun y hy => and_congr_right fun hyb => ?_
    obtain ⟨k, hk⟩ := Option.isSome_iff_exists.1 hy
    constructor
    · intro hall
      refine ⟨k, hk, ?_⟩
      by_contra hno
      refine hall y ?_ rfl
      exact List.mem_filter.2 ⟨hyb, (isNone_iff hk).2 hno⟩
    · rintro ⟨k', hk', hka⟩ x hx he
      exact (hmem x hx).2.2 k' (by rw [← he, hk']) hka
  obtain ⟨D2, c1, c2, c3⟩ := creates_run (sd := sd) h d3'
  obtain ⟨as, D3, a1, a2, a3⟩ := alters_run (sd := sd) h b [] rfl D2 c3
  refine ⟨ds, as, d1, c1, a1, ?_⟩
  rw [hA.unique a3]
  exact (d2.append c2).append a2

end

theorem migrate {sd : Str → Str → Str} {b a : List PStmt} {B A : Catalog} (okb : ∀ x ∈ b, StmtOk x) (oka : ∀ x ∈ a, StmtOk x)
    (tb : TameSchema b) (ta : TameSchema a) (db : DistinctObjects (ops sd) b) (da : DistinctObjects (ops sd) a)
    (hB : Execs empty b B) (hA : Execs empty a A) (hz : NoHazard b a) :
    (∃ l, diff (ops sd) (some b) (some a) = .ok l ∧ Execs B l A) ∨ (diff (ops sd) (some b) (some a) = .err .noDifference ∧ B = A) := by
  have ho : creates (ops sd) = obj := funext (obj_eq sd)
  unfold DistinctObjects at db da
  rw [ho] at db da
  obtain ⟨lb, hb⟩ := load (fun s hs => obj_of_ok (okb s hs)) db hB
  obtain ⟨la, ha⟩ := load (fun s hs => obj_of_ok (oka s hs)) da hA
  have h : Pair b a := ⟨okb, oka, tb, ta, db, da, lb, la, hz⟩
  obtain ⟨ds, as, h1, h2, h3, h4⟩ := diff_run (sd := sd) h hb ha
  simp only [diff]
  split
  · rename_i hstr
    have leg : ∀ {l : List PStmt}, (∀ x ∈ l, StmtOk x) → TameSchema l → ∀ x ∈ l, Legible x := by
      intro l hl tl x hx
      have := hl x hx
      cases x with
      | createTable t =>
        have ht := tl.1 t hx
        exact ⟨this, fun c hc => (ht.2 c hc).2, fun c hc => (ht.1 c hc).2.2⟩
      | createIndex i => exact this
      | _ => exact this.elim
    have := ddlStr_inj (leg okb tb) (leg oka ta) hstr
    subst this
    exact Or.inr ⟨rfl, hb.unique ha⟩
  · rw [h1, h2, h3]
    simp only [bind_ok]
    split
    · rename_i hemp
      rw [List.isEmpty_iff] at hemp
      rw [hemp] at h4
      cases h4
      exact Or.inr ⟨rfl, rfl⟩
    · exact Or.inl ⟨_, rfl, h4⟩

end Ddl.Pg.Db
