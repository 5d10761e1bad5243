import Verif.Lemmas.Phases
import Verif.Lemmas.RunCrdb
import Verif.Spec.SchemaCrdb

/-! # Executing the diff of two CockroachDB schemas -/

namespace Ddl.Crdb.Run
open Ddl Spec Phases
set_option autoImplicit false

variable {sd : Str → Str → Str}

/-! ## The database of a list of statements -/

/-- The first table of that name. -/
def tab (l : List CStmt) (n : Str) : Option CreateTable :=
  l.findSome? fun | .createTable t => if t.name.diffStr = n then some t else none | _ => none

/-- The first index of that name of the table. -/
def idx (l : List CStmt) (n k : Str) : Option CreateIndex :=
  l.findSome? fun | .createIndex i => if i.tableName.diffStr = n ∧ i.name.name = k then some i else none | _ => none

/-- The indexes of a table by name. -/
def ixs (l : List CStmt) (n k : Str) : Option Con := (idx l n k).map fun i => ⟨indexOf i, true⟩

/-- The table with more indexes. -/
def ext (T : Tbl) (E : Str → Option Con) : Tbl := { T with cons := fun k => (T.cons k).or (E k) }

/-- The database with the tables and indexes of the list. -/
def st (l : List CStmt) : Db := fun n => (tab l n).map fun t => ext (tableOf t) (ixs l n)

theorem tab_mem {l : List CStmt} {n : Str} {t : CreateTable} (h : tab l n = some t) : .createTable t ∈ l ∧ t.name.diffStr = n := by
  obtain ⟨s, hs, h⟩ := List.exists_of_findSome?_eq_some h
  cases s with
  | createTable u =>
    simp only [Option.ite_none_right_eq_some, Option.some.injEq] at h
    obtain ⟨h', rfl⟩ := h
    exact ⟨hs, h'⟩
  | _ => cases h

theorem idx_mem {l : List CStmt} {n k : Str} {i : CreateIndex} (h : idx l n k = some i) :
    .createIndex i ∈ l ∧ i.tableName.diffStr = n ∧ i.name.name = k := by
  obtain ⟨s, hs, h⟩ := List.exists_of_findSome?_eq_some h
  cases s with
  | createIndex u =>
    simp only [Option.ite_none_right_eq_some, Option.some.injEq] at h
    obtain ⟨h', rfl⟩ := h
    exact ⟨hs, h'⟩
  | _ => cases h

theorem tab_isSome {l : List CStmt} {n : Str} : (tab l n).isSome ↔ HasTable l n := by
  constructor
  · intro h
    obtain ⟨t, ht⟩ := Option.isSome_iff_exists.1 h
    exact ⟨t, tab_mem ht⟩
  · rintro ⟨t, ht, rfl⟩
    rw [tab, List.findSome?_isSome_iff]
    exact ⟨_, ht, by simp⟩

theorem idx_isSome {l : List CStmt} {n k : Str} : (idx l n k).isSome ↔ ∃ i, .createIndex i ∈ l ∧ i.tableName.diffStr = n ∧ i.name.name = k := by
  constructor
  · intro h
    obtain ⟨t, ht⟩ := Option.isSome_iff_exists.1 h
    exact ⟨t, idx_mem ht⟩
  · rintro ⟨t, ht, rfl, rfl⟩
    rw [idx, List.findSome?_isSome_iff]
    exact ⟨_, ht, by simp⟩

theorem tab_iff {l : List CStmt} (hd : DistinctObjects (ops sd) l) {n : Str} {t : CreateTable} :
    tab l n = some t ↔ .createTable t ∈ l ∧ t.name.diffStr = n := by
  refine ⟨tab_mem, ?_⟩
  rintro ⟨ht, rfl⟩
  obtain ⟨u, hu⟩ := Option.isSome_iff_exists.1 (tab_isSome.2 ⟨t, ht, rfl⟩)
  obtain ⟨h1, h2⟩ := tab_mem hu
  have := distinct_unique hd h1 ht (k := .table t.name.diffStr) (by simp [creates, ops, h2]) (by simp [creates, ops])
  cases this
  exact hu

theorem idx_iff {l : List CStmt} (hd : DistinctObjects (ops sd) l) {n k : Str} {i : CreateIndex} :
    idx l n k = some i ↔ .createIndex i ∈ l ∧ i.tableName.diffStr = n ∧ i.name.name = k := by
  refine ⟨idx_mem, ?_⟩
  rintro ⟨ht, rfl, rfl⟩
  obtain ⟨u, hu⟩ := Option.isSome_iff_exists.1 (idx_isSome.2 ⟨i, ht, rfl, rfl⟩)
  obtain ⟨h1, _, h2⟩ := idx_mem hu
  have := distinct_unique hd h1 ht (k := .index i.name.name) (by simp [creates, ops, Ident.diffStr, h2]) (by simp [creates, ops, Ident.diffStr])
  cases this
  exact hu

theorem st_perm {l l' : List CStmt} (h : l.Perm l') (hd : DistinctObjects (ops sd) l) : st l = st l' := by
  have hd' := distinct_perm h hd
  have e1 : tab l = tab l' := by
    funext n
    refine Option.ext fun t => ?_
    rw [tab_iff hd, tab_iff hd', h.mem_iff]
  have e2 : idx l = idx l' := by
    funext n k
    refine Option.ext fun t => ?_
    rw [idx_iff hd, idx_iff hd', h.mem_iff]
  have e3 : ixs l = ixs l' := by
    funext n k
    rw [ixs, ixs, e2]
  funext n
  rw [st, st, e1, e3]

theorem st_nil : st [] = Db.empty := rfl

theorem ixs_table (t : CreateTable) (l : List CStmt) : ixs (.createTable t :: l) = ixs l := by
  funext n k
  simp [ixs, idx]

theorem tab_index (i : CreateIndex) (l : List CStmt) : tab (.createIndex i :: l) = tab l := by
  funext n
  simp [tab]

theorem st_table (t : CreateTable) (l : List CStmt) :
    st (.createTable t :: l) = upd (st l) t.name.diffStr (some (ext (tableOf t) (ixs l t.name.diffStr))) := by
  funext n
  simp only [st, ixs_table, upd, tab, List.findSome?_cons]
  by_cases h : t.name.diffStr = n
  · simp [h]
  · simp [h, Ne.symm h]

theorem ixs_index (i : CreateIndex) (l : List CStmt) :
    ixs (.createIndex i :: l) i.tableName.diffStr = upd (ixs l i.tableName.diffStr) i.name.name (some ⟨indexOf i, true⟩) := by
  funext k
  simp only [ixs, idx, upd, List.findSome?_cons, true_and]
  by_cases h : i.name.name = k
  · simp [h]
  · simp [h, Ne.symm h]

theorem ixs_index_ne (i : CreateIndex) (l : List CStmt) {n : Str} (h : n ≠ i.tableName.diffStr) : ixs (.createIndex i :: l) n = ixs l n := by
  funext k
  simp [ixs, idx, Ne.symm h]

theorem ext_upd {T : Tbl} {E : Str → Option Con} {k : Str} {v : Option Con} (h : T.cons k = none) :
    ext T (upd E k v) = { ext T E with cons := upd (ext T E).cons k v } := by
  simp only [ext, Tbl.mk.injEq, true_and]
  funext j
  simp only [upd]
  split
  · subst j
    rw [h, Option.none_or]
  · rfl

theorem st_index {i : CreateIndex} {l : List CStmt} {t : CreateTable} (ht : tab l i.tableName.diffStr = some t)
    (hc : (tableOf t).cons i.name.name = none) :
    st (.createIndex i :: l) = upd (st l) i.tableName.diffStr
      (some { ext (tableOf t) (ixs l i.tableName.diffStr) with
        cons := upd (ext (tableOf t) (ixs l i.tableName.diffStr)).cons i.name.name (some ⟨indexOf i, true⟩) }) := by
  funext n
  simp only [st, tab_index, upd]
  split
  · subst n
    rw [ht, Option.map_some, ixs_index, ext_upd hc]
  · rw [ixs_index_ne _ _ (by assumption)]

theorem st_isSome {l : List CStmt} {n : Str} : (st l n).isSome ↔ HasTable l n := by
  rw [← tab_isSome]
  simp [st]

theorem st_none {l : List CStmt} {n : Str} : st l n = none ↔ ¬ HasTable l n := by
  rw [← st_isSome]
  simp

theorem st_some {l : List CStmt} {n : Str} {T : Tbl} (h : st l n = some T) :
    ∃ t, .createTable t ∈ l ∧ t.name.diffStr = n ∧ ext (tableOf t) (ixs l n) = T := by
  simp only [st, Option.map_eq_some_iff] at h
  obtain ⟨t, ht, rfl⟩ := h
  obtain ⟨h1, h2⟩ := tab_mem ht
  exact ⟨t, h1, h2, rfl⟩

theorem st_of_mem {l : List CStmt} (hd : DistinctObjects (ops sd) l) {t : CreateTable} (h : .createTable t ∈ l) :
    st l t.name.diffStr = some (ext (tableOf t) (ixs l t.name.diffStr)) := by
  simp only [st, (tab_iff hd).2 ⟨h, rfl⟩, Option.map_some]

theorem tableOf_cols {t : CreateTable} {k : Str} : ((tableOf t).cols k).isSome ↔ HasColumn t k := by
  simp [tableOf, HasColumn]

theorem tableOf_cons_none {t : CreateTable} {k : Str} : (tableOf t).cons k = none ↔ ∀ c ∈ t.constraints, c.name.name ≠ k := by
  simp [tableOf]

theorem tableOf_cons_some {t : CreateTable} {k : Str} {x : Con} (h : (tableOf t).cons k = some x) :
    ∃ c ∈ t.constraints, c.name.name = k ∧ x = ⟨defOf c, true⟩ := by
  simp only [tableOf, Option.map_eq_some_iff] at h
  obtain ⟨c, hf, rfl⟩ := h
  have := List.find?_some hf
  exact ⟨c, List.mem_of_find?_eq_some hf, by simpa using this, rfl⟩

theorem ixs_some {l : List CStmt} {n k : Str} {x : Con} (h : ixs l n k = some x) :
    ∃ i, .createIndex i ∈ l ∧ i.tableName.diffStr = n ∧ i.name.name = k ∧ x = ⟨indexOf i, true⟩ := by
  simp only [ixs, Option.map_eq_some_iff] at h
  obtain ⟨i, hi, rfl⟩ := h
  obtain ⟨h1, h2, h3⟩ := idx_mem hi
  exact ⟨i, h1, h2, h3, rfl⟩

theorem ixs_none {l : List CStmt} {n k : Str} : ixs l n k = none ↔ ∀ i, .createIndex i ∈ l → i.tableName.diffStr = n → i.name.name ≠ k := by
  rw [← Option.not_isSome_iff_eq_none]
  simp only [ixs, Option.isSome_map, idx_isSome]
  constructor
  · intro h i hi hn hk
    exact h ⟨i, hi, hn, hk⟩
  · rintro h ⟨i, hi, hn, hk⟩
    exact h i hi hn hk

theorem defOf_target (c : Constraint) : (defOf c).target = c.target := by
  cases c <;> rfl

theorem ext_refers {t : CreateTable} {l : List CStmt} {n m : Str} (h : (ext (tableOf t) (ixs l n)).Refers m) :
    ∃ c ∈ t.constraints, c.target = some m := by
  obtain ⟨k, x, hx, ht⟩ := h
  simp only [ext, Option.or_eq_some_iff] at hx
  rcases hx with hx | ⟨_, hx⟩
  · obtain ⟨c, hc, _, rfl⟩ := tableOf_cons_some hx
    exact ⟨c, hc, by rw [← defOf_target]; exact ht⟩
  · obtain ⟨i, _, _, _, rfl⟩ := ixs_some hx
    cases ht

theorem isIndex_of_defOf {c : Constraint} {uq : Bool} {pre post : Str} {cs : List ColumnIdent} (h : defOf c = .index uq pre cs post) : c.IsIndex := by
  cases c <;> first | trivial | cases h

theorem indexOn_of_st {l : List CStmt} {n k : Str} {T : Tbl} (h : st l n = some T) (hk : T.HasIndex k) : IndexOn l n k := by
  obtain ⟨t, ht, hn, rfl⟩ := st_some h
  obtain ⟨uq, pre, cs, post, v, hx⟩ := hk
  simp only [ext, Option.or_eq_some_iff] at hx
  rcases hx with hx | ⟨_, hx⟩
  · obtain ⟨c, hc, hck, e⟩ := tableOf_cons_some hx
    refine Or.inl ⟨t, ht, hn, c, hc, ?_, hck⟩
    simp only [Con.mk.injEq] at e
    exact isIndex_of_defOf e.1.symm
  · obtain ⟨i, hi, hin, hik, _⟩ := ixs_some hx
    exact Or.inr ⟨i, hi, hin, hik⟩

theorem IndexOn.mono {l l' : List CStmt} {n k : Str} (h : IndexOn l n k) (hs : ∀ s ∈ l, s ∈ l') : IndexOn l' n k := by
  rcases h with ⟨t, ht, r⟩ | ⟨i, hi, r⟩
  · exact Or.inl ⟨t, hs _ ht, r⟩
  · exact Or.inr ⟨i, hs _ hi, r⟩

theorem hasTable_iff {l : List CStmt} {n : Str} : HasTable l n ↔ Defines (ops sd) l (.table n) := by
  constructor
  · rintro ⟨t, ht, rfl⟩
    exact ⟨_, ht, rfl⟩
  · rintro ⟨s, hs, h⟩
    cases s with
    | createTable t =>
      simp only [creates, ops, Option.some.injEq, Obj.table.injEq] at h
      exact ⟨t, hs, h⟩
    | _ => simp [creates] at h

theorem hasIndex_iff {l : List CStmt} {n : Str} : HasIndex l n ↔ Defines (ops sd) l (.index n) := by
  constructor
  · rintro ⟨t, ht, rfl⟩
    exact ⟨_, ht, rfl⟩
  · rintro ⟨s, hs, h⟩
    cases s with
    | createIndex t =>
      simp only [creates, ops, Option.some.injEq, Obj.index.injEq] at h
      exact ⟨t, hs, h⟩
    | _ => simp [creates] at h

/-! ## Creating -/

/-- The statement can be executed after those of `p`. -/
def OkAfter (p : List CStmt) : CStmt → Prop
  | .createTable t => DistinctNames t ∧ (∀ c ∈ t.constraints, ∀ k ∈ c.columnNames, ∃ x ∈ t.columns, x.name.name = k) ∧
      ∀ c ∈ t.constraints, ∀ r, c.target = some r → r = t.name.diffStr ∨ HasTable p r
  | .createIndex i => ∃ t, .createTable t ∈ p ∧ t.name.diffStr = i.tableName.diffStr ∧ ∀ x ∈ i.columns, HasColumn t x.ident.name
  | _ => False

/-- No index is on a table that is not there. -/
def NoStray (l : List CStmt) : Prop := ∀ i, .createIndex i ∈ l → HasTable l i.tableName.diffStr

/-- Names of constraints and of `CREATE INDEX` of the same table are distinct. -/
def Separate (l : List CStmt) : Prop := ∀ t i, .createTable t ∈ l → .createIndex i ∈ l → i.tableName.diffStr = t.name.diffStr →
  ∀ c ∈ t.constraints, c.name.name ≠ i.name.name

theorem not_in_rest {X Y : List CStmt} {s : CStmt} {k : Obj} (hd : DistinctObjects (ops sd) (X ++ s :: Y)) (hk : creates (ops sd) s = some k) :
    ¬ Defines (ops sd) (X ++ Y) k := by
  rintro ⟨u, hu, huk⟩
  have := distinct_perm List.perm_middle hd
  rw [DistinctObjects, List.filterMap_cons_some hk, List.nodup_cons] at this
  exact this.1 (List.mem_filterMap.2 ⟨u, hu, huk⟩)

theorem not_in_init {X : List CStmt} {s : CStmt} {k : Obj} (hd : DistinctObjects (ops sd) (X ++ [s])) (hk : creates (ops sd) s = some k) :
    ¬ Defines (ops sd) X k := by
  have := not_in_rest (Y := []) hd hk
  rwa [List.append_nil] at this

theorem table_eq {l : List CStmt} (hd : DistinctObjects (ops sd) l) {t u : CreateTable} (ht : .createTable t ∈ l) (hu : .createTable u ∈ l)
    (e : t.name.diffStr = u.name.diffStr) : t = u := by
  have := distinct_unique hd ht hu (k := .table u.name.diffStr) (by simp [creates, ops, e]) (by simp [creates, ops])
  cases this
  rfl

theorem exec_create {X : List CStmt} {s : CStmt} (hd : DistinctObjects (ops sd) (X ++ [s])) (h : OkAfter X s) (hsep : Separate (X ++ [s]))
    (hst : ∀ t i, s = .createTable t → .createIndex i ∈ X → i.tableName.diffStr ≠ t.name.diffStr) : Exec (st X) s (st (X ++ [s])) := by
  have hp : (X ++ [s]).Perm (s :: X) := by simpa using List.perm_append_comm (l₁ := X) (l₂ := [s])
  have hdX : DistinctObjects (ops sd) X := distinct_sublist (List.sublist_append_left _ _) hd
  rw [st_perm hp hd]
  cases s with
  | createTable t =>
    have hno : ¬ HasTable X t.name.diffStr := fun h => not_in_init (k := .table t.name.diffStr) hd rfl (hasTable_iff.1 h)
    have he : ixs X t.name.diffStr = fun _ => none := by
      funext k
      rw [ixs_none]
      exact fun i hi hn => absurd hn (hst t i rfl hi)
    rw [st_table, he, show ext (tableOf t) (fun _ => none) = tableOf t by simp [ext]]
    exact .createTable t (st_none.2 hno) h.1 h.2.1 fun c hc r hr => (h.2.2 c hc r hr).imp_right st_isSome.2
  | createIndex i =>
    obtain ⟨t, ht, hn, hc⟩ := h
    have htab : tab X i.tableName.diffStr = some t := (tab_iff hdX).2 ⟨ht, hn⟩
    have hcon : (tableOf t).cons i.name.name = none := tableOf_cons_none.2 fun c hcm => hsep t i (by simp [ht]) (by simp) hn.symm c hcm
    rw [st_index htab hcon]
    refine .createIndex i _ ?_ ?_ fun x hx => tableOf_cols.2 (hc x hx)
    · rw [st, htab, Option.map_some]
    · simp only [ext, hcon, Option.none_or, ixs_none]
      intro j hj _ e
      exact not_in_init (k := .index i.name.name) hd rfl (hasIndex_iff.1 ⟨j, hj, e⟩)
  | _ => exact h.elim

theorem exec_created {X : List CStmt} {s : CStmt} {D : Db} (hd : DistinctObjects (ops sd) (X ++ [s])) (hs : (creates (ops sd) s).isSome)
    (hsep : Separate (X ++ [s])) (h : Exec (st X) s D) : OkAfter X s := by
  generalize hx : st X = x at h
  cases h with
  | createTable t h1 h2 h3 h4 =>
    subst hx
    exact ⟨h2, h3, fun c hc r hr => (h4 c hc r hr).imp_right st_isSome.1⟩
  | createTableExists t h1 h2 =>
    subst hx
    exact absurd (hasTable_iff.1 (st_isSome.1 h1)) (not_in_init (k := .table t.name.diffStr) hd rfl)
  | createIndex i T h1 h2 h3 =>
    subst hx
    obtain ⟨t, ht, hn, rfl⟩ := st_some h1
    exact ⟨t, ht, hn, fun x hx => tableOf_cols.1 (h3 x hx)⟩
  | createIndexExists i T h1 h2 =>
    subst hx
    exfalso
    rcases indexOn_of_st h1 h2 with ⟨t, ht, hn, c, hc, _, e⟩ | ⟨j, hj, _, e⟩
    · exact hsep t i (by simp [ht]) (by simp) hn.symm c hc e
    · exact not_in_init (k := .index i.name.name) hd rfl (hasIndex_iff.1 ⟨j, hj, e⟩)
  | _ => simp [creates] at hs

theorem exec_unique {d d₁ d₂ : Db} {s : CStmt} (hs : (creates (ops sd) s).isSome) (h₁ : Exec d s d₁) (h₂ : Exec d s d₂) : d₁ = d₂ := by
  cases h₁ with
  | createTable t a => cases h₂ with
    | createTable => rfl
    | createTableExists _ b => rw [a] at b; cases b
  | createTableExists t a => cases h₂ with
    | createTable _ b => rw [b] at a; cases a
    | createTableExists => rfl
  | createIndex i T a b => cases h₂ with
    | createIndex _ T' a' =>
      rw [a] at a'
      cases a'
      rfl
    | createIndexExists _ T' a' b' =>
      rw [a] at a'
      cases a'
      obtain ⟨_, _, _, _, _, e⟩ := b'
      rw [b] at e
      cases e
  | createIndexExists i T a b => cases h₂ with
    | createIndex _ T' a' b' =>
      rw [a] at a'
      cases a'
      obtain ⟨_, _, _, _, _, e⟩ := b
      rw [b'] at e
      cases e
    | createIndexExists => rfl
  | _ => simp [creates] at hs

theorem Separate.mono {l l' : List CStmt} (h : Separate l') (hs : ∀ s ∈ l, s ∈ l') : Separate l :=
  fun t i ht hi => h t i (hs _ ht) (hs _ hi)

theorem noStray_snoc {p : List CStmt} {s : CStmt} (h : NoStray p) (ok : OkAfter p s) : NoStray (p ++ [s]) := by
  intro i hi
  rcases List.mem_append.1 hi with hi | hi
  · obtain ⟨t, ht, hn⟩ := h i hi
    exact ⟨t, List.mem_append_left _ ht, hn⟩
  · rw [List.mem_singleton] at hi
    subst hi
    obtain ⟨t, ht, hn, _⟩ := ok
    exact ⟨t, List.mem_append_left _ ht, hn⟩

theorem noStray_table {p : List CStmt} {s : CStmt} (hd : DistinctObjects (ops sd) (p ++ [s])) (h : NoStray p) :
    ∀ t i, s = .createTable t → .createIndex i ∈ p → i.tableName.diffStr ≠ t.name.diffStr := by
  rintro t i rfl hi e
  have := h i hi
  rw [e] at this
  exact not_in_init (k := .table t.name.diffStr) hd rfl (hasTable_iff.1 this)

theorem created {p q : List CStmt} {D : Db} (hc : CreateOnly (ops sd) q) (hd : DistinctObjects (ops sd) (p ++ q)) (hsep : Separate (p ++ q))
    (hns : NoStray p) (h : Runs Exec (st p) q D) :
    D = st (p ++ q) ∧ ∀ q₁ s q₂, q = q₁ ++ s :: q₂ → OkAfter (p ++ q₁) s := by
  induction q generalizing p with
  | nil =>
    rw [List.append_nil]
    generalize hx : st p = x at h ⊢
    cases h
    exact ⟨rfl, fun q₁ s q₂ e => by simp at e⟩
  | cons s q ih =>
    generalize hx : st p = x at h
    cases h with
    | cons h1 h2 =>
      subst hx
      have e : p ++ s :: q = p ++ [s] ++ q := by simp
      have hd1 : DistinctObjects (ops sd) (p ++ [s]) := by
        refine distinct_sublist ?_ hd
        rw [e]
        exact List.sublist_append_left _ _
      have hsep1 : Separate (p ++ [s]) := hsep.mono fun u hu => by rw [e]; exact List.mem_append_left _ hu
      have ok := exec_created hd1 (hc s (by simp)) hsep1 h1
      have := exec_unique (hc s (by simp)) h1 (exec_create hd1 ok hsep1 (noStray_table hd1 hns))
      subst this
      rw [e] at hd hsep ⊢
      obtain ⟨rfl, h3⟩ := ih (fun u hu => hc u (by simp [hu])) hd hsep (noStray_snoc hns ok) h2
      refine ⟨rfl, ?_⟩
      intro q₁ s' q₂ e'
      cases q₁ with
      | nil =>
        simp only [List.nil_append, List.cons.injEq] at e'
        obtain ⟨rfl, rfl⟩ := e'
        rw [List.append_nil]
        exact ok
      | cons x q₁ =>
        simp only [List.cons_append, List.cons.injEq] at e'
        obtain ⟨rfl, rfl⟩ := e'
        have := h3 q₁ s' q₂ rfl
        simpa using this

/-! ## The alterations of a table -/

theorem ext_set {T : Tbl} {E : Str → Option Con} {k : Str} {v : Option Con} (h : E k = none) :
    ext { T with cons := upd T.cons k v } E = { ext T E with cons := upd (ext T E).cons k v } := by
  simp only [ext, Tbl.mk.injEq, true_and]
  funext j
  simp only [upd]
  split
  · subst j
    rw [h, Option.or_none]
  · rfl

/-- The statement alters a table of the database in the presence of the indexes `E`. -/
def Fits (d : Db) (n : Str) (E : Str → Option Con) : CStmt → Prop
  | .alterTable ⟨_, _, act⟩ => (∀ U, Allowed (upd d n (some U)) act) ∧
      match act with
      | .dropColumn k => ∀ j c, E j = some c → k.name ∉ c.definition.mentions
      | .addConstraint c _ => E c.name.name = none
      | .dropConstraint k => E k.name = none
      | _ => True
  | .createIndex i => E i.name.name = none
  | .dropIndex _ _ k => E k.name = none ∧ ∀ m U, m ≠ n → d m = some U → ¬ U.HasIndex k.name
  | _ => False

theorem alter_ext {T T' : Tbl} {E : Str → Option Con} {act : Action} {d : Db} {n : Str} {cm : Str} {tn : ObjectName} (h : Alter T act T')
    (hf : Fits d n E (.alterTable ⟨cm, tn, act⟩)) : Alter (ext T E) act (ext T' E) ∧ T'.name = T.name := by
  obtain ⟨hf0, hf⟩ := hf
  cases h with
  | renameTable m => exact (hf0 T).elim
  | addColumn c h => exact ⟨.addColumn c h, rfl⟩
  | dropColumn k h1 h2 =>
    refine ⟨.dropColumn k h1 ?_, rfl⟩
    intro j c hc
    simp only [ext, Option.or_eq_some_iff] at hc
    rcases hc with hc | ⟨_, hc⟩
    · exact h2 j c hc
    · exact hf j c hc
  | setDataType k ty c h => exact ⟨.setDataType k ty c h, rfl⟩
  | setDefault k df c h => exact ⟨.setDefault k df c h, rfl⟩
  | dropDefault k c h => exact ⟨.dropDefault k c h, rfl⟩
  | setNotNull k c h => exact ⟨.setNotNull k c h, rfl⟩
  | dropNotNull k c h => exact ⟨.dropNotNull k c h, rfl⟩
  | addConstraint c nv h1 h2 h3 =>
    have hf : E c.name.name = none := hf
    rw [ext_set hf]
    exact ⟨.addConstraint c nv h1 (by simp [ext, h2, hf]) h3, rfl⟩
  | dropConstraint k c v h =>
    have hf : E k.name = none := hf
    rw [ext_set hf]
    exact ⟨.dropConstraint k c v (by simp [ext, h]), rfl⟩

theorem step_ext {T T' : Tbl} {E : Str → Option Con} {d : Db} {s : CStmt} (h : Step (some T) s (some T')) (hf : Fits d T.name E s) :
    Exec (upd d T.name (some (ext T E))) s (upd d T.name (some (ext T' E))) ∧ T'.name = T.name := by
  cases h with
  | alterTable _ _ cm tn act hn ha =>
    obtain ⟨h1, h2⟩ := alter_ext ha hf
    refine ⟨?_, h2⟩
    have := Exec.alterTable (d := upd d T.name (some (ext T E))) cm tn act _ _ (by simp [hn]) (hf.1 _) h1
    rwa [hn, upd_upd] at this
  | createIndex _ i hn h1 h2 =>
    have hf : E i.name.name = none := hf
    refine ⟨?_, rfl⟩
    have := Exec.createIndex (d := upd d T.name (some (ext T E))) i (ext T E) (by simp [hn]) (by simp [ext, h1, hf]) h2
    rw [hn, upd_upd] at this
    rwa [ext_set hf]
  | dropIndex _ cm ie k uq pre post cs v hc =>
    refine ⟨?_, rfl⟩
    have := Exec.dropIndex (d := upd d T.name (some (ext T E))) cm ie k T.name (ext T E) (by simp) ⟨uq, pre, cs, post, v, by simp [ext, hc]⟩ ?_
    · rw [upd_upd] at this
      rwa [ext_set hf.1]
    · intro m U hU hk
      by_contra hm
      rw [upd, if_neg hm] at hU
      exact hf.2 m U hm hU hk

theorem lift {l : List CStmt} {T : Tbl} {X : Option Tbl} {E : Str → Option Con} {d : Db} {n : Str} (hrun : Runs Step (some T) l X) (hT : T.name = n)
    (hl : ∀ s ∈ l, Fits d n E s) : ∃ T', X = some T' ∧ Runs Exec (upd d n (some (ext T E))) l (upd d n (some (ext T' E))) := by
  subst hT
  induction l generalizing T with
  | nil =>
    have hx : X = some T := by
      generalize some T = x at hrun
      cases hrun
      rfl
    exact ⟨T, hx, .nil _⟩
  | cons s l ih =>
    have hs := hl s List.mem_cons_self
    obtain ⟨Y, h1, h2⟩ : ∃ Y, Step (some T) s Y ∧ Runs Step Y l X := by
      generalize some T = x at hrun
      cases hrun with
      | cons h1 h2 => exact ⟨_, h1, h2⟩
    obtain ⟨T', rfl⟩ : ∃ T', Y = some T' := by
      cases Y with
      | some T' => exact ⟨T', rfl⟩
      | none =>
        cases h1
        exact hs.elim
    obtain ⟨h3, e⟩ := step_ext h1 hs
    obtain ⟨T'', hX, h4⟩ := ih h2 (by rw [e]; exact fun s hs => hl s (List.mem_cons_of_mem _ hs))
    rw [e] at h4
    exact ⟨T'', hX, .cons h3 h4⟩

/-- What the statements that alter `t` into `t'` are about. -/
def StmtOf (t t' : CreateTable) : CStmt → Prop
  | .alterTable ⟨_, _, .dropColumn k⟩ => HasColumn t k.name ∧ ¬ HasColumn t' k.name
  | .alterTable ⟨_, _, .addConstraint c _⟩ => c ∈ t'.constraints
  | .alterTable ⟨_, _, .dropConstraint k⟩ => ∃ c ∈ t.constraints, c.name.name = k.name
  | .alterTable ⟨_, _, .renameTable _⟩ => False
  | .alterTable _ => True
  | .createIndex i => ∃ c ∈ t'.constraints, c.name.name = i.name.name
  | .dropIndex _ _ k => ∃ c ∈ t.constraints, c.IsIndex ∧ c.name.name = k.name
  | _ => False

theorem diff_stmts {t t' : CreateTable} (hn : t.name.diffStr = t'.name.diffStr) (g' : Good t') (hz : NoHazard t t') {l : List CStmt}
    (h : diffCreateTable sd false (some t) (some t') = .ok l) : ∀ s ∈ l, StmtOf t t' s := by
  rw [(Crdb.diffTable_ok h).1]
  intro s hs
  simp only [List.mem_append] at hs
  rcases hs with (((hs | hs) | hs) | hs) | hs
  · simp [renameTable, hn] at hs
  · simp only [dropConstraints, List.mem_flatMap] at hs
    obtain ⟨b, hb, hs⟩ := hs
    split at hs
    · split at hs
      · simp only [List.mem_singleton] at hs
        subst hs
        exact ⟨_, hb, trivial, rfl⟩
      · simp only [List.mem_singleton] at hs
        subst hs
        exact ⟨_, hb, rfl⟩
    · cases hs
  · obtain ⟨x, hx, rfl⟩ := List.mem_map.1 hs
    simp only [diffColumns, List.mem_append, List.mem_flatMap, List.mem_map] at hx
    rcases hx with ⟨c, hc, hx⟩ | ⟨c, hc, rfl⟩
    · simp only [columnRound] at hx
      split at hx
      · rename_i hf
        split at hx
        · cases hx
        · simp only [List.mem_singleton] at hx
          subst hx
          refine ⟨⟨c, hc, rfl⟩, ?_⟩
          rintro ⟨c', hc', e⟩
          have := List.find?_eq_none.1 hf c' hc'
          simp [e] at this
      · simp only [alterColumn, List.mem_append] at hx
        rcases hx with (hx | hx) | hx
        · split at hx
          · simp at hx; subst hx; exact trivial
          · cases hx
        · split at hx
          · simp at hx; subst hx; exact trivial
          · split at hx
            · simp at hx; subst hx; exact trivial
            · cases hx
        · split at hx
          · simp at hx; subst hx; exact trivial
          · split at hx
            · simp at hx; subst hx; exact trivial
            · cases hx
    · exact trivial
  · simp only [replaceConstraints, List.mem_flatMap] at hs
    obtain ⟨b, hb, hs⟩ := hs
    split at hs
    · cases hs
    · rename_i a hf
      have ha := List.mem_of_find?_eq_some hf
      have hk : a.name.name = b.name.name := by
        have := List.find?_some hf
        simpa using this
      split at hs
      · split at hs
        · simp only [List.mem_cons, List.not_mem_nil, or_false] at hs
          rcases hs with rfl | rfl
          · exact ⟨b, hb, (hz.kind b hb _ ha hk.symm).2 trivial, rfl⟩
          · exact ⟨_, ha, rfl⟩
        · simp only [List.mem_cons, List.not_mem_nil, or_false] at hs
          rcases hs with rfl | rfl
          · exact ⟨b, hb, rfl⟩
          · exact ha
      · cases hs
  · simp only [addConstraints, List.mem_map] at hs
    obtain ⟨c, hc, rfl⟩ := hs
    have hc := (((onlyLeft_iff (l := t'.constraints) (r := t.constraints) g'.distinct.2).2 c).1 hc).1
    split
    · exact ⟨_, hc, rfl⟩
    · exact hc

/-! ## Indexes -/

theorem index_inj {i i' : CreateIndex} (h : IndexTame i) (h' : IndexTame i') (hn : i.name.name = i'.name.name)
    (ht : i.tableName.diffStr = i'.tableName.diffStr) (e : i.diffStr = i'.diffStr) : indexOf i = indexOf i' := by
  simp only [CreateIndex.diffStr, Ident.diffStr, hn, ht, List.append_assoc] at e
  have e := List.append_cancel_left e
  have hu : i.isUnique = i'.isUnique := by
    cases h1 : i.isUnique <;> cases h2 : i'.isUnique <;> rw [h1, h2] at e
    · cases e
    · cases e
  rw [hu] at e
  simp only [List.append_cancel_left_eq, List.cons_append, List.nil_append, List.cons.injEq, true_and] at e
  have sp : ∀ {j : CreateIndex} {r : Str}, usingStr j.usingPre ++ ' ' :: '(' :: r = (usingStr j.usingPre ++ s%" ") ++ '(' :: r := by simp
  rw [sp, sp] at e
  obtain ⟨e1, e2⟩ := append_sep_inj (by simpa using h.1) (by simpa using h'.1) e
  have e1 : usingStr i.usingPre = usingStr i'.usingPre := List.append_cancel_right e1
  obtain ⟨e3, e4⟩ := append_sep_inj (columns_close h.2) (columns_close h'.2) e2
  have e4 : usingStr i.usingPost = usingStr i'.usingPost := List.append_cancel_right e4
  simp only [indexOf, hu, e1, e4, columns_inj h.2 h'.2 e3]

/-! ## The diff of two schemas -/

theorem distinct_swap {X Y : List CStmt} {s s' : CStmt} (e : creates (ops sd) s' = creates (ops sd) s) (hd : DistinctObjects (ops sd) (X ++ s :: Y)) :
    DistinctObjects (ops sd) (X ++ s' :: Y) := by
  unfold DistinctObjects at hd ⊢
  simp only [List.filterMap_append, List.filterMap_cons, e] at hd ⊢
  exact hd

theorem distinct_rest {X Y : List CStmt} {s : CStmt} (hd : DistinctObjects (ops sd) (X ++ s :: Y)) : DistinctObjects (ops sd) (X ++ Y) :=
  distinct_sublist ((List.Sublist.refl _).append (List.sublist_cons_self _ _)) hd

theorem mem_split {X Y : List CStmt} {s x : CStmt} (hx : x ∈ X ++ s :: Y) : x = s ∨ x ∈ X ++ Y := by
  rw [List.mem_append, List.mem_cons] at hx
  rw [List.mem_append]
  tauto

theorem exec_dropTable {X Y : List CStmt} {t : CreateTable} (hd : DistinctObjects (ops sd) (X ++ .createTable t :: Y)) {cm : Str}
    (h : ∀ u, .createTable u ∈ X ++ Y → u.name.diffStr ≠ t.name.diffStr → ∀ c ∈ u.constraints, c.target ≠ some t.name.diffStr) :
    Exec (st (X ++ .createTable t :: Y)) (.dropTable cm false t.name) (st (X ++ Y)) := by
  have hno : st (X ++ Y) t.name.diffStr = none :=
    st_none.2 fun h => not_in_rest (k := .table t.name.diffStr) hd rfl (hasTable_iff.1 h)
  have := Exec.dropTable (d := st (X ++ .createTable t :: Y)) cm false t.name (st_isSome.2 ⟨t, by simp, rfl⟩) ?_
  · rw [st_perm List.perm_middle hd, st_table, upd_upd, upd_self _ hno] at this
    rwa [st_perm List.perm_middle hd, st_table]
  · intro m U hm hU hr
    obtain ⟨u, hu, rfl, rfl⟩ := st_some hU
    obtain ⟨c, hc, ht⟩ := ext_refers hr
    rcases mem_split hu with e | hu
    · cases e
      exact absurd rfl hm
    · exact h u hu hm c hc ht

theorem exec_dropIndex {X Y : List CStmt} {i : CreateIndex} (hd : DistinctObjects (ops sd) (X ++ .createIndex i :: Y)) {cm : Str}
    {t : CreateTable} (ht : .createTable t ∈ X ++ Y) (hn : t.name.diffStr = i.tableName.diffStr)
    (hsep : ∀ c ∈ t.constraints, c.name.name ≠ i.name.name)
    (hone : ∀ m, IndexOn (X ++ Y) m i.name.name → m = i.tableName.diffStr) :
    Exec (st (X ++ .createIndex i :: Y)) (.dropIndex cm false i.name) (st (X ++ Y)) := by
  have hdr := distinct_rest hd
  have htab : tab (X ++ Y) i.tableName.diffStr = some t := (tab_iff hdr).2 ⟨ht, hn⟩
  have hcon : (tableOf t).cons i.name.name = none := tableOf_cons_none.2 hsep
  have hix : ixs (X ++ Y) i.tableName.diffStr i.name.name = none := by
    rw [ixs_none]
    intro j hj _ e
    exact not_in_rest (k := .index i.name.name) hd rfl (hasIndex_iff.1 ⟨j, hj, e⟩)
  rw [st_perm List.perm_middle hd, st_index htab hcon]
  have hT : st (X ++ Y) i.tableName.diffStr = some (ext (tableOf t) (ixs (X ++ Y) i.tableName.diffStr)) := by
    rw [st, htab, Option.map_some]
  have hk : (ext (tableOf t) (ixs (X ++ Y) i.tableName.diffStr)).cons i.name.name = none := by simp [ext, hcon, hix]
  generalize ext (tableOf t) (ixs (X ++ Y) i.tableName.diffStr) = E at hT hk ⊢
  have := Exec.dropIndex (d := upd (st (X ++ Y)) i.tableName.diffStr (some ⟨E.name, E.cols, upd E.cons i.name.name (some ⟨indexOf i, true⟩)⟩))
    cm false i.name i.tableName.diffStr ⟨E.name, E.cols, upd E.cons i.name.name (some ⟨indexOf i, true⟩)⟩ (by simp)
    ⟨_, _, _, _, true, upd_same _ _ _⟩ ?_
  · simp only [upd_upd] at this
    rw [upd_self _ hk] at this
    rwa [upd_self _ hT] at this
  · intro m U hU hk
    by_contra hm
    rw [upd, if_neg hm] at hU
    exact hm (hone m (indexOn_of_st hU hk))

/-- What is known of the two schemas. -/
structure Given (sd : Str → Str → Str) (b a : List CStmt) : Prop where
  cb : CreateOnly (ops sd) b
  ca : CreateOnly (ops sd) a
  db : DistinctObjects (ops sd) b
  da : DistinctObjects (ops sd) a
  okb : ∀ p s q, b = p ++ s :: q → OkAfter p s
  oka : ∀ p s q, a = p ++ s :: q → OkAfter p s
  tb : TameSchema b
  ta : TameSchema a
  ss : SameSchemas (ops sd) b a
  hz : NoSchemaHazard b a
  str : ∀ t t', .createTable t ∈ b → .createTable t' ∈ a → t.str = t'.str → t = t'

theorem Given.goodb {b a : List CStmt} (G : Given sd b a) {t : CreateTable} (h : .createTable t ∈ b) : Good t := by
  obtain ⟨p, q, e⟩ := List.append_of_mem h
  have := G.okb p _ q e
  exact ⟨this.1, (G.tb.1 t h).1, (G.tb.1 t h).2, this.2.1⟩

theorem Given.gooda {b a : List CStmt} (G : Given sd b a) {t : CreateTable} (h : .createTable t ∈ a) : Good t := by
  obtain ⟨p, q, e⟩ := List.append_of_mem h
  have := G.oka p _ q e
  exact ⟨this.1, (G.ta.1 t h).1, (G.ta.1 t h).2, this.2.1⟩

/-- The table of an index of `b`. -/
theorem Given.tableb {b a : List CStmt} (G : Given sd b a) {i : CreateIndex} (h : .createIndex i ∈ b) :
    ∃ t, .createTable t ∈ b ∧ t.name.diffStr = i.tableName.diffStr := by
  obtain ⟨p, q, e⟩ := List.append_of_mem h
  obtain ⟨t, ht, hn, _⟩ := G.okb p _ q e
  exact ⟨t, by rw [e]; exact List.mem_append_left _ ht, hn⟩

/-- The table of an index of `a`. -/
theorem Given.tablea {b a : List CStmt} (G : Given sd b a) {i : CreateIndex} (h : .createIndex i ∈ a) :
    ∃ t, .createTable t ∈ a ∧ t.name.diffStr = i.tableName.diffStr ∧ ∀ x ∈ i.columns, HasColumn t x.ident.name := by
  obtain ⟨p, q, e⟩ := List.append_of_mem h
  obtain ⟨t, ht, hn, hc⟩ := G.oka p _ q e
  exact ⟨t, by rw [e]; exact List.mem_append_left _ ht, hn, hc⟩

theorem Given.drop {b a : List CStmt} (G : Given sd b a) {s d : CStmt} {X Y : List CStmt} (h : IsDropFor (ops sd) s d)
    (c : DropCtx (ops sd) b a s X Y) : Exec (st (X ++ s :: Y)) d (st (X ++ Y)) := by
  cases h with
  | table t =>
    have hg : ¬ HasTable a t.name.diffStr := fun h => c.gone _ rfl (hasTable_iff.1 h)
    exact exec_dropTable c.distinct fun u hu hn => G.hz.droppedTableReferred t u c.mem hg (c.sub _ hu) hn
  | index i =>
    obtain ⟨t, ht, hn⟩ := G.tableb c.mem
    have hk : HasTable a t.name.diffStr := by
      by_contra hg
      exact G.hz.droppedTableIndex t i ht hg c.mem hn.symm
    refine exec_dropIndex c.distinct (c.kept _ ht _ rfl (hasTable_iff.1 hk)) hn
      (G.hz.separate t i (by simp [ht]) (by simp [c.mem]) hn.symm) fun m hm => ?_
    exact G.hz.indexNames _ _ _ (hm.mono fun s hs => List.mem_append_left _ (c.sub s hs)) (Or.inr ⟨i, by simp [c.mem], rfl, rfl⟩)

theorem Given.create {b a : List CStmt} (G : Given sd b a) {s : CStmt} {X : List CStmt} (c : CreateCtx (ops sd) b a s X) :
    Exec (st X) s (st (X ++ [s])) := by
  have hmem : ∀ u ∈ X ++ [s], u ∈ b ++ a := by
    intro u hu
    rw [List.mem_append, List.mem_singleton] at hu
    rcases hu with hu | rfl
    · rcases c.sub u hu with h | h
      · exact List.mem_append_left _ h.1
      · exact List.mem_append_right _ h.1
    · exact List.mem_append_right _ c.mem
  obtain ⟨p, q, e⟩ := List.append_of_mem c.mem
  refine exec_create c.distinct ?_ (Separate.mono G.hz.separate hmem) ?_
  · have ok := G.oka p s q e
    have hbef : ∀ n, HasTable p n → HasTable X n := by
      rintro n ⟨t, ht, rfl⟩
      exact hasTable_iff.2 (c.before p q e _ ht _ rfl)
    cases s with
    | createTable t => exact ⟨ok.1, ok.2.1, fun x hx r hr => (ok.2.2 x hx r hr).imp_right (hbef r)⟩
    | createIndex i =>
      obtain ⟨t, ht, hn, hc⟩ := ok
      have hta : .createTable t ∈ a := by rw [e]; exact List.mem_append_left _ ht
      by_cases hb : HasTable b t.name.diffStr
      · obtain ⟨t₀, ht₀, hn₀⟩ := hb
        refine ⟨t₀, c.kept _ ht₀ _ rfl ⟨_, hta, ?_⟩, hn₀.trans hn, fun x hx => ?_⟩
        · simp only [creates, ops, hn₀]
        · exact G.hz.newIndexColumn t₀ t i x ⟨ht₀, hta, hn₀⟩ c.mem (fun h => c.new _ rfl (hasIndex_iff.1 h)) (hn.symm.trans hn₀.symm) hx
      · obtain ⟨u, hu, hun⟩ := hbef _ ⟨t, ht, rfl⟩
        refine ⟨t, ?_, hn, hc⟩
        rcases c.sub _ hu with ⟨h1, _⟩ | ⟨h1, _⟩
        · exact absurd ⟨u, h1, hun⟩ hb
        · rw [table_eq G.da hta h1 hun.symm]
          exact hu
    | _ => exact ok.elim
  · rintro t i rfl hi hn
    rcases c.earlier _ hi with h | h
    · obtain ⟨u, hu, hun⟩ := G.tableb h
      exact c.new (.table t.name.diffStr) rfl (hasTable_iff.1 ⟨u, hu, hun.trans hn⟩)
    · obtain ⟨p₁, p₂, e₁⟩ := List.append_of_mem (h p q e)
      obtain ⟨u, hu, hun, _⟩ := G.oka p₁ (.createIndex i) (p₂ ++ .createTable t :: q) (by rw [e, e₁]; simp)
      have hup : .createTable u ∈ p := by rw [e₁]; exact List.mem_append_left _ hu
      have : u = t := table_eq G.da (by rw [e]; exact List.mem_append_left _ hup) c.mem (hun.trans hn)
      subst this
      have hnd := distinct_nodup G.da G.ca
      rw [e, List.nodup_append] at hnd
      exact absurd rfl (hnd.2.2 _ hup _ List.mem_cons_self)

theorem findStmt_eq {a : List CStmt} (da : DistinctObjects (ops sd) a) {s s' : CStmt} {k : Obj} (hk : creates (ops sd) s = some k) (hs : s' ∈ a)
    (hk' : creates (ops sd) s' = some k) : findStmt (ops sd) s a = some s' := by
  cases h : findStmt (ops sd) s a with
  | none =>
    have := (findStmt_none_iff hk).1 (by rw [h]; rfl : (findStmt (ops sd) s a).isNone = true)
    exact absurd ⟨s', hs, hk'⟩ this
  | some x =>
    obtain ⟨h1, h2⟩ := findStmt_creates hk h
    rw [distinct_unique da h1 hs h2 hk']

theorem diff_total (b a : CreateTable) :
    (∃ l, diffCreateTable sd false (some b) (some a) = .ok l) ∨ diffCreateTable sd false (some b) (some a) = .err .noDifference := by
  simp only [diffCreateTable]
  split
  · exact Or.inr rfl
  · split
    · exact Or.inr rfl
    · exact Or.inl ⟨_, rfl⟩

theorem alter_total (a : List CStmt) (s : CStmt) : ∃ l, alterOf (ops sd) a s = .ok l := by
  cases s with
  | createTable t =>
    simp only [alterOf]
    split
    · rename_i t' hf
      rcases diff_total (sd := sd) t t' with ⟨l, h⟩ | h
      · exact ⟨l, by simp only [ops, h]⟩
      · exact ⟨[], by simp only [ops, h]⟩
    · exact ⟨_, rfl⟩
  | createIndex i =>
    simp only [alterOf]
    split
    · split <;> exact ⟨_, rfl⟩
    · exact ⟨_, rfl⟩
  | _ => exact ⟨_, rfl⟩

theorem Given.alterT {b a : List CStmt} (G : Given sd b a) {t t' : CreateTable} {X Y l : List CStmt}
    (c : AlterCtx (ops sd) b a (.createTable t) (.createTable t') X Y) (hn : t.name.diffStr = t'.name.diffStr)
    (h : diffCreateTable sd false (some t) (some t') = .ok l) : Runs Exec (st (X ++ .createTable t :: Y)) l (st (X ++ .createTable t' :: Y)) := by
  have gb := G.goodb c.mem
  have ga := G.gooda c.mem'
  have stays : Stays b a t t' := ⟨c.mem, c.mem', hn⟩
  have hsch : t'.name.schema = none → t.name.schema = none := by
    intro h
    have := G.ss t t' c.mem c.mem' hn
    simp only [ops, h, Option.map_none, Option.map_eq_none_iff] at this
    exact this
  have hd' := distinct_swap c.same c.distinct
  have hsub : ∀ u ∈ X ++ Y, u ∈ b ++ a := by
    intro u hu
    rcases c.sub u hu with h | h
    · exact List.mem_append_left _ h.1
    · exact List.mem_append_right _ h
  obtain ⟨p, q, e⟩ := List.append_of_mem c.mem'
  have ok := G.oka p _ q e
  -- the tables `t'` refers to
  have hrefs : ∀ x ∈ t'.constraints, ∀ r, x.target = some r → r = t'.name.diffStr ∨ HasTable (X ++ Y) r := by
    intro x hx r hr
    refine (ok.2.2 x hx r hr).imp_right ?_
    rintro ⟨u, hu, rfl⟩
    have hall := c.all (.table u.name.diffStr) ⟨_, by rw [e]; exact List.mem_append_left _ hu, rfl⟩
    obtain ⟨v, hv, hvn⟩ := hasTable_iff.2 hall
    rcases mem_split hv with hvt | hv
    · cases hvt
      -- then `u` is `t'` again
      have : u = t' := table_eq G.da (by rw [e]; exact List.mem_append_left _ hu) c.mem' (hvn.symm.trans hn)
      subst this
      have hnd := distinct_nodup G.da G.ca
      rw [e, List.nodup_append] at hnd
      exact absurd rfl (hnd.2.2 _ hu _ List.mem_cons_self)
    · exact ⟨v, hv, hvn⟩
  -- the names of the indexes of the table
  have hE : ∀ k, (∃ x ∈ t.constraints, x.name.name = k) ∨ (∃ x ∈ t'.constraints, x.name.name = k) →
      ixs (X ++ Y) t.name.diffStr k = none := by
    intro k hk
    rw [ixs_none]
    intro i hi hin hik
    rcases hk with ⟨x, hx, e⟩ | ⟨x, hx, e⟩
    · exact G.hz.separate t i (by simp [c.mem]) (hsub _ hi) hin x hx (e.trans hik.symm)
    · exact G.hz.separate t' i (by simp [c.mem']) (hsub _ hi) (hin.trans hn) x hx (e.trans hik.symm)
  have run := diff_runs (sd := sd) (b := some t) (a := some t') (by rintro _ ⟨⟩; exact gb) (by rintro _ ⟨⟩; exact ga)
    (by rintro _ _ ⟨⟩ ⟨⟩; exact ⟨G.hz.table t t' stays, hsch⟩) h
  have hst := diff_stmts hn ga (G.hz.table t t' stays) h
  rw [st_perm List.perm_middle c.distinct, st_perm List.perm_middle hd', st_table, st_table, ← hn]
  obtain ⟨T', hT', hr⟩ := lift (d := st (X ++ Y)) (n := t.name.diffStr) (E := ixs (X ++ Y) t.name.diffStr) run rfl fun s hs => by
    have hs := hst s hs
    cases s with
    | alterTable x =>
      obtain ⟨cm, tn, act⟩ := x
      cases act with
      | dropColumn k =>
        refine ⟨fun U => trivial, fun j x hx hm => ?_⟩
        obtain ⟨i, hi, hin, _, rfl⟩ := ixs_some hx
        have hm : k.name ∈ i.columns.map (·.ident.name) := by
          simpa [indexOf, Def.mentions, ColumnIdent.bare, Ident.bare] using hm
        rcases c.sub _ hi with ⟨h1, h2⟩ | h1
        · exact G.hz.droppedColumnIndex t t' k.name i stays hs.1 hs.2 h1 (hasIndex_iff.2 (h2 _ rfl)) hin hm
        · obtain ⟨u, hu, hun, huc⟩ := G.tablea h1
          have : u = t' := table_eq G.da hu c.mem' (hun.trans (hin.trans hn))
          subst this
          obtain ⟨x, hx, hxk⟩ := List.mem_map.1 hm
          exact hs.2 (hxk ▸ huc x hx)
      | addConstraint con nv =>
        refine ⟨fun U r hr => ?_, hE _ (Or.inr ⟨con, hs, rfl⟩)⟩
        rcases hrefs con hs r hr with rfl | h
        · simp [hn]
        · simp only [upd]
          split
          · rfl
          · exact st_isSome.2 h
      | dropConstraint k => exact ⟨fun U => trivial, hE _ (Or.inl hs)⟩
      | renameTable => exact hs.elim
      | _ => exact ⟨fun U => trivial, trivial⟩
    | createIndex i => exact hE _ (Or.inr hs)
    | dropIndex cm ie k =>
      obtain ⟨x, hx, hxi, hxk⟩ := hs
      refine ⟨hE _ (Or.inl ⟨x, hx, hxk⟩), fun m U hm hU hk => hm ?_⟩
      exact G.hz.indexNames _ _ _ ((indexOn_of_st hU hk).mono hsub) (Or.inl ⟨t, by simp [c.mem], rfl, x, hx, hxi, hxk⟩)
    | _ => exact hs.elim
  cases hT'
  exact hr

theorem Given.alter {b a : List CStmt} (G : Given sd b a) {s s' : CStmt} {X Y l : List CStmt} (c : AlterCtx (ops sd) b a s s' X Y)
    (h : alterOf (ops sd) a s = .ok l) : Runs Exec (st (X ++ s :: Y)) l (st (X ++ s' :: Y)) := by
  have hd' := distinct_swap c.same c.distinct
  obtain ⟨k, hk⟩ := Option.isSome_iff_exists.1 (G.cb s c.mem)
  have hf := findStmt_eq G.da hk c.mem' (c.same.trans hk)
  have hsub : ∀ u ∈ X ++ Y, u ∈ b ++ a := by
    intro u hu
    rcases c.sub u hu with h | h
    · exact List.mem_append_left _ h.1
    · exact List.mem_append_right _ h
  cases s with
  | createTable t =>
    obtain ⟨t', rfl, hn⟩ : ∃ t', s' = .createTable t' ∧ t.name.diffStr = t'.name.diffStr := by
      have := c.same
      cases s' <;> simp only [creates, ops, Option.some.injEq, Obj.table.injEq, reduceCtorEq] at this
      exact ⟨_, rfl, this.symm⟩
    simp only [alterOf, hf] at h
    rcases diff_total (sd := sd) t t' with ⟨l', hl⟩ | hl
    · simp only [ops, hl, Res.ok.injEq] at h
      subst h
      exact G.alterT c hn hl
    · simp only [ops, hl, Res.ok.injEq] at h
      subst h
      have e : tableOf t = tableOf t' := by
        by_cases hs : t.str = t'.str
        · rw [G.str t t' c.mem c.mem' hs]
        · refine diff_same (sd := sd) (G.goodb c.mem) (G.gooda c.mem') (G.hz.table t t' ⟨c.mem, c.mem', hn⟩) ?_ hs hl
          intro h
          have := G.ss t t' c.mem c.mem' hn
          simp only [ops, h, Option.map_none, Option.map_eq_none_iff] at this
          exact this
      rw [st_perm List.perm_middle c.distinct, st_perm List.perm_middle hd', st_table, st_table, hn, e]
      exact .nil _
  | createIndex i =>
    obtain ⟨i', rfl, hn⟩ : ∃ i', s' = .createIndex i' ∧ i.name.name = i'.name.name := by
      have := c.same
      cases s' <;> simp only [creates, ops, Ident.diffStr, Option.some.injEq, Obj.index.injEq, reduceCtorEq] at this
      exact ⟨_, rfl, this.symm⟩
    simp only [alterOf, hf] at h
    have ht : i.tableName.diffStr = i'.tableName.diffStr :=
      G.hz.indexNames _ _ i.name.name (Or.inr ⟨i, by simp [c.mem], rfl, rfl⟩) (Or.inr ⟨i', by simp [c.mem'], rfl, hn.symm⟩)
    -- the table of the index is there already in its new form
    obtain ⟨p, q, e⟩ := List.append_of_mem c.mem'
    obtain ⟨t, htm, htn, hcols⟩ := G.oka p _ q e
    have hta : .createTable t ∈ a := by rw [e]; exact List.mem_append_left _ htm
    obtain ⟨p₀, q₀, e₀⟩ := List.append_of_mem c.mem
    obtain ⟨t₀, htm₀, htn₀, _⟩ := G.okb p₀ _ q₀ e₀
    have htX : .createTable t ∈ X := by
      refine c.before p₀ q₀ e₀ _ htm₀ _ hta (.table t.name.diffStr) ?_ rfl
      simp only [creates, ops, htn₀, ht, htn]
    have htXY : .createTable t ∈ X ++ Y := List.mem_append_left _ htX
    split at h
    · cases h
      refine .cons (exec_dropIndex c.distinct htXY (htn.trans ht.symm) ?_ fun m hm => ?_) (Runs.one ?_)
      · exact G.hz.separate t i (by simp [hta]) (by simp [c.mem]) (ht.trans htn.symm)
      · exact G.hz.indexNames _ _ _ (hm.mono hsub) (Or.inr ⟨i, by simp [c.mem], rfl, rfl⟩)
      · have hp : (X ++ .createIndex i' :: Y).Perm (X ++ Y ++ [.createIndex i']) :=
          List.perm_middle.trans (by simpa using List.perm_append_comm (l₁ := [(Stmt.createIndex i' : CStmt)]) (l₂ := X ++ Y))
        rw [st_perm hp hd']
        refine exec_create (distinct_perm hp hd') ⟨t, htXY, htn, hcols⟩ (Separate.mono G.hz.separate ?_) (by rintro _ _ ⟨⟩)
        intro u hu
        rw [List.mem_append, List.mem_singleton] at hu
        rcases hu with hu | rfl
        · exact hsub u hu
        · exact List.mem_append_right _ c.mem'
    · rename_i hne
      cases h
      simp only [ops, ne_eq, not_not] at hne
      have hdr := distinct_rest c.distinct
      have htab : tab (X ++ Y) i'.tableName.diffStr = some t := (tab_iff hdr).2 ⟨htXY, htn⟩
      have hcon : (tableOf t).cons i'.name.name = none :=
        tableOf_cons_none.2 (G.hz.separate t i' (by simp [hta]) (by simp [c.mem']) htn.symm)
      rw [st_perm List.perm_middle c.distinct, st_perm List.perm_middle hd', st_index htab hcon,
        st_index (by rw [ht]; exact htab) (by rw [hn]; exact hcon), index_inj (G.tb.2 i c.mem) (G.ta.2 i' c.mem') hn ht hne, ht, hn]
      exact .nil _
  | _ => simp [creates] at hk

theorem migrate {b a : List CStmt} {B A : Db} (cb : CreateOnly (ops sd) b) (ca : CreateOnly (ops sd) a) (db : DistinctObjects (ops sd) b)
    (da : DistinctObjects (ops sd) a) (tb : TameSchema b) (ta : TameSchema a) (ss : SameSchemas (ops sd) b a) (hz : NoSchemaHazard b a)
    (told : Told (ops sd) b a) (hB : Runs Exec Db.empty b B) (hA : Runs Exec Db.empty a A) :
    (∃ l, diff (ops sd) (some b) (some a) = .ok l ∧ Runs Exec B l A) ∨ (diff (ops sd) (some b) (some a) = .err .noDifference ∧ B = A) := by
  rw [← st_nil] at hB hA
  have hns : NoStray [] := fun i hi => by cases hi
  obtain ⟨rfl, okb⟩ := created (sd := sd) (p := []) cb db (Separate.mono hz.separate fun s hs => List.mem_append_left _ hs) hns hB
  obtain ⟨rfl, oka⟩ := created (sd := sd) (p := []) ca da (Separate.mono hz.separate fun s hs => List.mem_append_right _ hs) hns hA
  simp only [List.nil_append] at okb oka ⊢
  have G : Given sd b a := ⟨cb, ca, db, da, okb, oka, tb, ta, ss, hz, told.1⟩
  exact diff_run cb ca db da (fun l l' h hd => st_perm h hd) (fun e => by rw [told.2 e]) (fun s d X Y => G.drop)
    (fun s X => G.create) (fun s _ => alter_total a s) fun s s' X Y l => G.alter

end Ddl.Crdb.Run
