import Verif.Spec.Show
import Mathlib.Data.List.Perm.Basic
import Mathlib.Data.List.Dedup

/-! # Spanner: what the queries of `ShowCreateAllTables` deliver -/

namespace Ddl.Sp.Show
open Spec
set_option autoImplicit false

/-- Rows in ascending order of different keys are what sorting any arrangement of them gives. -/
theorem sort_perm {α : Type} {r : α → α → Prop} [DecidableRel r] [Std.Total r] [IsTrans α r] {l m : List α} (hp : l.Perm m)
    (hm : m.Pairwise fun a b => r a b ∧ ¬ r b a) : l.insertionSort r = m := by
  have hs : (l.insertionSort r).Pairwise r := List.pairwise_insertionSort r l
  refine List.Perm.eq_of_pairwise (le := r) ?_ hs (hm.imp fun h => h.1) ((List.perm_insertionSort r l).trans hp)
  intro a b ha hb hab hba
  have ha : a ∈ m := hp.mem_iff.1 ((List.mem_insertionSort r).1 ha)
  by_contra hne
  have hm' : m.Pairwise fun a b => r a b ∧ ¬ r b a := hm
  rcases (List.pairwise_iff_getElem.1 hm') with H
  obtain ⟨i, hi, rfl⟩ := List.getElem_of_mem ha
  obtain ⟨j, hj, rfl⟩ := List.getElem_of_mem hb
  rcases Nat.lt_trichotomy i j with h | h | h
  · exact (H i j hi hj h).2 hba
  · subst h; exact hne rfl
  · exact (H j i hj hi h).2 hab

/-- Numbered entries are in strictly ascending order. -/
theorem pairwise_zipIdx {α : Type} : ∀ (l : List α) (n : Nat), (l.zipIdx n).Pairwise fun a b => a.2 < b.2
  | [], _ => by simp
  | a :: l, n => by
    rw [List.zipIdx_cons, List.pairwise_cons]
    refine ⟨?_, pairwise_zipIdx l (n + 1)⟩
    intro p hp
    have := List.le_snd_of_mem_zipIdx hp
    simp only; omega

theorem filter_name {t : Tbl} : ∀ {db : Db}, (db.map (·.name)).Nodup → t ∈ db →
    (db.map Tbl.tableRow).filter (fun r => decide (r.table = t.name)) = [t.tableRow]
  | [], _, h => absurd h List.not_mem_nil
  | u :: db, hn, h => by
    simp only [List.map_cons, List.nodup_cons, List.mem_map, not_exists, not_and] at hn
    rw [List.map_cons, List.filter_cons]
    rcases List.mem_cons.1 h with rfl | h
    · rw [if_pos (by simp [Tbl.tableRow])]
      congr 1
      rw [List.filter_eq_nil_iff]
      simp only [List.mem_map, forall_exists_index, and_imp, forall_apply_eq_imp_iff₂, decide_eq_true_eq]
      exact fun x hx e => hn.1 x hx e
    · rw [if_neg (by simp only [decide_eq_true_eq]; exact fun e => hn.1 t h e.symm), filter_name hn.2 h]

section
variable {v : Views} {db : Db} (hv : Holds v db) (hn : (db.map (·.name)).Nodup) {t : Tbl} (ht : t ∈ db)
include hv ht

omit hv ht in
theorem policyText_ne (p : Str × Str) : policyText p ≠ [] := by simp [policyText]

include hn in
theorem selectPolicy_eq : selectPolicy v t.name = (t.policy.map policyText).toList := by
  have : v.tables.filter (fun r => decide (r.schema = [] ∧ r.table = t.name)) = [t.tableRow] := by
    rw [← filter_name hn ht, ← hv.tables, List.filter_filter]
    exact List.filter_congr fun r _ => by rw [Bool.decide_and, Bool.and_comm]
  rw [selectPolicy, this]
  cases hp : t.policy with
  | none => simp [Tbl.tableRow, hp]
  | some p => simp [Tbl.tableRow, hp, policyText_ne]

theorem selectColumns_eq : selectColumns v t.name = t.columnRows := by
  have : IsTrans ColumnRow fun a b => a.position ≤ b.position := ⟨fun _ _ _ h1 h2 => Nat.le_trans h1 h2⟩
  have : Std.Total fun a b : ColumnRow => a.position ≤ b.position := ⟨fun a b => Nat.le_total a.position b.position⟩
  refine sort_perm (hv.columns t ht) ?_
  rw [Tbl.columnRows, List.pairwise_map]
  exact (pairwise_zipIdx t.columns 1).imp fun h => ⟨Nat.le_of_lt h, Nat.not_le.2 h⟩

theorem selectOptions_eq : selectOptions v t.name = t.optionRows := hv.options t ht

omit hv ht in
/-- The options of a column among those of its table. -/
theorem columnOptions_eq {n : Str} {c : Col} : ∀ {l : List Col}, (l.map (·.name)).Nodup → c ∈ l →
    (l.flatMap fun d => d.options.map fun o => (⟨n, d.name, o.1, o.2.text⟩ : OptionRow)).filter
      (fun o => decide (c.name = o.column)) = c.options.map fun o => ⟨n, c.name, o.1, o.2.text⟩
  | [], _, h => absurd h List.not_mem_nil
  | d :: l, hn, h => by
    simp only [List.map_cons, List.nodup_cons, List.mem_map, not_exists, not_and] at hn
    rw [List.flatMap_cons, List.filter_append]
    rcases List.mem_cons.1 h with rfl | h
    · have h1 : (c.options.map fun o => (⟨n, c.name, o.1, o.2.text⟩ : OptionRow)).filter (fun o => decide (c.name = o.column)) =
          c.options.map fun o => ⟨n, c.name, o.1, o.2.text⟩ := List.filter_eq_self.2 (by simp only [List.mem_map]; rintro a ⟨o, _, rfl⟩; simp)
      have h2 : (l.flatMap fun d => d.options.map fun o => (⟨n, d.name, o.1, o.2.text⟩ : OptionRow)).filter
          (fun o => decide (c.name = o.column)) = [] := by
        rw [List.filter_eq_nil_iff]
        simp only [List.mem_flatMap, List.mem_map, forall_exists_index, and_imp, decide_eq_true_eq]
        rintro o d hd x _ rfl e
        exact hn.1 d hd e.symm
      rw [h1, h2, List.append_nil]
    · have h1 : (d.options.map fun o => (⟨n, d.name, o.1, o.2.text⟩ : OptionRow)).filter (fun o => decide (c.name = o.column)) =
          [] := by
        rw [List.filter_eq_nil_iff]
        simp only [List.mem_map, forall_exists_index, and_imp, decide_eq_true_eq]
        rintro o x _ rfl e
        exact hn.1 c h e
      rw [h1, columnOptions_eq hn.2 h, List.nil_append]

theorem joinIndexes_eq : joinIndexes v t.name = t.indexRows.flatMap fun i =>
    (v.indexColumns.filter fun c => decide (c.table = t.name)).map fun c => (i, c) := by
  rw [joinIndexes, hv.indexes t ht]
  refine List.flatMap_congr fun i hi => ?_
  have : i.table = t.name := by
    simp only [Tbl.indexRows, List.mem_cons, List.mem_map] at hi
    rcases hi with rfl | ⟨x, _, rfl⟩ <;> rfl
  rw [this]
  congr 1
  exact List.filter_congr fun r _ => by rw [decide_eq_decide]; exact eq_comm

omit hv ht in
theorem filter_pairs {α β : Type} (l : List α) (m : List β) (p : α → Bool) (q : β → Bool) :
    ((l.flatMap fun a => m.map fun b => (a, b)).filter fun x => p x.1 && q x.2).map Prod.snd =
      (l.filter p).flatMap fun _ => m.filter q := by
  induction l with
  | nil => rfl
  | cons a l ih =>
    rw [List.flatMap_cons, List.filter_append, List.map_append, ih, List.filter_cons]
    by_cases h : p a = true
    · rw [if_pos h, List.flatMap_cons]
      congr 1
      rw [List.filter_map, List.map_map]
      simp [Function.comp_def, h]
    · rw [if_neg h]
      have : (m.map fun b => (a, b)).filter (fun x => p x.1 && q x.2) = [] := by
        rw [List.filter_eq_nil_iff]; simp [h]
      rw [this]; simp

omit hv ht in
theorem partRows_all {n i ty : Str} {l : List (Str × Bool)} : ∀ c ∈ partRows n i ty l,
    c.table = n ∧ c.index = i ∧ c.type = ty ∧ c.ordering.isSome ∧ c.position.isSome := by
  intro c hc
  obtain ⟨p, _, rfl⟩ := List.mem_map.1 hc
  simp

omit hv ht in
theorem partRows_columns (n i ty : Str) (l : List (Str × Bool)) : (partRows n i ty l).map (·.column) = l.map Prod.fst := by
  rw [partRows, List.map_map]
  conv_rhs => rw [← List.zipIdx_map_fst 1 l]
  rw [List.map_map]
  rfl

omit hv ht in
theorem keyRows : (t.indexColumnRows.filter fun c => decide (c.type = s%"PRIMARY_KEY")) =
    partRows t.name s%"PRIMARY_KEY" s%"PRIMARY_KEY" t.key := by
  rw [Tbl.indexColumnRows, List.filter_append, List.filter_eq_self.2, List.filter_eq_nil_iff.2, List.append_nil]
  · simp only [List.mem_flatMap, List.mem_append]
    rintro c ⟨i, _, h | h⟩
    · rw [(partRows_all c h).2.2.1]; decide
    · obtain ⟨x, _, rfl⟩ := List.mem_map.1 h
      simp
  · exact fun c h => by rw [(partRows_all c h).2.2.1]; decide

omit hv ht in
theorem indexRows_key : (t.indexRows.filter fun c => decide (c.type = s%"PRIMARY_KEY")) =
    [⟨t.name, s%"PRIMARY_KEY", s%"PRIMARY_KEY", true⟩] := by
  rw [Tbl.indexRows, List.filter_cons, if_pos (by simp), List.filter_eq_nil_iff.2]
  intro c h
  obtain ⟨x, _, rfl⟩ := List.mem_map.1 h
  simp

omit hv ht in
theorem indexRows_other : (t.indexRows.filter fun c => decide (c.type ≠ s%"PRIMARY_KEY")) =
    t.indexes.map fun i => ⟨t.name, i.name, s%"INDEX", i.unique⟩ := by
  rw [Tbl.indexRows, List.filter_cons, if_neg (by simp), List.filter_eq_self.2]
  intro c h
  obtain ⟨x, _, rfl⟩ := List.mem_map.1 h
  simp

theorem selectPrimaryKey_eq : selectPrimaryKey v t.name = partRows t.name s%"PRIMARY_KEY" s%"PRIMARY_KEY" t.key := by
  have : IsTrans IndexColumnRow fun a b => a.position.getD 0 ≤ b.position.getD 0 := ⟨fun _ _ _ h1 h2 => Nat.le_trans h1 h2⟩
  have : Std.Total fun a b : IndexColumnRow => a.position.getD 0 ≤ b.position.getD 0 := ⟨fun a b => Nat.le_total _ _⟩
  refine sort_perm ?_ ?_
  · rw [joinIndexes_eq hv ht]
    have := filter_pairs t.indexRows (v.indexColumns.filter fun c => decide (c.table = t.name))
      (fun c => decide (c.type = s%"PRIMARY_KEY")) (fun c => decide (c.type = s%"PRIMARY_KEY"))
    simp only [Bool.decide_and]
    rw [this, indexRows_key, List.flatMap_cons, List.flatMap_nil, List.append_nil, ← keyRows]
    exact (hv.indexColumns t ht).filter _
  · rw [partRows, List.pairwise_map]
    exact (pairwise_zipIdx t.key 1).imp fun h => ⟨Nat.le_of_lt h, Nat.not_le.2 h⟩

omit hv ht in
theorem scan_ok {l : List IndexColumnRow} (h : ∀ c ∈ l, c.ordering.isSome ∧ c.position.isSome) :
    scanIndexColumns l = .ok (l.map (·.column)) := by
  rw [scanIndexColumns, if_pos (by simpa using h)]

theorem scanPrimaryKey : scanIndexColumns (selectPrimaryKey v t.name) = .ok (t.key.map Prod.fst) := by
  rw [selectPrimaryKey_eq hv ht, scan_ok (fun c h => (partRows_all c h).2.2.2), partRows_columns]

theorem selectIndexes_eq (hi : (t.indexes.map (·.name)).Nodup) :
    selectIndexes v t.name = t.indexes.map fun i => (i.name, i.unique) := by
  have h1 : (v.indexes.filter fun r => decide (r.table = t.name ∧ r.type ≠ s%"PRIMARY_KEY")) =
      t.indexes.map fun i => ⟨t.name, i.name, s%"INDEX", i.unique⟩ := by
    rw [← indexRows_other, ← hv.indexes t ht, List.filter_filter]
    exact List.filter_congr fun r _ => by rw [Bool.decide_and, Bool.and_comm]
  rw [selectIndexes, h1, List.map_map, List.Nodup.dedup]
  · rfl
  · refine List.Nodup.of_map Prod.fst ?_
    rw [List.map_map]
    exact hi

/-- The rows of the columns of all secondary indexes. -/
def _root_.Ddl.Sp.Show.Tbl.partRows (t : Tbl) : List IndexColumnRow :=
  t.indexes.flatMap fun i => Show.partRows t.name i.name s%"INDEX" i.columns

omit hv ht in
theorem otherRows (hs : ∀ i ∈ t.indexes, i.stored = []) (hi : ∀ i ∈ t.indexes, i.name ≠ s%"PRIMARY_KEY") :
    (t.indexColumnRows.filter fun c => decide (c.index ≠ s%"PRIMARY_KEY")) = t.partRows := by
  rw [Tbl.indexColumnRows, List.filter_append, List.filter_eq_nil_iff.2, List.nil_append, List.filter_eq_self.2]
  · exact List.flatMap_congr fun i h => by rw [hs i h]; simp
  · simp only [List.mem_flatMap, List.mem_append]
    rintro c ⟨i, h', h | h⟩
    · rw [(partRows_all c h).2.1]; simpa using hi i h'
    · rw [hs i h'] at h; cases h
  · exact fun c h => by rw [(partRows_all c h).2.1]; decide

/-- `CREATE INDEX` shows the columns of all indexes of the table, once for each of them. -/
theorem selectIndexColumns_perm (hs : ∀ i ∈ t.indexes, i.stored = []) (hi : ∀ i ∈ t.indexes, i.name ≠ s%"PRIMARY_KEY") :
    (selectIndexColumns v t.name).Perm (t.indexes.flatMap fun _ => t.partRows) := by
  refine (List.perm_insertionSort _ _).trans ?_
  rw [joinIndexes_eq hv ht]
  have := filter_pairs t.indexRows (v.indexColumns.filter fun c => decide (c.table = t.name))
    (fun c => decide (c.type ≠ s%"PRIMARY_KEY")) (fun c => decide (c.index ≠ s%"PRIMARY_KEY"))
  simp only [Bool.decide_and]
  rw [this, indexRows_other, List.flatMap_map, ← otherRows hs hi]
  exact List.Perm.flatMap_left _ fun i _ => (hv.indexColumns t ht).filter _

theorem scanIndexColumns_eq (hs : ∀ i ∈ t.indexes, i.stored = []) (hi : ∀ i ∈ t.indexes, i.name ≠ s%"PRIMARY_KEY") :
    scanIndexColumns (selectIndexColumns v t.name) = .ok ((selectIndexColumns v t.name).map (·.column)) := by
  refine scan_ok fun c hc => ?_
  have := (selectIndexColumns_perm hv ht hs hi).mem_iff.1 hc
  simp only [List.mem_flatMap, Tbl.partRows] at this
  obtain ⟨_, _, i, _, h⟩ := this
  exact (partRows_all c h).2.2.2

theorem shownColumns_length (hs : ∀ i ∈ t.indexes, i.stored = []) (hi : ∀ i ∈ t.indexes, i.name ≠ s%"PRIMARY_KEY") :
    ((selectIndexColumns v t.name).map (·.column)).length = t.indexes.length * (t.indexes.map fun i => i.columns.length).sum := by
  rw [List.length_map, (selectIndexColumns_perm hv ht hs hi).length_eq, List.length_flatMap]
  simp [Tbl.partRows, List.length_flatMap, Show.partRows]

omit hv ht in
theorem str_trichotomy : ∀ a b : Str, a < b ∨ a = b ∨ b < a
  | [], [] => Or.inr (Or.inl rfl)
  | [], _ :: _ => Or.inl (by simp)
  | _ :: _, [] => Or.inr (Or.inr (by simp))
  | x :: a, y :: b => by
    simp only [List.cons_lt_cons_iff, List.cons.injEq]
    by_cases h1 : x < y
    · exact Or.inl (Or.inl h1)
    · by_cases h2 : y < x
      · exact Or.inr (Or.inr (Or.inl h2))
      · have : x = y := Char.le_antisymm (Char.not_lt.1 h2) (Char.not_lt.1 h1)
        subst this
        rcases str_trichotomy a b with h | h | h
        · exact Or.inl (Or.inr ⟨rfl, h⟩)
        · exact Or.inr (Or.inl ⟨rfl, h⟩)
        · exact Or.inr (Or.inr (Or.inr ⟨rfl, h⟩))

instance : Std.Total indexLe := ⟨fun a b => by
  unfold indexLe
  rcases str_trichotomy a.index b.index with h | h | h
  · exact Or.inl (Or.inl h)
  · rcases Nat.le_total (a.position.getD 0) (b.position.getD 0) with h' | h'
    · exact Or.inl (Or.inr ⟨h, h'⟩)
    · exact Or.inr (Or.inr ⟨h.symm, h'⟩)
  · exact Or.inr (Or.inl h)⟩

instance : IsTrans IndexColumnRow indexLe := ⟨fun a b c => by
  unfold indexLe
  rintro (h | ⟨h, h1⟩) (h' | ⟨h', h2⟩)
  · exact Or.inl (List.lt_trans h h')
  · exact Or.inl (h' ▸ h)
  · exact Or.inl (h ▸ h')
  · exact Or.inr ⟨h.trans h', h1.trans h2⟩⟩

/-- A single secondary index is shown with its own columns. -/
theorem selectIndexColumns_one {i : Idx} (h1 : t.indexes = [i]) (hs : i.stored = []) (hi : i.name ≠ s%"PRIMARY_KEY") :
    (selectIndexColumns v t.name).map (·.column) = i.columns.map Prod.fst := by
  have hp := selectIndexColumns_perm hv ht (by simpa [h1] using hs) (by simpa [h1] using hi)
  simp only [h1, Tbl.partRows, List.flatMap_cons, List.flatMap_nil, List.append_nil] at hp
  have hw : (Show.partRows t.name i.name s%"INDEX" i.columns).Pairwise fun a b => indexLe a b ∧ ¬ indexLe b a := by
    rw [Show.partRows, List.pairwise_map]
    refine (pairwise_zipIdx i.columns 1).imp fun h => ⟨Or.inr ⟨rfl, Nat.le_of_lt h⟩, ?_⟩
    rintro (h' | ⟨_, h'⟩)
    · exact List.lt_irrefl _ h'
    · exact absurd h' (Nat.not_le.2 h)
  have := sort_perm hp hw
  rw [List.Pairwise.insertionSort_eq (l := selectIndexColumns v t.name) (List.pairwise_insertionSort _ _)] at this
  rw [this, partRows_columns]

end
end Ddl.Sp.Show
