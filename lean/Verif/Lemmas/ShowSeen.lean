import Verif.Lemmas.ShowText

/-! # Spanner: when the statements that are read again are those that create the database -/

namespace Ddl.Sp.Show
open Spec
set_option autoImplicit false

theorem flatMap_inj {α β : Type} {f g : α → List β} : ∀ {l : List α}, (∀ a ∈ l, (f a).length = (g a).length) →
    l.flatMap f = l.flatMap g → ∀ a ∈ l, f a = g a
  | [], _, _ => by simp
  | a :: l, hl, h => by
    rw [List.flatMap_cons, List.flatMap_cons] at h
    obtain ⟨h1, h2⟩ := List.append_inj h (hl a (by simp))
    intro b hb
    rcases List.mem_cons.1 hb with rfl | hb
    · exact h1
    · exact flatMap_inj (fun a ha => hl a (List.mem_cons_of_mem _ ha)) h2 b hb

theorem flat_eq {key : List (Str × Bool)} (h : ∀ k ∈ key, k.2 = false) : flat key = key := by
  unfold flat
  conv_rhs => rw [← List.map_id key]
  exact List.map_congr_left fun k hk => Prod.ext rfl (h k hk).symm

theorem length_commaSep : ∀ l : List (List Ident), (commaSep l).length + 1 = (l.map List.length).sum + l.length + (if l = [] then 1 else 0)
  | [] => rfl
  | [a] => by simp [commaSep]
  | a :: b :: r => by
    have := length_commaSep (b :: r)
    simp only [commaSep, List.length_append, List.length_cons, List.map_cons, List.sum_cons] at this ⊢
    simp at this ⊢
    omega

/-- The length of a key. -/
theorem length_keyOption (key : List (Str × Bool)) : (keyOption key).value.length + 1 =
    2 + 2 * key.length + (key.filter (·.2)).length + (if key = [] then 1 else 0) := by
  have h := length_commaSep (key.map fun k => plain k.1 :: if k.2 then [plain s%"DESC"] else [])
  have hs : ∀ key : List (Str × Bool), ((key.map fun k => plain k.1 :: if k.2 then [plain s%"DESC"] else []).map List.length).sum =
      key.length + (key.filter (·.2)).length := by
    intro key
    induction key with
    | nil => rfl
    | cons k key ih =>
      rw [List.map_cons, List.map_cons, List.sum_cons, ih, List.filter_cons]
      cases k.2 <;> simp <;> omega
  rw [hs] at h
  simp only [keyOption, bracketed, List.length_cons, List.length_append, List.length_nil, List.length_map, List.map_eq_nil_iff] at h ⊢
  by_cases hk : key = []
  · subst hk; rfl
  · simp only [hk, if_false] at h ⊢; omega

theorem key_flat {key : List (Str × Bool)} (h : keyOption (flat key) = keyOption key) : ∀ k ∈ key, k.2 = false := by
  have h1 := length_keyOption key
  have h2 := length_keyOption (flat key)
  rw [h] at h2
  have h3 : (flat key).filter (·.2) = [] := List.filter_eq_nil_iff.2 fun k hk => by
    obtain ⟨x, _, rfl⟩ := List.mem_map.1 hk
    simp
  have h4 : (flat key = []) ↔ key = [] := by simp [flat]
  have h5 : (flat key).length = key.length := by simp [flat]
  simp only [h3, h4, h5, List.length_nil] at h2
  have h6 : (key.filter (·.2)).length = 0 := by omega
  have h7 := List.filter_eq_nil_iff.1 (List.eq_nil_of_length_eq_zero h6)
  intro k hk
  simpa using h7 k hk

theorem tbl_seen_iff (t : Tbl) : t.seen = t.createTable ↔ (∀ k ∈ t.key, k.2 = false) ∧ t.checks = [] ∧ t.parent = none := by
  constructor
  · intro h
    simp only [Tbl.seen, Tbl.createTable, CreateTable.mk.injEq, List.cons.injEq] at h
    obtain ⟨_, _, _, _, h1, ⟨h2, h3⟩, _⟩ := h
    refine ⟨key_flat h2, by simpa using h1.symm, ?_⟩
    cases hp : t.parent with
    | none => rfl
    | some p => simp [hp] at h3
  · rintro ⟨h1, h2, h3⟩
    simp [Tbl.seen, Tbl.createTable, flat_eq h1, h2, h3]

theorem le_sum {α : Type} (f : α → Nat) : ∀ {l : List α} {a : α}, a ∈ l → f a ≤ (l.map f).sum
  | b :: l, a, h => by
    rw [List.map_cons, List.sum_cons]
    rcases List.mem_cons.1 h with rfl | h
    · omega
    · have := le_sum f h; omega

variable {v : Views} {db : Db} (hv : Holds v db) (hd : db.Plain)
include hv hd

/-- The indexes of a table are read as they are only if there is at most one, which has no descending column. -/
theorem index_seen_iff {t : Tbl} (ht : t ∈ db) (hc : ∀ i ∈ t.indexes, i.columns ≠ []) :
    (∀ i ∈ t.indexes, seenIndex t i (shownColumns v t) = t.createIndex i) ↔
      t.indexes.length ≤ 1 ∧ ∀ i ∈ t.indexes, ∀ c ∈ i.columns, c.2 = false := by
  have hp := hd.tables t ht
  have hl : (shownColumns v t).length = _ := shownColumns_length hv ht hp.stored fun i hi => (hp.index i hi).2.1
  constructor
  · intro h
    have hcol : ∀ i ∈ t.indexes, (shownColumns v t).map (fun c => (⟨plain c, none⟩ : ColumnIdent)) =
        i.columns.map fun c => ⟨plain c.1, if c.2 then some true else none⟩ := by
      intro i hi
      have := h i hi
      simp only [seenIndex, Tbl.createIndex, CreateIndex.mk.injEq] at this
      exact this.2.2.2.2.2.2
    refine ⟨?_, ?_⟩
    · by_contra hn
      obtain ⟨i, hi⟩ : ∃ i, i ∈ t.indexes := by
        cases hx : t.indexes with
        | nil => simp [hx] at hn
        | cons i l => exact ⟨i, by simp⟩
      have h1 := congrArg List.length (hcol i hi)
      rw [List.length_map, List.length_map, hl] at h1
      have h2 := le_sum (fun i : Idx => i.columns.length) hi
      have h3 : 0 < i.columns.length := List.length_pos_iff.2 (hc i hi)
      have h4 : 2 * (t.indexes.map fun i => i.columns.length).sum ≤
          t.indexes.length * (t.indexes.map fun i => i.columns.length).sum := Nat.mul_le_mul_right _ (by omega)
      omega
    · intro i hi c hc'
      have hm : (⟨plain c.1, if c.2 then some true else none⟩ : ColumnIdent) ∈
          (shownColumns v t).map (fun c => (⟨plain c, none⟩ : ColumnIdent)) := by
        rw [hcol i hi]
        exact List.mem_map.2 ⟨c, hc', rfl⟩
      obtain ⟨x, _, hx⟩ := List.mem_map.1 hm
      simp only [ColumnIdent.mk.injEq] at hx
      cases hb : c.2 with
      | false => rfl
      | true => simp [hb] at hx
  · rintro ⟨h1, h2⟩ i hi
    have h3 : t.indexes = [i] := by
      match ht : t.indexes, h1, hi with
      | [j], _, hi => rw [List.mem_singleton.1 hi]
    have h4 : shownColumns v t = i.columns.map Prod.fst := selectIndexColumns_one hv ht h3 (hp.stored i hi) (hp.index i hi).2.1
    rw [seenIndex, Tbl.createIndex, h4, List.map_map]
    congr 1
    refine List.map_congr_left fun c hc' => ?_
    simp [h2 i hi c hc']

theorem seen_iff (hc : ∀ t ∈ db, ∀ i ∈ t.indexes, i.columns ≠ []) : seen (shownColumns v) db = stmts db ↔ ∀ t ∈ db, t.Simple := by
  have hone : ∀ t ∈ db, (Stmt.createTable t.seen :: t.indexes.map fun i => Stmt.createIndex (seenIndex t i (shownColumns v t)) : List SStmt) =
      (Stmt.createTable t.createTable :: t.indexes.map fun i => Stmt.createIndex (t.createIndex i)) ↔ t.Simple := by
    intro t ht
    have h1 := tbl_seen_iff t
    have h2 := index_seen_iff hv hd ht (hc t ht)
    rw [List.cons.injEq, Stmt.createTable.injEq, h1, List.map_inj_left]
    simp only [Stmt.createIndex.injEq]
    rw [h2]
    exact ⟨fun ⟨⟨a, b, c⟩, d, e⟩ => ⟨d, a, e, b, c⟩, fun ⟨d, a, e, b, c⟩ => ⟨⟨a, b, c⟩, d, e⟩⟩
  constructor
  · intro h t ht
    exact (hone t ht).1 (flatMap_inj (by simp) h t ht)
  · intro h
    exact List.flatMap_congr fun t ht => (hone t ht).2 (h t ht)

end Ddl.Sp.Show

namespace Ddl.Sp.Show
open Spec

/-- Simple tables are shown as they are. -/
theorem seen_simple {v : Views} {db : Db} (hv : Holds v db) (hd : db.Plain) (hs : ∀ t ∈ db, t.Simple) :
    seen (shownColumns v) db = stmts db := by
  refine List.flatMap_congr fun t ht => ?_
  have h := hs t ht
  have hp := hd.tables t ht
  rw [(tbl_seen_iff t).2 ⟨h.key, h.checks, h.parent⟩]
  congr 1
  refine List.map_congr_left fun i hi => ?_
  have h3 : t.indexes = [i] := by
    have h1 := h.indexes
    match ht : t.indexes, h1, hi with
    | [j], _, hi => rw [List.mem_singleton.1 hi]
  have h4 : shownColumns v t = i.columns.map Prod.fst := selectIndexColumns_one hv ht h3 (hp.stored i hi) (hp.index i hi).2.1
  rw [seenIndex, Tbl.createIndex, h4, List.map_map]
  congr 2
  refine List.map_congr_left fun c hc' => ?_
  simp [h.index i hi c hc']

/-! ## Stored columns -/

/-- `showTables` returns text or an error. -/
inductive Settled {α : Type} : Res α → Prop
  | ok (a : α) : Settled (.ok a)
  | err (e : Err) : Settled (.err e)

theorem Settled.bind {α β : Type} {x : Res α} {f : α → Res β} (hx : Settled x) (hf : ∀ a, Settled (f a)) : Settled (x >>= f) := by
  cases hx with
  | ok a => exact hf a
  | err e => exact .err e

theorem settled_scan (l : List IndexColumnRow) : Settled (scanIndexColumns l) := by
  unfold scanIndexColumns
  split
  · exact .ok _
  · exact .err _

theorem settled_lines (v : Views) (t : Str) : ∀ l : List (Str × Bool), Settled (indexLines v t l)
  | [] => .ok _
  | _ :: l => ((settled_scan _).bind fun _ => .ok _).bind fun _ => (settled_lines v t l).bind fun _ => .ok _

theorem settled_tables (v : Views) : ∀ l : List TableRow, Settled (tableLines v l)
  | [] => .ok _
  | t :: l => ((settled_scan _).bind fun _ => .ok _).bind fun _ => (settled_lines v t.table _).bind fun _ =>
      (settled_tables v l).bind fun _ => .ok _

theorem lines_ok {v : Views} {t : Str} : ∀ {l : List (Str × Bool)} {s : Str}, indexLines v t l = .ok s → l ≠ [] →
    ∃ c, scanIndexColumns (selectIndexColumns v t) = .ok c
  | _ :: l, s, h, _ => by
    obtain ⟨a, h1, _⟩ := bind_eq_ok.1 h
    obtain ⟨c, h2, _⟩ := bind_eq_ok.1 h1
    exact ⟨c, h2⟩

theorem tables_ok {v : Views} : ∀ {l : List TableRow} {s : Str}, tableLines v l = .ok s → ∀ t ∈ l,
    ∃ c, indexLines v t.table (selectIndexes v t.table) = .ok c
  | t :: l, s, h, u, hu => by
    obtain ⟨a, _, h1⟩ := bind_eq_ok.1 h
    obtain ⟨b, h2, h3⟩ := bind_eq_ok.1 h1
    obtain ⟨c, h4, _⟩ := bind_eq_ok.1 h3
    rcases List.mem_cons.1 hu with rfl | hu
    · exact ⟨b, h2⟩
    · exact tables_ok h4 u hu

theorem stored_err {v : Views} {db : Db} (hv : Holds v db) {t : Tbl} (ht : t ∈ db) {i : Idx} (hi : i ∈ t.indexes)
    (hn : i.name ≠ s%"PRIMARY_KEY") (hs : i.stored ≠ []) : ∃ e, showTables v = .err e := by
  have hset := settled_tables v (selectTables v)
  change Settled (showTables v) at hset
  cases hx : showTables v with
  | err e => exact ⟨e, rfl⟩
  | panic => rw [hx] at hset; nomatch hset
  | outOfFuel => rw [hx] at hset; nomatch hset
  | ok s =>
    exfalso
    have hm : t.tableRow ∈ selectTables v := by
      rw [selectTables, hv.tables]
      exact List.mem_map.2 ⟨t, ht, rfl⟩
    obtain ⟨c, hc⟩ := tables_ok hx _ hm
    change indexLines v t.name (selectIndexes v t.name) = .ok c at hc
    have hrow : (⟨t.name, i.name, s%"INDEX", i.unique⟩ : IndexRow) ∈ v.indexes ∧ True := by
      have : (⟨t.name, i.name, s%"INDEX", i.unique⟩ : IndexRow) ∈ v.indexes.filter (fun r => decide (r.table = t.name)) := by
        rw [hv.indexes t ht]
        exact List.mem_cons_of_mem _ (List.mem_map.2 ⟨i, hi, rfl⟩)
      exact ⟨(List.mem_filter.1 this).1, trivial⟩
    have hne : selectIndexes v t.name ≠ [] := by
      have : (i.name, i.unique) ∈ selectIndexes v t.name := by
        rw [selectIndexes, List.mem_dedup, List.mem_map]
        exact ⟨⟨t.name, i.name, s%"INDEX", i.unique⟩, List.mem_filter.2 ⟨hrow.1, by simp⟩, rfl⟩
      exact List.ne_nil_of_mem this
    obtain ⟨d, hd⟩ := lines_ok hc hne
    obtain ⟨x, l, hs⟩ := List.exists_cons_of_ne_nil hs
    have hcol : (⟨t.name, i.name, s%"INDEX", x, none, none⟩ : IndexColumnRow) ∈ v.indexColumns := by
      have : (⟨t.name, i.name, s%"INDEX", x, none, none⟩ : IndexColumnRow) ∈ t.indexColumnRows := by
        refine List.mem_append_right _ (List.mem_flatMap.2 ⟨i, hi, List.mem_append_right _ (List.mem_map.2 ⟨x, by simp [hs], rfl⟩)⟩)
      exact (List.mem_filter.1 ((hv.indexColumns t ht).mem_iff.2 this)).1
    have hsel : (⟨t.name, i.name, s%"INDEX", x, none, none⟩ : IndexColumnRow) ∈ selectIndexColumns v t.name := by
      rw [selectIndexColumns, List.mem_insertionSort]
      refine List.mem_map.2 ⟨(⟨t.name, i.name, s%"INDEX", i.unique⟩, ⟨t.name, i.name, s%"INDEX", x, none, none⟩),
        List.mem_filter.2 ⟨?_, by simpa using hn⟩, rfl⟩
      exact List.mem_flatMap.2 ⟨_, List.mem_filter.2 ⟨hrow.1, by simp⟩, List.mem_map.2 ⟨_, List.mem_filter.2 ⟨hcol, by simp⟩, rfl⟩⟩
    rw [scanIndexColumns] at hd
    split at hd
    · rename_i h
      have := List.all_eq_true.1 h _ hsel
      simp at this
    · cases hd

/-! ## Views of a given database -/

theorem filter_flatMap_one {β : Type} {f : Tbl → List β} {n : β → Str} (hn : ∀ t, ∀ x ∈ f t, n x = t.name) {t : Tbl} :
    ∀ {db : Db}, (db.map (·.name)).Nodup → t ∈ db → (db.flatMap f).filter (fun r => decide (n r = t.name)) = f t
  | [], _, h => absurd h List.not_mem_nil
  | u :: db, hd, h => by
    simp only [List.map_cons, List.nodup_cons, List.mem_map, not_exists, not_and] at hd
    rw [List.flatMap_cons, List.filter_append]
    rcases List.mem_cons.1 h with rfl | h
    · rw [List.filter_eq_self.2 fun x hx => by simpa using hn t x hx, List.filter_eq_nil_iff.2, List.append_nil]
      intro x hx
      obtain ⟨w, hw, hx⟩ := List.mem_flatMap.1 hx
      simpa [hn w x hx] using hd.1 w hw
    · rw [filter_flatMap_one hn hd.2 h, List.filter_eq_nil_iff.2, List.nil_append]
      intro x hx
      rw [hn u x hx]
      intro h'
      exact hd.1 t h (of_decide_eq_true h').symm

theorem holds_views {db : Db} (hn : (db.map (·.name)).Nodup) : Holds db.views db where
  tables := by
    rw [Db.views, List.filter_eq_self.2]
    intro r hr
    obtain ⟨t, _, rfl⟩ := List.mem_map.1 hr
    rfl
  columns t ht := by
    rw [Db.views, filter_flatMap_one (f := Tbl.columnRows) (n := ColumnRow.table) ?_ hn ht]
    intro t x hx
    obtain ⟨p, _, rfl⟩ := List.mem_map.1 hx
    rfl
  options t ht := by
    rw [Db.views, filter_flatMap_one (f := Tbl.optionRows) (n := OptionRow.table) ?_ hn ht]
    intro t x hx
    obtain ⟨c, _, hx⟩ := List.mem_flatMap.1 hx
    obtain ⟨p, _, rfl⟩ := List.mem_map.1 hx
    rfl
  indexes t ht := by
    rw [Db.views, filter_flatMap_one (f := Tbl.indexRows) (n := IndexRow.table) ?_ hn ht]
    intro t x hx
    rcases List.mem_cons.1 hx with rfl | hx
    · rfl
    · obtain ⟨p, _, rfl⟩ := List.mem_map.1 hx
      rfl
  indexColumns t ht := by
    rw [Db.views, filter_flatMap_one (f := Tbl.indexColumnRows) (n := IndexColumnRow.table) ?_ hn ht]
    intro t x hx
    rcases List.mem_append.1 hx with hx | hx
    · exact (partRows_all x hx).1
    · obtain ⟨i, _, hx⟩ := List.mem_flatMap.1 hx
      rcases List.mem_append.1 hx with hx | hx
      · exact (partRows_all x hx).1
      · obtain ⟨p, _, rfl⟩ := List.mem_map.1 hx
        rfl

/-! ## Deciding the conditions -/

theorem textOk {s : Str} (hp : ∀ t ∈ lex .spanner s, t.type ≠ .PANIC) (hd : hasDashes s = false) (hb : Balanced (lex .spanner s))
    (he : ∀ t ∈ lex .spanner s, t.type ≠ .EOF) (hc : (lex .spanner s).IsChain fun a b => ¬ (IsCmp a ∧ IsCmp b)) :
    Text.Ok ⟨s, lex .spanner s⟩ :=
  ⟨(writes_of_lex .spanner s hp).noDashes hd, hb, he, hc⟩

instance (t : Token) : Decidable (IsCmp t) := by unfold IsCmp; infer_instance

instance (s : Str) : Decidable (IsPlain s) := by unfold IsPlain; infer_instance

end Ddl.Sp.Show
