import Verif.Lemmas.ShowPgText
import Verif.Lemmas.ShowRows

/-! # PostgreSQL: what the queries of `ShowCreateAllTables` return -/

namespace Ddl.Pg.Show
open Spec
set_option autoImplicit false

variable {v : Views} {db : Db}

/-! ## Columns -/

theorem columnRows_eq (t : Tbl) : t.columnRows = (t.columns.zipIdx 1).map fun p => p.1.row t.name p.2 := rfl

theorem columnDefs_eq (hv : Holds v db) {t : Tbl} (ht : t ∈ db.tables) :
    columnDefs v pub t.name = join between (t.columnRows.map columnDef) := by
  have : IsTrans ColumnRow fun a b => a.position ≤ b.position := ⟨fun _ _ _ h1 h2 => Nat.le_trans h1 h2⟩
  have : Std.Total fun a b : ColumnRow => a.position ≤ b.position := ⟨fun a b => Nat.le_total a.position b.position⟩
  rw [columnDefs, Sp.Show.sort_perm (hv.columns t ht)]
  rw [Tbl.columnRows, List.pairwise_map]
  exact (Sp.Show.pairwise_zipIdx t.columns 1).imp fun h => ⟨Nat.le_of_lt h, Nat.not_le.2 h⟩

theorem tableNames_eq (hv : Holds v db) (hp : db.Plain) : (tableNames v pub).insertionSort (fun a b => a ≤ b) = db.tables.map (·.name) := by
  have hs : (db.tables.map (·.name)).Pairwise fun a b => a ≤ b ∧ ¬ b ≤ a := hp.sorted.imp fun h => ⟨List.le_of_lt h, List.not_le.2 h⟩
  refine Sp.Show.sort_perm ?_ hs
  refine (List.perm_ext_iff_of_nodup (List.nodup_dedup _) (hp.sorted.imp fun h e => absurd h (by rw [e]; exact List.lt_irrefl _))).2 ?_
  intro n
  simp only [List.mem_dedup, List.mem_map, List.mem_filter, decide_eq_true_eq]
  constructor
  · rintro ⟨r, ⟨hr, hs⟩, rfl⟩
    exact hv.tables r hr hs
  · rintro ⟨t, ht, rfl⟩
    obtain ⟨hne, _⟩ := (hp.tables t ht).columns
    obtain ⟨c, l, e⟩ := List.exists_cons_of_ne_nil hne
    have hm : (⟨pub, t.name, c.name, c.type.1, c.size, if c.notNull then s%"NO" else s%"YES", c.default.map (·.text), 1⟩ : ColumnRow) ∈ t.columnRows := by
      rw [Tbl.columnRows, e]
      simp
    have := (hv.columns t ht).mem_iff.2 hm
    simp only [List.mem_filter, decide_eq_true_eq] at this
    exact ⟨_, ⟨this.1, rfl⟩, rfl⟩

/-! ## Constraints -/

theorem shownType (c : Con) : c.type ∈ [s%"PRIMARY KEY", s%"FOREIGN KEY", s%"UNIQUE"] ↔ c.type ≠ s%"CHECK" := by
  cases c <;> simp [Con.type]

theorem keyColumns_eq (hv : Holds v db) (hp : db.Plain) {t : Tbl} (ht : t ∈ db.tables) {c : Con} (hc : c ∈ t.constraints)
    (hk : c.type ≠ s%"CHECK") : keyColumns v (c.row t.name) = some (join s%", " c.columns) := by
  have : IsTrans KeyRow fun a b => a.position ≤ b.position := ⟨fun _ _ _ h1 h2 => Nat.le_trans h1 h2⟩
  have : Std.Total fun a b : KeyRow => a.position ≤ b.position := ⟨fun a b => Nat.le_total a.position b.position⟩
  have hperm := hv.keys t ht c hc
  have hsort : (v.keys.filter fun k => decide (k.schema = pub ∧ k.table = t.name ∧ k.name = c.name)).insertionSort
      (fun a b => a.position ≤ b.position) = c.keyRows t.name := by
    refine Sp.Show.sort_perm hperm ?_
    rw [Con.keyRows, List.pairwise_map]
    exact (Sp.Show.pairwise_zipIdx c.columns 1).imp fun h => ⟨Nat.le_of_lt h, Nat.not_le.2 h⟩
  have hcols : (c.keyRows t.name).map (·.column) = c.columns := by
    rw [Con.keyRows, List.map_map]
    conv_rhs => rw [← List.zipIdx_map_fst 1 c.columns]
    rfl
  have hne := (hp.tables t ht).constraintColumns c hc hk
  show (match v.keys.filter fun k => decide (k.schema = pub ∧ k.table = t.name ∧ k.name = c.name) with
    | [] => none
    | l => some (join s%", " ((l.insertionSort fun a b : KeyRow => a.position ≤ b.position).map KeyRow.column))) = _
  split
  · rename_i h
    rw [h] at hperm
    have := hperm.nil_eq
    rw [Con.keyRows] at this
    have := congrArg List.length this
    simp at this
    exact absurd (List.length_eq_zero_iff.1 this.symm) hne
  · rw [hsort, hcols]

/-- The constraints that are shown, each with the rules it is shown with. -/
def shownCons (v : Views) (t : Tbl) : List (Con × Option RuleRow) :=
  (t.constraints.filter fun c => decide (c.type ≠ s%"CHECK")).flatMap fun c => (constraintRules v (c.row t.name)).map fun r => (c, r)

theorem constraintTexts_eq (hv : Holds v db) (hp : db.Plain) {t : Tbl} (ht : t ∈ db.tables) :
    constraintTexts v pub t.name = (shownCons v t).map fun p => constraintDef (p.1.row t.name) (join s%", " p.1.columns) p.2 := by
  have e : (v.constraints.filter fun c => decide (c.schema = pub ∧ c.table = t.name ∧ c.type ∈ [s%"PRIMARY KEY", s%"FOREIGN KEY", s%"UNIQUE"])) =
      (t.constraints.filter fun c => decide (c.type ≠ s%"CHECK")).map (Con.row t.name) := by
    rw [← hv.constraints t ht]
    refine List.filter_congr fun r hr => ?_
    by_cases hs : r.schema = pub
    · rcases hv.noConstraint r hr hs with ⟨u, _, c, _, rfl⟩ | ⟨h, _⟩
      · have := shownType c
        have h2 : (c.row u.name).type = c.type := rfl
        simp only [h2, this]
      · rw [h]; simp
    · simp [hs]
  rw [constraintTexts, e, List.flatMap_map, shownCons, List.map_flatMap]
  refine List.flatMap_congr fun c hc => ?_
  simp only [List.mem_filter, decide_eq_true_eq] at hc
  rw [keyColumns_eq hv hp ht hc.1 hc.2]
  simp [List.map_map, Function.comp_def]

theorem constraintRules_ne (v : Views) (c : ConstraintRow) : constraintRules v c ≠ [] := by
  unfold constraintRules
  split
  · simp
  · rename_i h; simpa using h

theorem constraintRules_actions (hv : Holds v db) {c : ConstraintRow} {o : Option RuleRow} (ho : o ∈ constraintRules v c) :
    ∀ x ∈ o, x.update ∈ ruleNames ∧ x.delete ∈ ruleNames := by
  intro x hx
  unfold constraintRules at ho
  split at ho
  · simp at ho; subst ho; simp at hx
  · obtain ⟨y, hy, rfl⟩ := List.mem_map.1 ho
    simp at hx
    subst hx
    exact hv.actions _ (List.mem_of_mem_filter hy)

theorem constraintRules_clean {c : ConstraintRow} (h : ∀ r ∈ v.rules, c.name ≠ r.name) : constraintRules v c = [none] := by
  unfold constraintRules
  rw [List.filter_eq_nil_iff.2]
  intro r hr
  simp [h r hr]

theorem constraintRules_dirty {c : ConstraintRow} {r : RuleRow} (hr : r ∈ v.rules) (h : c.name = r.name) :
    ∃ x, some x ∈ constraintRules v c := by
  unfold constraintRules
  have hm : r ∈ v.rules.filter fun r => decide (c.name = r.name) := by simp [hr, h]
  split
  · rename_i e; rw [e] at hm; simp at hm
  · exact ⟨r, List.mem_map.2 ⟨r, hm, rfl⟩⟩

theorem not_check_not_foreign {c : Con} (h1 : c.type ≠ s%"CHECK") (h2 : c.type ≠ s%"FOREIGN KEY") : c.IsKey := by
  cases c with
  | primaryKey => trivial
  | unique => trivial
  | foreignKey => exact absurd rfl h2
  | check => exact absurd rfl h1

theorem isKey_type {c : Con} (h : c.IsKey) : c.type ≠ s%"CHECK" ∧ c.type ≠ s%"FOREIGN KEY" := by
  cases c with
  | primaryKey => simp [Con.type]
  | unique => simp [Con.type]
  | foreignKey => exact h.elim
  | check => exact h.elim

theorem shownCons_clean (hf : db.NoForeignKey) (hu : Undisturbed v db) {t : Tbl} (ht : t ∈ db.tables) :
    shownCons v t = (t.constraints.filter fun c => decide c.IsKey).map fun c => (c, none) := by
  have e : (t.constraints.filter fun c => decide (c.type ≠ s%"CHECK")) = t.constraints.filter fun c => decide c.IsKey := by
    refine List.filter_congr fun c hc => ?_
    have : c.type ≠ s%"CHECK" ↔ c.IsKey := ⟨fun h => not_check_not_foreign h (hf t ht c hc), fun h => (isKey_type h).1⟩
    simp only [this]
  rw [shownCons, e]
  have e2 : ∀ c ∈ t.constraints.filter (fun c => decide c.IsKey), ((constraintRules v (c.row t.name)).map fun r => (c, r)) = [(c, none)] := by
    intro c hc
    simp only [List.mem_filter, decide_eq_true_eq] at hc
    rw [constraintRules_clean (fun r hr => hu r hr t ht c hc.1 hc.2)]
    rfl
  rw [List.flatMap_congr e2]
  generalize t.constraints.filter (fun c => decide c.IsKey) = l
  induction l with
  | nil => rfl
  | cons c l ih => simp [List.flatMap_cons] at ih ⊢; exact ih

theorem shownCons_broken (h : ¬ (db.NoForeignKey ∧ Undisturbed v db)) :
    ∃ t ∈ db.tables, ∃ p ∈ shownCons v t, p.1.Broken p.2 := by
  by_cases hf : db.NoForeignKey
  · have hu : ¬ Undisturbed v db := fun hu => h ⟨hf, hu⟩
    simp only [Undisturbed, not_forall, not_not] at hu
    obtain ⟨r, hr, t, ht, c, hc, hk, e⟩ := hu
    obtain ⟨x, hx⟩ := constraintRules_dirty (c := c.row t.name) hr e
    refine ⟨t, ht, (c, some x), ?_, Or.inr (by simp)⟩
    rw [shownCons, List.mem_flatMap]
    exact ⟨c, by simp [hc, (isKey_type hk).1], List.mem_map.2 ⟨_, hx, rfl⟩⟩
  · simp only [Db.NoForeignKey, not_forall, not_not] at hf
    obtain ⟨t, ht, c, hc, e⟩ := hf
    obtain ⟨o, l, ho⟩ := List.exists_cons_of_ne_nil (constraintRules_ne v (c.row t.name))
    refine ⟨t, ht, (c, o), ?_, Or.inl fun hk => (isKey_type hk).2 e⟩
    rw [shownCons, List.mem_flatMap]
    exact ⟨c, by simp [hc, e], List.mem_map.2 ⟨o, by rw [ho]; simp, rfl⟩⟩

theorem shownCons_ok (hv : Holds v db) {t : Tbl} {p : Con × Option RuleRow} (h : p ∈ shownCons v t) :
    p.1 ∈ t.constraints ∧ p.1.type ≠ s%"CHECK" ∧ ∀ x ∈ p.2, x.update ∈ ruleNames ∧ x.delete ∈ ruleNames := by
  rw [shownCons, List.mem_flatMap] at h
  obtain ⟨c, hc, h⟩ := h
  obtain ⟨o, ho, rfl⟩ := List.mem_map.1 h
  simp only [List.mem_filter, decide_eq_true_eq] at hc
  exact ⟨hc.1, hc.2, constraintRules_actions hv ho⟩

/-! ## Indexes -/

theorem selectIndexes_eq (hv : Holds v db) (hp : db.Plain) : selectIndexes v pub =
    (db.indexes.filter fun i => decide (∀ t ∈ db.tables, ∀ c ∈ t.constraints, c.name ≠ i.name)).map fun i => i.row.definition := by
  have names : ∀ n : Str, ¬ s%"_not_null" <:+ n → (n ∉ (v.constraints.filter fun c => decide (c.schema = pub)).map (·.name) ↔
      ∀ t ∈ db.tables, ∀ c ∈ t.constraints, c.name ≠ n) := by
    intro n hn
    constructor
    · intro h t ht c hc e
      refine h (List.mem_map.2 ⟨c.row t.name, ?_, e⟩)
      exact List.mem_filter.2 ⟨hv.constraint t ht c hc, by simp [Con.row]⟩
    · intro h hm
      obtain ⟨r, hr, rfl⟩ := List.mem_map.1 hm
      simp only [List.mem_filter, decide_eq_true_eq] at hr
      rcases hv.noConstraint r hr.1 hr.2 with ⟨t, ht, c, hc, rfl⟩ | ⟨_, h2⟩
      · exact h t ht c hc rfl
      · exact hn h2
  have e : (v.indexes.filter fun i => decide (i.schema = pub ∧ i.name ∉ (v.constraints.filter fun c => decide (c.schema = pub)).map (·.name))) =
      (v.indexes.filter fun r => decide (r.schema = pub ∧ r.name ∈ db.indexes.map (·.name))).filter fun r =>
        decide (r.name ∉ (v.constraints.filter fun c => decide (c.schema = pub)).map (·.name)) := by
    rw [List.filter_filter]
    refine List.filter_congr fun r hr => ?_
    by_cases hs : r.schema = pub
    · rcases hv.noIndex r hr hs with h | ⟨t, ht, c, hc, _, e⟩
      · simp only [hs, h]; simp
      · have : r.name ∈ (v.constraints.filter fun c => decide (c.schema = pub)).map (·.name) :=
          List.mem_map.2 ⟨c.row t.name, List.mem_filter.2 ⟨hv.constraint t ht c hc, by simp [Con.row]⟩, e⟩
        simp only [this]; simp
    · simp [hs]
  rw [selectIndexes, e, hv.indexes, List.filter_map, List.map_map]
  congr 1
  refine List.filter_congr fun i hi => ?_
  have := names i.name (hp.index i hi).2.2.2.2
  simp only [Function.comp_apply]
  have h2 : i.row.name = i.name := rfl
  simp only [h2, this]

/-! ## The whole text -/

/-- The items of a table. -/
def itemTexts (v : Views) (t : Tbl) : List Str :=
  t.columnRows.map columnDef ++ (shownCons v t).map fun p => constraintDef (p.1.row t.name) (join s%", " p.1.columns) p.2

theorem join_append_cons (s : Str) : ∀ (l : List Str) (x : Str) (m : List Str), l ≠ [] → join s (l ++ x :: m) = join s l ++ s ++ join s (x :: m)
  | [], _, _, h => absurd rfl h
  | [a], x, m, _ => by simp [join]
  | a :: b :: l, x, m, _ => by
    have := join_append_cons s (b :: l) x m (by simp)
    simp only [List.cons_append] at this
    simp only [List.cons_append, join, this, List.append_assoc]

theorem createStatement_eq (hv : Holds v db) (hp : db.Plain) {t : Tbl} (ht : t ∈ db.tables) :
    createStatement v pub t.name ++ s%"\n" = tableText t.name (itemTexts v t) := by
  have hne : t.columnRows.map columnDef ≠ [] := by
    have := (hp.tables t ht).columns.1
    simpa [Tbl.columnRows] using this
  rw [createStatement, columnDefs_eq hv ht, constraintTexts_eq hv hp ht, tableText, itemTexts]
  generalize (shownCons v t).map (fun p => constraintDef (p.1.row t.name) (join s%", " p.1.columns) p.2) = l
  cases l with
  | nil => simp
  | cons x m =>
    rw [join_append_cons _ _ _ _ hne]
    simp [between]

theorem showTables_eq (hv : Holds v db) (hp : db.Plain) : showTables v pub =
    (db.tables.flatMap fun t => tableText t.name (itemTexts v t)) ++
      (db.indexes.filter fun i => decide (∀ t ∈ db.tables, ∀ c ∈ t.constraints, c.name ≠ i.name)).flatMap fun i => i.row.definition ++ s%";\n" := by
  rw [showTables, selectTables, tableNames_eq hv hp, selectIndexes_eq hv hp, List.map_map, List.flatMap_map, List.flatMap_map]
  congr 1
  exact List.flatMap_congr fun t ht => createStatement_eq hv hp ht

/-! ## Reading the text -/

theorem columns_shown {t : Tbl} (ht : t.Plain) : ∃ l : List (Column × List Token), l.map (·.1) = t.columns.map Col.shown ∧ l ≠ [] ∧
    (∀ c ∈ l, ReadsCol c.1 c.2) ∧ ∃ ps : List (Str × List Token), ps.map (·.1) = t.columnRows.map columnDef ∧ ps.map (·.2) = l.map (·.2) ∧
      ∀ p ∈ ps, LexTo p.1 p.2 := by
  have key : ∀ (cs : List Col) (k : Nat), (∀ c ∈ cs, c.Plain) → ∃ l : List (Column × List Token), l.map (·.1) = cs.map Col.shown ∧
      (∀ c ∈ l, ReadsCol c.1 c.2) ∧ ∃ ps : List (Str × List Token), ps.map (·.1) = ((cs.zipIdx k).map fun p => p.1.row t.name p.2).map columnDef ∧
        ps.map (·.2) = l.map (·.2) ∧ ∀ p ∈ ps, LexTo p.1 p.2 := by
    intro cs
    induction cs with
    | nil => intro k _; exact ⟨[], rfl, by simp, [], rfl, rfl, by simp⟩
    | cons c cs ih =>
      intro k h
      obtain ⟨l, h1, h2, ps, h3, h4, h5⟩ := ih (k + 1) fun x hx => h x (by simp [hx])
      obtain ⟨us, e1, e2⟩ := column_shown (h c (by simp)) t.name k
      refine ⟨(c.shown, us) :: l, by simp [h1], ?_, (columnDef (c.row t.name k), us) :: ps, by simp [h3, List.zipIdx_cons], by simp [h4], ?_⟩
      · intro x hx
        rcases List.mem_cons.1 hx with rfl | hx
        · exact e2
        · exact h2 x hx
      · intro x hx
        rcases List.mem_cons.1 hx with rfl | hx
        · exact e1
        · exact h5 x hx
  obtain ⟨l, h1, h2, h3⟩ := key t.columns 1 ht.columns.2
  refine ⟨l, h1, ?_, h2, h3⟩
  rintro rfl
  simp at h1
  exact ht.columns.1 h1

/-- The text of a shown constraint. -/
def conText (n : Str) (p : Con × Option RuleRow) : Str := constraintDef (p.1.row n) (join s%", " p.1.columns) p.2

theorem cons_shown {n : Str} : ∀ (l : List (Con × Option RuleRow)), (∀ p ∈ l, p.1.type ≠ s%"CHECK" ∧ IsPlain p.1.name ∧ (∀ x ∈ p.1.columns, IsPlain x) ∧
      (∀ x ∈ p.2, x.update ∈ ruleNames ∧ x.delete ∈ ruleNames) ∧ ¬ p.1.Broken p.2) →
    ∃ ps : List (Str × List Token), ∃ cs : List (Constraint × List Token), ps.map (·.1) = l.map (conText n) ∧ ps.map (·.2) = cs.map (·.2) ∧
      cs.map (·.1) = l.map (fun p => p.1.constraint) ∧ (∀ p ∈ ps, LexTo p.1 p.2) ∧ ∀ c ∈ cs, ReadsCon c.1 c.2
  | [], _ => ⟨[], [], rfl, rfl, rfl, by simp, by simp⟩
  | p :: l, h => by
    obtain ⟨ps, cs, h1, h2, h3, h4, h5⟩ := cons_shown (n := n) l fun x hx => h x (by simp [hx])
    obtain ⟨a1, a2, a3, a4, a5⟩ := h p (by simp)
    obtain ⟨us, e1, _, e2⟩ := constraint_shown a1 a2 a3 a4 n
    refine ⟨(conText n p, us) :: ps, (p.1.constraint, us) :: cs, by simp [h1], by simp [h2], by simp [h3], ?_, ?_⟩
    · intro x hx
      rcases List.mem_cons.1 hx with rfl | hx
      · exact e1
      · exact h4 x hx
    · intro x hx
      rcases List.mem_cons.1 hx with rfl | hx
      · exact e2 a5
      · exact h5 x hx

theorem cons_lex {n : Str} : ∀ (l : List (Con × Option RuleRow)), (∀ p ∈ l, p.1.type ≠ s%"CHECK" ∧ IsPlain p.1.name ∧ (∀ x ∈ p.1.columns, IsPlain x) ∧
      (∀ x ∈ p.2, x.update ∈ ruleNames ∧ x.delete ∈ ruleNames)) →
    ∃ ps : List (Str × List Token), ps.map (·.1) = l.map (conText n) ∧ ∀ p ∈ ps, LexTo p.1 p.2 ∧ NoPanic p.2
  | [], _ => ⟨[], rfl, by simp⟩
  | p :: l, h => by
    obtain ⟨ps, h1, h2⟩ := cons_lex (n := n) l fun x hx => h x (by simp [hx])
    obtain ⟨a1, a2, a3, a4⟩ := h p (by simp)
    obtain ⟨us, e1, e2, e3⟩ := constraint_shown a1 a2 a3 a4 n
    refine ⟨(conText n p, us) :: ps, by simp [h1], ?_⟩
    intro x hx
    rcases List.mem_cons.1 hx with rfl | hx
    · refine ⟨e1, ?_⟩
      by_cases hb : p.1.Broken p.2
      · exact (e2 hb).noPanic
      · exact (e3 hb).noPanic
    · exact h2 x hx

theorem table_reads (hv : Holds v db) (hp : db.Plain) {t : Tbl} (ht : t ∈ db.tables) (hb : ∀ p ∈ shownCons v t, ¬ p.1.Broken p.2) :
    ∃ us, ReadsStmt (tableText t.name (itemTexts v t))
      (.createTable ⟨[], false, qualified t.name, t.columns.map Col.shown, (shownCons v t).map (fun p => p.1.constraint), []⟩) us := by
  have hT := hp.tables t ht
  obtain ⟨cols, c1, c2, c3, ps, c4, c5, c6⟩ := columns_shown hT
  obtain ⟨qs, cs, d1, d2, d3, d4, d5⟩ := cons_shown (n := t.name) (shownCons v t) (fun p hpm => by
    obtain ⟨a, b, c⟩ := shownCons_ok hv hpm
    exact ⟨b, (hT.constraint _ a).1, (hT.constraint _ a).2, c, hb p hpm⟩)
  have hitems : itemTexts v t = (ps ++ qs).map (·.1) := by
    rw [List.map_append, c4, d1]; rfl
  have htoks : (ps ++ qs).map (·.2) = cols.map (·.2) ++ cs.map (·.2) := by rw [List.map_append, c5, d2]
  have hps : ps ≠ [] := by
    rintro rfl
    have := congrArg List.length c5
    simp at this
    exact c2 (List.length_eq_zero_iff.1 this.symm)
  have hnd : NodupNames (cs.map (·.1)) := by
    have : cs.map (·.1) = ((shownCons v t).map (·.1)).map Con.constraint := by rw [d3, List.map_map]; rfl
    rw [NodupNames, this, List.map_map]
    have hname : ((fun c : Constraint => c.name.name) ∘ Con.constraint) = Con.name := by
      funext c; cases c <;> rfl
    rw [hname]
    have hsub : ((shownCons v t).map (·.1)).Sublist t.constraints := by
      have : (shownCons v t).map (·.1) = t.constraints.filter fun c => decide (c.type ≠ s%"CHECK") := by
        have hone : ∀ c ∈ t.constraints.filter (fun c => decide (c.type ≠ s%"CHECK")), (constraintRules v (c.row t.name)).map (fun r => (c, r)) = [(c, none)] := by
          intro c hc
          have hall : ∀ o ∈ constraintRules v (c.row t.name), o = none := by
            intro o ho
            have hm : (c, o) ∈ shownCons v t := by
              rw [shownCons, List.mem_flatMap]
              exact ⟨c, hc, List.mem_map.2 ⟨o, ho, rfl⟩⟩
            by_contra hne
            exact hb _ hm (Or.inr hne)
          have : constraintRules v (c.row t.name) = [none] := by
            unfold constraintRules at hall ⊢
            split
            · rfl
            · rename_i h0
              exfalso
              cases hl0 : (v.rules.filter fun r => decide ((c.row t.name).name = r.name)) with
              | nil => exact h0 hl0
              | cons r l' =>
                rw [hl0] at hall
                have := hall (some r) (by simp)
                simp at this
          rw [this]; rfl
        rw [shownCons, List.flatMap_congr hone]
        generalize t.constraints.filter (fun c => decide (c.type ≠ s%"CHECK")) = l
        induction l with
        | nil => rfl
        | cons c l ih => simp only [List.flatMap_cons, List.cons_append, List.nil_append, List.map_cons, ih]
      rw [this]
      exact List.filter_sublist
    exact List.Nodup.sublist (hsub.map _) hT.constraintNames
  refine ⟨shownToks (fullName t.name) ((ps ++ qs).map (·.2)), ?_, ?_, fun r => rfl, by simp [shownToks], ?_⟩
  · rw [hitems]
    exact lex_tableText hT.name (fun p h => (List.mem_append.1 h).elim (c6 p) (d4 p)) (by simp [hps])
  · refine shownToks_noPanic ?_
    rw [htoks]
    intro x hx
    rcases List.mem_append.1 hx with hx | hx
    · obtain ⟨y, hy, rfl⟩ := List.mem_map.1 hx; exact (c3 y hy).noPanic
    · obtain ⟨y, hy, rfl⟩ := List.mem_map.1 hx; exact (d5 y hy).noPanic
  · intro rest hr
    rw [htoks]
    refine ⟨closeTok, semiTok :: rest, ?_, noPanic_cons (by decide) (noPanic_cons (by decide) hr), Or.inr rfl⟩
    rw [parseCreate_readsShown c2 c3 d5 hnd hr, newObjectName_full hT.name, c1, d3]

theorem split_first {α : Type} {P : α → Prop} : ∀ {l : List α}, (∃ a ∈ l, P a) → ∃ l1 a l2, l = l1 ++ a :: l2 ∧ P a ∧ ∀ b ∈ l1, ¬ P b
  | [], h => by simp at h
  | x :: l, h => by
    by_cases hx : P x
    · exact ⟨[], x, l, rfl, hx, by simp⟩
    · have : ∃ a ∈ l, P a := by
        obtain ⟨a, ha, hp⟩ := h
        rcases List.mem_cons.1 ha with rfl | ha
        · exact absurd hp hx
        · exact ⟨a, ha, hp⟩
      obtain ⟨l1, a, l2, e, h1, h2⟩ := split_first this
      refine ⟨x :: l1, a, l2, by rw [e]; rfl, h1, ?_⟩
      intro b hb
      rcases List.mem_cons.1 hb with rfl | hb
      · exact hx
      · exact h2 b hb

theorem table_bad (hv : Holds v db) (hp : db.Plain) {t : Tbl} (ht : t ∈ db.tables) (hb : ∃ p ∈ shownCons v t, p.1.Broken p.2) :
    ∃ us, BadStmt (tableText t.name (itemTexts v t)) us := by
  have hT := hp.tables t ht
  have hok : ∀ p ∈ shownCons v t, p.1.type ≠ s%"CHECK" ∧ IsPlain p.1.name ∧ (∀ x ∈ p.1.columns, IsPlain x) ∧
      (∀ x ∈ p.2, x.update ∈ ruleNames ∧ x.delete ∈ ruleNames) := by
    intro p hpm
    obtain ⟨a, b, c⟩ := shownCons_ok hv hpm
    exact ⟨b, (hT.constraint _ a).1, (hT.constraint _ a).2, c⟩
  obtain ⟨l1, b, l2, e, hbad, hgood⟩ := split_first hb
  rw [e] at hok
  obtain ⟨cols, c1, c2, c3, ps, c4, c5, c6⟩ := columns_shown hT
  obtain ⟨qs, cs, d1, d2, d3, d4, d5⟩ := cons_shown (n := t.name) l1 (fun p hpm => by
    obtain ⟨a, b, c, d⟩ := hok p (by simp [hpm])
    exact ⟨a, b, c, d, hgood p hpm⟩)
  obtain ⟨a1, a2, a3, a4⟩ := hok b (by simp)
  obtain ⟨ub, f1, f2, _⟩ := constraint_shown a1 a2 a3 a4 t.name
  obtain ⟨rs, g1, g2⟩ := cons_lex (n := t.name) l2 (fun p hpm => hok p (by simp [hpm]))
  have hitems : itemTexts v t = (ps ++ (qs ++ (conText t.name b, ub) :: rs)).map (·.1) := by
    simp only [List.map_append, List.map_cons, c4, d1, g1]
    rw [itemTexts, e, List.map_append, List.map_cons]
    rfl
  have htoks : (ps ++ (qs ++ (conText t.name b, ub) :: rs)).map (·.2) = cols.map (·.2) ++ (cs.map (·.2) ++ ub :: rs.map (·.2)) := by
    simp only [List.map_append, List.map_cons, c5, d2]
  have hmore : ∀ x ∈ rs.map (·.2), NoPanic x := by
    intro x hx
    obtain ⟨y, hy, rfl⟩ := List.mem_map.1 hx
    exact (g2 y hy).2
  refine ⟨shownToks (fullName t.name) ((ps ++ (qs ++ (conText t.name b, ub) :: rs)).map (·.2)), ?_, ?_, fun r => rfl, ?_⟩
  · rw [hitems]
    refine lex_tableText hT.name ?_ (by simp)
    intro p h
    simp only [List.mem_append, List.mem_cons] at h
    rcases h with h | h | rfl | h
    · exact c6 p h
    · exact d4 p h
    · exact f1
    · exact (g2 p h).1
  · refine shownToks_noPanic ?_
    rw [htoks]
    intro x hx
    simp only [List.mem_append, List.mem_cons] at hx
    rcases hx with hx | hx | rfl | hx
    · obtain ⟨y, hy, rfl⟩ := List.mem_map.1 hx; exact (c3 y hy).noPanic
    · obtain ⟨y, hy, rfl⟩ := List.mem_map.1 hx; exact (d5 y hy).noPanic
    · exact (f2 hbad).noPanic
    · exact hmore x hx
  · intro rest hr
    rw [htoks]
    exact parseCreate_errShown c2 c3 d5 (f2 hbad) hmore hr

theorem parse_seen (hv : Holds v db) (hp : db.Plain) (hf : db.NoForeignKey) (hu : Undisturbed v db) :
    parse (showTables v pub) = .ok (seen db) := by
  rw [showTables_eq hv hp]
  generalize hI : (db.indexes.filter fun i => decide (∀ t ∈ db.tables, ∀ c ∈ t.constraints, c.name ≠ i.name)) = is
  have his : ∀ i ∈ is, i ∈ db.indexes := by
    intro i hi
    rw [← hI] at hi
    exact List.mem_of_mem_filter hi
  have h := parse_read (l := db.tables.map (fun t => (tableText t.name (itemTexts v t), (.createTable t.seen : PStmt))) ++
    is.map (fun i => (i.row.definition ++ s%";\n", .createIndex i.createIndex))) (by
      intro x hx
      rcases List.mem_append.1 hx with hx | hx
      · obtain ⟨t, ht, rfl⟩ := List.mem_map.1 hx
        have hsc := shownCons_clean hf hu ht
        have hb : ∀ p ∈ shownCons v t, ¬ p.1.Broken p.2 := by
          rw [hsc]
          intro p hpm
          obtain ⟨c, hc, rfl⟩ := List.mem_map.1 hpm
          simp only [List.mem_filter, decide_eq_true_eq] at hc
          simp [Con.Broken, hc.2]
        obtain ⟨us, h⟩ := table_reads hv hp ht hb
        refine ⟨us, ?_⟩
        have e : t.seen = ⟨[], false, qualified t.name, t.columns.map Col.shown, (shownCons v t).map (fun p => p.1.constraint), []⟩ := by
          rw [hsc, List.map_map]; rfl
        rw [e]
        exact h
      · obtain ⟨i, hi, rfl⟩ := List.mem_map.1 hx
        obtain ⟨a, b, c, d, _⟩ := hp.index i (his i hi)
        exact index_shown ⟨a, b, c, d⟩)
  rw [List.flatMap_append, List.flatMap_map, List.flatMap_map] at h
  rw [h, seen, hI]
  simp [List.map_map, Function.comp_def]

theorem table_lex (hv : Holds v db) (hp : db.Plain) {t : Tbl} (ht : t ∈ db.tables) :
    ∃ us, NoPanic us ∧ ∀ r, lex .postgres (tableText t.name (itemTexts v t) ++ r) = us ++ lex .postgres r := by
  by_cases hb : ∃ p ∈ shownCons v t, p.1.Broken p.2
  · obtain ⟨us, h⟩ := table_bad hv hp ht hb
    exact ⟨us, h.noPanic, h.text⟩
  · obtain ⟨us, h⟩ := table_reads hv hp ht (fun p hp hbr => hb ⟨p, hp, hbr⟩)
    exact ⟨us, h.noPanic, h.text⟩

theorem lex_flatMap {α : Type} {f : α → Str} : ∀ {l : List α}, (∀ a ∈ l, ∃ us, NoPanic us ∧ ∀ r, lex .postgres (f a ++ r) = us ++ lex .postgres r) →
    ∀ {T : Str}, NoPanic (lex .postgres T) → NoPanic (lex .postgres (l.flatMap f ++ T))
  | [], _, T, hT => hT
  | a :: l, h, T, hT => by
    obtain ⟨us, h1, h2⟩ := h a (by simp)
    have := lex_flatMap (l := l) (fun b hb => h b (by simp [hb])) hT
    rw [List.flatMap_cons, List.append_assoc, h2]
    exact noPanic_append h1 this

theorem parse_refused (hv : Holds v db) (hp : db.Plain) (h : ¬ (db.NoForeignKey ∧ Undisturbed v db)) :
    ∃ e, parse (showTables v pub) = .err e := by
  rw [showTables_eq hv hp]
  obtain ⟨l1, t, l2, e, hb, hg⟩ := split_first (P := fun t => ∃ p ∈ shownCons v t, p.1.Broken p.2) (shownCons_broken h)
  have hmem : ∀ u, u ∈ l1 ++ t :: l2 → u ∈ db.tables := by rw [e]; exact fun _ h => h
  generalize hI : (db.indexes.filter fun i => decide (∀ t ∈ db.tables, ∀ c ∈ t.constraints, c.name ≠ i.name)) = is
  have his : ∀ i ∈ is, i ∈ db.indexes := by
    intro i hi
    rw [← hI] at hi
    exact List.mem_of_mem_filter hi
  obtain ⟨ub, hbad⟩ := table_bad hv hp (hmem t (by simp)) hb
  have hT : NoPanic (lex .postgres ((l2.flatMap fun t => tableText t.name (itemTexts v t)) ++ is.flatMap fun i => i.row.definition ++ s%";\n")) := by
    refine lex_flatMap (fun u hu => table_lex hv hp (hmem u (by simp [hu]))) ?_
    have := lex_flatMap (l := is) (f := fun i => i.row.definition ++ s%";\n") (T := []) (by
      intro i hi
      obtain ⟨a, b, c, d, _⟩ := hp.index i (his i hi)
      obtain ⟨us, h⟩ := index_shown ⟨a, b, c, d⟩
      exact ⟨us, h.noPanic, h.text⟩) noPanic_nil
    simpa using this
  have key := parse_bad hbad hT (l := l1.map fun t => (tableText t.name (itemTexts v t),
    (.createTable ⟨[], false, qualified t.name, t.columns.map Col.shown, (shownCons v t).map (fun p => p.1.constraint), []⟩ : PStmt))) (by
      intro x hx
      obtain ⟨u, hu, rfl⟩ := List.mem_map.1 hx
      exact table_reads hv hp (hmem u (by simp [hu])) (fun p hpm hbr => hg u hu ⟨p, hpm, hbr⟩))
  rw [List.flatMap_map] at key
  rw [e]
  simpa [List.flatMap_append, List.flatMap_cons, List.append_assoc] using key

/-! ## When everything is seen -/

theorem seen_eq {db : Db} (hp : db.Plain) (h : db.Simple) : seen db = stmts db := by
  have h1 : (db.tables.filter fun t => !t.view) = db.tables := List.filter_eq_self.2 fun t ht => by simp [h.view t ht]
  have h2 : (db.indexes.filter fun i => decide (∀ t ∈ db.tables, ∀ c ∈ t.constraints, c.name ≠ i.name)) = db.indexes :=
    List.filter_eq_self.2 fun i hi => decide_eq_true fun t ht c hc => hp.indexKey i hi t ht c hc (h.constraints t ht c hc)
  rw [seen, stmts, h1, h2]
  congr 1
  refine List.map_congr_left fun t ht => ?_
  have h3 : (t.constraints.filter fun c => decide c.IsKey) = t.constraints := List.filter_eq_self.2 fun c hc => by simp [h.constraints t ht c hc]
  have h4 : (t.columns.map fun c => { c with precision := none : Col }.column) = t.columns.map Col.column := by
    refine List.map_congr_left fun c hc => ?_
    rw [← h.precision t ht c hc]
  rw [Tbl.seen, Tbl.createTable, h3, h4]

theorem append_split {α β γ : Type} {f : α → γ} {g : β → γ} (hfg : ∀ a b, f a ≠ g b) : ∀ {l l' : List α} {m m' : List β},
    l.map f ++ m.map g = l'.map f ++ m'.map g → l.map f = l'.map f ∧ m.map g = m'.map g
  | [], [], _, _, h => ⟨rfl, h⟩
  | [], a :: l', [], m', h => by simp at h
  | [], a :: l', b :: m, m', h => by
    simp only [List.map_nil, List.nil_append, List.map_cons, List.cons_append, List.cons.injEq] at h
    exact absurd h.1.symm (hfg a b)
  | a :: l, [], m, [], h => by simp at h
  | a :: l, [], m, b :: m', h => by
    simp only [List.map_nil, List.nil_append, List.map_cons, List.cons_append, List.cons.injEq] at h
    exact absurd h.1 (hfg a b)
  | a :: l, a' :: l', m, m', h => by
    simp only [List.map_cons, List.cons_append, List.cons.injEq] at h
    obtain ⟨h1, h2⟩ := append_split hfg h.2
    exact ⟨by simp only [List.map_cons, h.1, h1], h2⟩

theorem simple_of_seen {db : Db} (h : seen db = stmts db) : db.Simple := by
  have key := append_split (f := fun x : CreateTable => (.createTable x : PStmt)) (g := fun x : CreateIndex => (.createIndex x : PStmt)) (by simp)
    (l := db.tables.map Tbl.seen) (l' := (db.tables.filter fun t => !t.view).map Tbl.createTable)
    (m := (db.indexes.filter fun i => decide (∀ t ∈ db.tables, ∀ c ∈ t.constraints, c.name ≠ i.name)).map Idx.createIndex)
    (m' := db.indexes.map Idx.createIndex) (by simpa [seen, stmts, List.map_map, Function.comp_def] using h)
  have hview : ∀ t ∈ db.tables, (!t.view) = true := by
    have := congrArg List.length key.1
    simp only [List.length_map] at this
    exact List.filter_eq_self.1 (List.filter_sublist.eq_of_length this.symm)
  have hT : ∀ t ∈ db.tables, t.seen = t.createTable := by
    have := key.1
    rw [List.filter_eq_self.2 hview, List.map_map, List.map_map] at this
    intro t ht
    have := List.map_inj_left.1 this t ht
    simpa using this
  refine ⟨?_, ?_, fun t ht => by simpa using hview t ht⟩
  · intro t ht c hc
    have := congrArg (fun x : CreateTable => x.constraints.length) (hT t ht)
    simp only [Tbl.seen, Tbl.createTable, List.length_map] at this
    simpa using List.filter_eq_self.1 (List.filter_sublist.eq_of_length this) c hc
  · intro t ht c hc
    have := congrArg CreateTable.columns (hT t ht)
    simp only [Tbl.seen, Tbl.createTable] at this
    have := List.map_inj_left.1 this c hc
    simp only [Col.column, Column.mk.injEq, DataType.mk.injEq] at this
    have := this.2.1.2.2
    cases hpr : c.precision with
    | none => rfl
    | some p => rw [hpr] at this; simp at this

theorem Db.Simple.noForeignKey {db : Db} (h : db.Simple) : db.NoForeignKey :=
  fun t ht c hc => (isKey_type (h.constraints t ht c hc)).2

end Ddl.Pg.Show
