import Verif.Lemmas.SchemaCrdb
import Verif.Lemmas.CrdbTable
import Verif.Lemmas.DecideRun
import Verif.Lemmas.DecideVariants

/-! # Deciding the hypotheses of C52, and migrations that do not work -/

namespace Ddl.Crdb.Run
open Ddl Spec Phases
set_option autoImplicit false

variable {sd : Str → Str → Str}

/-! ## Schemas that are read from a text -/

theorem again_of_readFrom {s : Str} {l : List CStmt} (h : ReadFrom s l) : ∀ x ∈ l, Again x := by
  obtain ⟨⟨ts, hw, hi⟩, h0, hl, hr, hx⟩ := h
  have hok := Crdb.parse_post (by rw [lex_of_writes hw]; exact lx_of_writes hw h0 hi) hl
  have hnd := Crdb.parseTokens_sat (pan := True) (ts := lex .cockroachdb s) ⟨fun _ => trivial, fun _ _ _ _ => trivial⟩
  rw [show parseTokens Crdb.parseCreate (lex .cockroachdb s) = .ok l from hl] at hnd
  intro x hm
  have := hok x hm
  cases x with
  | createTable t => exact ⟨this, hr t hm, hnd _ hm t rfl⟩
  | createIndex i => exact ⟨this, hx i hm⟩
  | alterTable a => exact this
  | dropTable => exact this
  | dropIndex => exact this

theorem createOnly_of_again {l : List CStmt} (h : ∀ x ∈ l, Again x) : CreateOnly (ops sd) l := by
  intro x hx
  have := h x hx
  cases x with
  | createTable t => rfl
  | createIndex i => rfl
  | alterTable a => exact this.elim
  | dropTable => exact this.elim
  | dropIndex => exact this.elim

theorem ddlStr_inj {b a : List CStmt} (hb : ∀ x ∈ b, Again x) (ha : ∀ x ∈ a, Again x) (e : ddlStr (ops sd) b = ddlStr (ops sd) a) : b = a := by
  have h1 := parse_again (sd := sd) hb
  have h2 := parse_again (sd := sd) ha
  rw [e, h2] at h1
  cases h1
  rfl

theorem told_of_again {b a : List CStmt} (hb : ∀ x ∈ b, Again x) (ha : ∀ x ∈ a, Again x) : Told (ops sd) b a := by
  refine ⟨fun t t' ht ht' e => ?_, ddlStr_inj hb ha⟩
  have := ddlStr_inj (sd := sd) (b := [.createTable t]) (a := [.createTable t']) (by simpa using hb _ ht) (by simpa using ha _ ht') (by
    simp [ddlStr, stmtStr, ops, show t.str = t'.str from e])
  cases this
  rfl

/-! ## Bounded checks -/

/-- The tables of a schema. -/
def tables (l : List CStmt) : List CreateTable := l.filterMap fun | .createTable t => some t | _ => none

/-- The indexes of a schema. -/
def indexes (l : List CStmt) : List CreateIndex := l.filterMap fun | .createIndex i => some i | _ => none

theorem mem_tables {l : List CStmt} {t : CreateTable} : t ∈ tables l ↔ .createTable t ∈ l := by
  unfold tables
  rw [List.mem_filterMap]
  constructor
  · rintro ⟨s, hs, h⟩
    cases s <;> simp only [Option.some.injEq, reduceCtorEq] at h
    exact h ▸ hs
  · exact fun h => ⟨_, h, rfl⟩

theorem mem_indexes {l : List CStmt} {t : CreateIndex} : t ∈ indexes l ↔ .createIndex t ∈ l := by
  unfold indexes
  rw [List.mem_filterMap]
  constructor
  · rintro ⟨s, hs, h⟩
    cases s <;> simp only [Option.some.injEq, reduceCtorEq] at h
    exact h ▸ hs
  · exact fun h => ⟨_, h, rfl⟩

instance (t : CreateTable) (k : Str) : Decidable (HasColumn t k) := inferInstanceAs (Decidable (∃ c ∈ t.columns, c.name.name = k))
instance (l : List CStmt) (n : Str) : Decidable (HasTable l n) :=
  decidable_of_iff (∃ t ∈ tables l, t.name.diffStr = n) (exists_congr fun _ => and_congr_left' mem_tables)
instance (l : List CStmt) (n : Str) : Decidable (HasIndex l n) :=
  decidable_of_iff (∃ t ∈ indexes l, t.name.name = n) (exists_congr fun _ => and_congr_left' mem_indexes)
instance (i : CreateIndex) : Decidable (IndexTame i) := by unfold IndexTame; infer_instance
instance (l : List CStmt) : Decidable (TameSchema l) :=
  decidable_of_iff ((∀ t ∈ tables l, (∀ c ∈ t.columns, c.Tame) ∧ ∀ c ∈ t.constraints, c.Tame) ∧ ∀ i ∈ indexes l, IndexTame i)
    ⟨fun ⟨h, h'⟩ => ⟨fun t ht => h t (mem_tables.2 ht), fun i hi => h' i (mem_indexes.2 hi)⟩,
      fun ⟨h, h'⟩ => ⟨fun t ht => h t (mem_tables.1 ht), fun i hi => h' i (mem_indexes.1 hi)⟩⟩
instance (l : List CStmt) : Decidable (CreateOnly (ops sd) l) := by unfold CreateOnly; infer_instance

instance (d : Option Default) (q : Prop) [Decidable q] : Decidable (∀ x, d = some x → q ∧ ∃ e, x.value = some e ∧ ApartCasts e) :=
  match d with
  | none => .isTrue (by simp)
  | some ⟨none⟩ => .isFalse (by simp)
  | some ⟨some e⟩ => decidable_of_iff (q ∧ ApartCasts e) (by simp)
instance (d : Option As) : Decidable (∀ x, d = some x → ∃ e, x.value = some e ∧ ApartCasts e) :=
  match d with
  | none => .isTrue (by simp)
  | some ⟨none, _⟩ => .isFalse (by simp)
  | some ⟨some e, _⟩ => decidable_of_iff (ApartCasts e) (by simp)
instance (d : Option Using) : Decidable (∀ u, d = some u → ∀ e, u.with_ = some e → ApartCasts e) :=
  match d with
  | none => .isTrue (by simp)
  | some u => decidable_of_iff (∀ e ∈ u.with_.toList, ApartCasts e) (by simp)
instance (c : Column) : Decidable c.Rereadable := by unfold Column.Rereadable; infer_instance
instance (c : Constraint) : Decidable c.Rereadable := by
  cases c <;> (unfold Constraint.Rereadable; infer_instance)
instance (t : CreateTable) : Decidable t.Rereadable := by unfold CreateTable.Rereadable; infer_instance
instance (i : CreateIndex) : Decidable i.Rereadable := by unfold CreateIndex.Rereadable; infer_instance

instance (b a : List CStmt) : Decidable (SameSchemas (ops sd) b a) :=
  decidable_of_iff (∀ t ∈ tables b, ∀ t' ∈ tables a, t.name.diffStr = t'.name.diffStr →
    t.name.schema.map Ident.name = t'.name.schema.map Ident.name)
    ⟨fun h t t' ht ht' => h t (mem_tables.2 ht) t' (mem_tables.2 ht'), fun h t ht t' ht' => h t t' (mem_tables.1 ht) (mem_tables.1 ht')⟩

instance (b a : List CStmt) : Decidable (Told (ops sd) b a) :=
  decidable_of_iff ((∀ t ∈ tables b, ∀ t' ∈ tables a, t.str = t'.str → t = t') ∧ (ddlStr (ops sd) b = ddlStr (ops sd) a → b = a))
    (and_congr_left' ⟨fun h t t' ht ht' => h t (mem_tables.2 ht) t' (mem_tables.2 ht'),
      fun h t ht t' ht' => h t t' (mem_tables.1 ht) (mem_tables.1 ht')⟩)

/-- The tables with an index of that name. -/
def indexTables (l : List CStmt) (k : Str) : List Str :=
  ((tables l).filter fun t => decide (∃ c ∈ t.constraints, c.IsIndex ∧ c.name.name = k)).map (·.name.diffStr) ++
  ((indexes l).filter fun i => decide (i.name.name = k)).map (·.tableName.diffStr)

theorem mem_indexTables {l : List CStmt} {n k : Str} : n ∈ indexTables l k ↔ IndexOn l n k := by
  simp only [indexTables, IndexOn, List.mem_append, List.mem_map, List.mem_filter, mem_tables, mem_indexes, decide_eq_true_eq]
  constructor
  · rintro (⟨t, ⟨h1, h2⟩, h3⟩ | ⟨t, ⟨h1, h2⟩, h3⟩)
    · exact Or.inl ⟨t, h1, h3, h2⟩
    · exact Or.inr ⟨t, h1, h3, h2⟩
  · rintro (⟨t, h1, h3, h2⟩ | ⟨t, h1, h3, h2⟩)
    · exact Or.inl ⟨t, ⟨h1, h2⟩, h3⟩
    · exact Or.inr ⟨t, ⟨h1, h2⟩, h3⟩

/-- The names of all indexes. -/
def indexNames (l : List CStmt) : List Str :=
  (tables l).flatMap (fun t => t.constraints.map (·.name.name)) ++ (indexes l).map (·.name.name)

theorem mem_indexNames {l : List CStmt} {n k : Str} (h : IndexOn l n k) : k ∈ indexNames l := by
  rw [indexNames, List.mem_append]
  rcases h with ⟨t, ht, _, c, hc, _, rfl⟩ | ⟨i, hi, _, rfl⟩
  · exact Or.inl (List.mem_flatMap.2 ⟨t, mem_tables.2 ht, List.mem_map.2 ⟨c, hc, rfl⟩⟩)
  · exact Or.inr (List.mem_map.2 ⟨i, mem_indexes.2 hi, rfl⟩)

/-- The hazards of a table that stays, with bounded quantifiers. -/
def noStayHazard (b a : List CStmt) (t t' : CreateTable) : Prop :=
  (∀ c ∈ t.columns, ¬ HasColumn t' c.name.name → ∀ i ∈ indexes b, HasIndex a i.name.name → i.tableName.diffStr = t.name.diffStr →
    c.name.name ∉ i.columns.map (·.ident.name)) ∧
  (∀ i ∈ indexes a, ¬ HasIndex b i.name.name → i.tableName.diffStr = t.name.diffStr → ∀ x ∈ i.columns, HasColumn t x.ident.name)

instance (b a : List CStmt) (t t' : CreateTable) : Decidable (noStayHazard b a t t') := by unfold noStayHazard; infer_instance

/-- The hazards of a table that is dropped, with bounded quantifiers. -/
def noDropHazard (b : List CStmt) (t : CreateTable) : Prop :=
  (∀ i ∈ indexes b, i.tableName.diffStr ≠ t.name.diffStr) ∧
    ∀ u ∈ tables b, u.name.diffStr ≠ t.name.diffStr → ∀ c ∈ u.constraints, c.target ≠ some t.name.diffStr

instance (b : List CStmt) (t : CreateTable) : Decidable (noDropHazard b t) := by unfold noDropHazard; infer_instance

/-- The hazards of names, with bounded quantifiers. -/
def noNameHazard (l : List CStmt) : Prop :=
  (∀ t ∈ tables l, ∀ i ∈ indexes l, i.tableName.diffStr = t.name.diffStr → ∀ c ∈ t.constraints, c.name.name ≠ i.name.name) ∧
  ∀ k ∈ indexNames l, ∀ n ∈ indexTables l k, ∀ n' ∈ indexTables l k, n = n'

instance (l : List CStmt) : Decidable (noNameHazard l) := by unfold noNameHazard; infer_instance

/-- `NoSchemaHazard` with bounded quantifiers. -/
def noSchemaHazard (b a : List CStmt) : Prop :=
  (∀ t ∈ tables b, ¬ HasTable a t.name.diffStr → noDropHazard b t) ∧
  (∀ t ∈ tables b, ∀ t' ∈ tables a, t.name.diffStr = t'.name.diffStr → NoHazard t t' ∧ noStayHazard b a t t') ∧ noNameHazard (b ++ a)

instance (b a : List CStmt) : Decidable (noSchemaHazard b a) := by unfold noSchemaHazard; infer_instance

theorem noSchemaHazard_of {b a : List CStmt} (h : noSchemaHazard b a) : NoSchemaHazard b a := by
  obtain ⟨h1, h2, h3, h4⟩ := h
  have hs : ∀ {t t' : CreateTable}, Stays b a t t' → NoHazard t t' ∧ noStayHazard b a t t' := fun {t t'} (hst : Stays b a t t') =>
    h2 t (mem_tables.2 hst.1) t' (mem_tables.2 hst.2.1) hst.2.2
  refine
    { table := fun t t' hst => (hs hst).1
      droppedTableIndex := fun t i ht hn hi => (h1 t (mem_tables.2 ht) hn).1 i (mem_indexes.2 hi)
      droppedTableReferred := fun t u ht hn hu => (h1 t (mem_tables.2 ht) hn).2 u (mem_tables.2 hu)
      droppedColumnIndex := ?_
      newIndexColumn := fun t t' i x hst hi hn hit hx => (hs hst).2.2 i (mem_indexes.2 hi) hn hit x hx
      separate := fun t i ht hi => h3 t (mem_tables.2 ht) i (mem_indexes.2 hi)
      indexNames := fun n n' k hn hn' => h4 k (mem_indexNames hn) n (mem_indexTables.2 hn) n' (mem_indexTables.2 hn') }
  rintro t t' _ i hst ⟨c, hc, rfl⟩ hno hi hia hit
  exact (hs hst).2.1 c hc hno i (mem_indexes.2 hi) hia hit

/-- `OkAfter` with bounded quantifiers. -/
def okAfter (p : List CStmt) : CStmt → Prop
  | .createTable t => DistinctNames t ∧ (∀ c ∈ t.constraints, ∀ k ∈ c.columnNames, ∃ x ∈ t.columns, x.name.name = k) ∧
      ∀ c ∈ t.constraints, ∀ r ∈ c.target.toList, r = t.name.diffStr ∨ HasTable p r
  | .createIndex i => ∃ t ∈ tables p, t.name.diffStr = i.tableName.diffStr ∧ ∀ x ∈ i.columns, HasColumn t x.ident.name
  | _ => False

instance (p : List CStmt) (s : CStmt) : Decidable (okAfter p s) := by
  cases s <;> unfold okAfter <;> infer_instance

theorem okAfter_of {p : List CStmt} {s : CStmt} (h : okAfter p s) : OkAfter p s := by
  cases s with
  | createTable t => exact ⟨h.1, h.2.1, fun c hc r hr => h.2.2 c hc r (by simp [hr])⟩
  | createIndex i =>
    obtain ⟨t, ht, h⟩ := h
    exact ⟨t, mem_tables.1 ht, h⟩
  | alterTable => exact h.elim
  | dropTable => exact h.elim
  | dropIndex => exact h.elim

/-- The statements can be executed, with bounded quantifiers. -/
def loadable (l : List CStmt) : Prop :=
  DistinctObjects (ops fun _ _ => []) l ∧
  (∀ t ∈ tables l, ∀ i ∈ indexes l, i.tableName.diffStr = t.name.diffStr → ∀ c ∈ t.constraints, c.name.name ≠ i.name.name) ∧
  ∀ j ∈ List.range l.length, ∀ s ∈ l[j]?.toList, okAfter (l.take j) s

instance (l : List CStmt) : Decidable (loadable l) := by unfold loadable; infer_instance

theorem runs_st {p q : List CStmt} (hd : DistinctObjects (ops sd) (p ++ q)) (hsep : Separate (p ++ q)) (hns : NoStray p)
    (h : ∀ q₁ s q₂, q = q₁ ++ s :: q₂ → OkAfter (p ++ q₁) s) : Runs Exec (st p) q (st (p ++ q)) := by
  induction q generalizing p with
  | nil => rw [List.append_nil]; exact .nil _
  | cons s q ih =>
    have e : p ++ s :: q = p ++ [s] ++ q := by simp
    have ok : OkAfter p s := by simpa using h [] s q rfl
    have hd1 : DistinctObjects (ops sd) (p ++ [s]) := by
      refine distinct_sublist ?_ hd
      rw [e]
      exact List.sublist_append_left _ _
    have hsep1 : Separate (p ++ [s]) := hsep.mono fun u hu => by rw [e]; exact List.mem_append_left _ hu
    refine .cons (exec_create hd1 ok hsep1 (noStray_table hd1 hns)) ?_
    rw [e]
    refine ih (by rw [← e]; exact hd) (by rw [← e]; exact hsep) (noStray_snoc hns ok) fun q₁ s' q₂ hq => ?_
    have := h (s :: q₁) s' q₂ (by rw [hq]; rfl)
    simpa using this

theorem loads {l : List CStmt} (h : loadable l) : Runs Exec Db.empty l (st l) := by
  rw [← st_nil]
  refine runs_st (p := []) h.1 (fun t i ht hi => h.2.1 t (mem_tables.2 ht) i (mem_indexes.2 hi)) (fun i hi => by cases hi) ?_
  rintro p s q rfl
  have := h.2.2 p.length (by simp) s (by simp)
  rw [List.take_left] at this
  exact okAfter_of this

/-! ## Statements that fail -/

section
variable {l : List CStmt} {D : Db} (hl : loadable l)
include hl

theorem st_tab {t : CreateTable} (ht : .createTable t ∈ l) : st l t.name.diffStr = some (ext (tableOf t) (ixs l t.name.diffStr)) :=
  st_of_mem hl.1 ht

theorem ixs_of_mem {i : CreateIndex} (hi : .createIndex i ∈ l) : ixs l i.tableName.diffStr i.name.name = some ⟨indexOf i, true⟩ := by
  rw [ixs, (idx_iff hl.1).2 ⟨hi, rfl, rfl⟩, Option.map_some]

theorem not_dropTable_dropIndex {t : ObjectName} {k : Ident} (kn tn : Str) (hone : ∀ n ∈ indexTables l kn, n = tn) (hk : k.name = kn)
    (ht : t.diffStr = tn) {cm cm' : Str} {r : List CStmt} : ¬ Runs Exec (st l) (.dropTable cm false t :: .dropIndex cm' false k :: r) D := by
  subst hk ht
  have h1 : ∀ n T, st l n = some T → T.HasIndex k.name → n = t.diffStr := fun n T hT hk => hone n (mem_indexTables.2 (indexOn_of_st hT hk))
  generalize st l = x at h1 ⊢
  rintro (_ | ⟨h, (_ | ⟨h', _⟩)⟩)
  cases h with
  | dropTable =>
    cases h' with
    | dropIndex _ _ _ n T h2 h3 =>
      by_cases hn : n = t.diffStr
      · subst hn
        rw [upd_same] at h2
        cases h2
      · rw [upd_ne _ _ hn] at h2
        exact hn (h1 n T h2 h3)

theorem not_dropTable_refers {t u : CreateTable} (ht : .createTable t ∈ l) (hu : .createTable u ∈ l) (hne : u.name.diffStr ≠ t.name.diffStr)
    {k : Str} {c : Con} (hc : (tableOf u).cons k = some c) (hr : c.definition.target = some t.name.diffStr) {cm : Str} {ie : Bool}
    {r : List CStmt} : ¬ Runs Exec (st l) (.dropTable cm ie t.name :: r) D := by
  have h1 := st_tab hl ht
  have h2 := st_tab hl hu
  generalize st l = x at h1 h2 ⊢
  rintro (_ | ⟨h, _⟩)
  cases h with
  | dropTable _ _ _ _ h3 => exact h3 _ _ hne h2 ⟨k, c, by simp [ext, hc], hr⟩
  | dropTableMissing _ _ h3 => rw [h1] at h3; cases h3

theorem not_dropColumn_index {t : CreateTable} (ht : .createTable t ∈ l) {i : CreateIndex} (hi : .createIndex i ∈ l) {n : ObjectName} {k : Ident}
    (e : n.diffStr = t.name.diffStr) (e' : i.tableName.diffStr = t.name.diffStr) (hk : k.name ∈ i.columns.map (·.ident.name)) {cm : Str}
    {r : List CStmt} : ¬ Runs Exec (st l) (.alterTable ⟨cm, n, .dropColumn k⟩ :: r) D := by
  have h1 := st_tab hl ht
  have h2 := ixs_of_mem hl hi
  have h0 : (tableOf t).cons i.name.name = none :=
    tableOf_cons_none.2 (hl.2.1 t (mem_tables.2 ht) i (mem_indexes.2 hi) e')
  rw [e'] at h2
  generalize st l = x at h1 ⊢
  rintro (_ | ⟨h, _⟩)
  cases h with
  | alterTable _ _ _ T _ h3 _ h4 =>
    rw [e, h1] at h3
    cases h3
    cases h4 with
    | dropColumn _ _ h5 =>
      refine h5 i.name.name ⟨indexOf i, true⟩ (by simp [ext, h0, h2]) ?_
      simpa [indexOf, Def.mentions, ColumnIdent.bare, Ident.bare] using hk

theorem not_createIndex {t : CreateTable} {i : CreateIndex} (ht : .createTable t ∈ l) (e : i.tableName.diffStr = t.name.diffStr)
    {x : ColumnIdent} (hx : x ∈ i.columns) (hno : ¬ HasColumn t x.ident.name) (hie : i.ifNotExists = false) {r : List CStmt} :
    ¬ Runs Exec (st l) (.createIndex i :: r) D := by
  have h1 := st_tab hl ht
  generalize st l = y at h1 ⊢
  rintro (_ | ⟨h, _⟩)
  cases h with
  | createIndex _ T h2 _ h3 =>
    rw [e, h1] at h2
    cases h2
    exact hno (tableOf_cols.1 (h3 x hx))
  | createIndexExists _ _ _ _ h2 => rw [hie] at h2; cases h2

theorem not_createIndex_taken {t : CreateTable} {i : CreateIndex} (ht : .createTable t ∈ l) (e : i.tableName.diffStr = t.name.diffStr)
    {c : Con} (hc : (tableOf t).cons i.name.name = some c) (hie : i.ifNotExists = false) {r : List CStmt} :
    ¬ Runs Exec (st l) (.createIndex i :: r) D := by
  have h1 := st_tab hl ht
  generalize st l = y at h1 ⊢
  rintro (_ | ⟨h, _⟩)
  cases h with
  | createIndex _ T h2 h3 =>
    rw [e, h1] at h2
    cases h2
    simp [ext, hc] at h3
  | createIndexExists _ _ _ _ h2 => rw [hie] at h2; cases h2

theorem not_dropIndex {t u : CreateTable} (ht : .createTable t ∈ l) (hu : .createTable u ∈ l) (hne : t.name.diffStr ≠ u.name.diffStr)
    {k : Ident} (h : (tableOf t).HasIndex k.name) (h' : (tableOf u).HasIndex k.name) {cm : Str} {r : List CStmt} :
    ¬ Runs Exec (st l) (.dropIndex cm false k :: r) D := by
  have h1 := st_tab hl ht
  have h2 := st_tab hl hu
  have up : ∀ {T : Tbl} {E : Str → Option Con}, T.HasIndex k.name → (ext T E).HasIndex k.name := by
    rintro T E ⟨uq, pre, cs, post, v, e⟩
    exact ⟨uq, pre, cs, post, v, by simp [ext, e]⟩
  generalize st l = y at h1 h2 ⊢
  rintro (_ | ⟨h3, _⟩)
  cases h3 with
  | dropIndex _ _ _ n T _ _ h4 => exact hne ((h4 _ _ h1 (up h)).trans (h4 _ _ h2 (up h')).symm)

theorem not_dropIndex_createIndex {t : CreateTable} {j : CreateIndex} {k : Ident} (ht : .createTable t ∈ l)
    (e : j.tableName.diffStr = t.name.diffStr) {x : ColumnIdent} (hx : x ∈ j.columns) (hno : ¬ HasColumn t x.ident.name)
    (hie : j.ifNotExists = false) {cm : Str} {r : List CStmt} : ¬ Runs Exec (st l) (.dropIndex cm false k :: .createIndex j :: r) D := by
  have h1 := st_tab hl ht
  generalize st l = y at h1 ⊢
  rintro (_ | ⟨h, (_ | ⟨h', _⟩)⟩)
  cases h with
  | dropIndex _ _ _ n T hT =>
    cases h' with
    | createIndex _ U h2 _ h3 =>
      rw [e] at h2
      have : U.cols = (tableOf t).cols := by
        by_cases hn : t.name.diffStr = n
        · rw [hn, upd_same] at h2
          rw [hn] at h1
          rw [h1] at hT
          cases hT
          cases h2
          rfl
        · rw [upd_ne _ _ hn, h1] at h2
          cases h2
          rfl
      refine hno (tableOf_cols.1 ?_)
      rw [← this]
      exact h3 x hx
    | createIndexExists _ _ _ _ h2 => rw [hie] at h2; cases h2

theorem index_lost {t : CreateTable} (ht : .createTable t ∈ l) {i : CreateIndex} (e : i.tableName.diffStr = t.name.diffStr)
    (hie : i.ifNotExists = true) {k : Ident} (hk : k.name = i.name.name) (hi : (tableOf t).HasIndex i.name.name)
    (hone : ∀ n ∈ indexTables l i.name.name, n = t.name.diffStr) {cm : Str} :
    (∃ D, Runs Exec (st l) [.createIndex i, .dropIndex cm false k] D) ∧
      ∀ D, Runs Exec (st l) [.createIndex i, .dropIndex cm false k] D → ∃ T, D t.name.diffStr = some T ∧ T.cons i.name.name = none := by
  have h1 := st_tab hl ht
  have h2 : ∀ n T, st l n = some T → T.HasIndex i.name.name → n = t.name.diffStr := fun n T hT hk => hone n (mem_indexTables.2 (indexOn_of_st hT hk))
  have hi' : (ext (tableOf t) (ixs l t.name.diffStr)).HasIndex i.name.name := by
    obtain ⟨uq, pre, cs, post, v, e⟩ := hi
    exact ⟨uq, pre, cs, post, v, by simp [ext, e]⟩
  generalize st l = x at h1 h2 ⊢
  generalize ext (tableOf t) (ixs l t.name.diffStr) = T at h1 hi'
  refine ⟨⟨_, .cons (.createIndexExists i T (by rw [e, h1]) hi' hie)
    (Runs.one (.dropIndex cm false k t.name.diffStr T h1 (by rw [hk]; exact hi') ?_))⟩, ?_⟩
  · intro m U hU hk'
    rw [hk] at hk'
    exact h2 m U hU hk'
  · rintro D (_ | ⟨h, (_ | ⟨h', h''⟩)⟩)
    cases h'' with
    | nil =>
    cases h with
    | createIndex _ U h3 h4 =>
      rw [e, h1] at h3
      cases h3
      obtain ⟨_, _, _, _, _, e⟩ := hi'
      rw [h4] at e
      cases e
    | createIndexExists _ U h3 =>
      cases h' with
      | dropIndex _ _ _ n U h4 h5 =>
        rw [hk] at h5
        have := h2 n U h4 h5
        subst this
        exact ⟨_, upd_same _ _ _, by simp [hk]⟩
end

theorem stuck_of {b a l : List CStmt} (lb : loadable b) (la : loadable a) (hd : diff (ops sd) (some b) (some a) = .ok l)
    (hn : loadable b → ∀ D, ¬ Runs Exec (st b) l D) :
    ∃ B A l, Runs Exec Db.empty b B ∧ Runs Exec Db.empty a A ∧ diff (ops sd) (some b) (some a) = .ok l ∧ ∀ D, ¬ Runs Exec B l D :=
  ⟨_, _, l, loads lb, loads la, hd, hn lb⟩

theorem lost_of {b a : List CStmt} {t t' : CreateTable} {i : CreateIndex} {k : Ident} {cm : Str} (lb : loadable b) (la : loadable a)
    (hd : diff (ops sd) (some b) (some a) = .ok [.createIndex i, .dropIndex cm false k]) (ht : .createTable t ∈ b)
    (ht' : .createTable t' ∈ a) (hi : .createIndex i ∈ a) (tn kn : Str) (e : t.name.diffStr = tn) (e' : t'.name.diffStr = tn)
    (e₁ : i.tableName.diffStr = tn) (hie : i.ifNotExists = true) (hk : k.name = kn) (hik : i.name.name = kn) (hI : (tableOf t).HasIndex kn)
    (hone : ∀ n ∈ indexTables b kn, n = tn) :
    ∃ B A l, Runs Exec Db.empty b B ∧ Runs Exec Db.empty a A ∧ diff (ops sd) (some b) (some a) = .ok l ∧ (∃ D, Runs Exec B l D) ∧
      ∀ D, Runs Exec B l D → D ≠ A ∧ ∃ T, D tn = some T ∧ T.cons kn = none := by
  subst hik
  obtain ⟨h1, h2⟩ := index_lost lb ht (e₁.trans e.symm) hie hk hI (by rw [e]; exact hone) (cm := cm)
  refine ⟨_, _, _, loads lb, loads la, hd, h1, fun D hD => ?_⟩
  obtain ⟨T, hT, hc⟩ := h2 D hD
  rw [e] at hT
  refine ⟨?_, T, hT, hc⟩
  rintro rfl
  have h3 := st_tab la ht'
  have h4 := ixs_of_mem la hi
  rw [e', hT] at h3
  rw [e₁] at h4
  cases h3
  simp [ext, h4] at hc

end Ddl.Crdb.Run
