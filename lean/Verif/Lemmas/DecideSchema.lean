import Verif.Lemmas.SchemaSp
import Verif.Lemmas.SpTable
import Verif.Lemmas.DecideRun
import Verif.Lemmas.DecideVariants

/-! # Deciding the hypotheses of C51, and migrations that do not work -/

namespace Ddl.Sp.Run
open Ddl Spec Phases
set_option autoImplicit false

variable {sd : Str → Str → Str}

/-! ## Schemas that are read from a text -/

theorem again_of_readFrom {s : Str} {l : List SStmt} (h : ReadFrom s l) : ∀ x ∈ l, Again x := by
  obtain ⟨⟨ts, hw, hi⟩, h0, hl, hr⟩ := h
  have hok := Sp.parse_post (by rw [lex_of_writes hw]; exact lx_of_writes hw h0 hi) hl
  have hnd := Sp.parseTokens_sat (pan := True) (ts := lex .spanner s) ⟨fun _ => trivial, fun _ _ _ _ => trivial⟩
  rw [show parseTokens Sp.parseCreate (lex .spanner s) = .ok l from hl] at hnd
  intro x hm
  have := hok x hm
  cases x with
  | createTable t => exact ⟨this, hr t hm, hnd _ hm t rfl⟩
  | createIndex i => exact this
  | alterTable a => exact this
  | dropTable => exact this
  | dropIndex => exact this

theorem createOnly_of_readFrom {s : Str} {l : List SStmt} (h : ReadFrom s l) : CreateOnly (ops sd) l := by
  intro x hx
  have := again_of_readFrom h x hx
  cases x with
  | createTable t => rfl
  | createIndex i => rfl
  | alterTable a => exact this.elim
  | dropTable => exact this.elim
  | dropIndex => exact this.elim

theorem ddlStr_inj {b a : List SStmt} (hb : ∀ x ∈ b, Again x) (ha : ∀ x ∈ a, Again x) (e : ddlStr (ops sd) b = ddlStr (ops sd) a) : b = a := by
  have h1 := parse_again (sd := sd) hb
  have h2 := parse_again (sd := sd) ha
  rw [e, h2] at h1
  cases h1
  rfl

theorem str_inj {t t' : CreateTable} (hb : Again (.createTable t)) (ha : Again (.createTable t')) (e : t.str = t'.str) : t = t' := by
  have := ddlStr_inj (sd := fun _ _ => []) (b := [.createTable t]) (a := [.createTable t']) (by simpa using hb) (by simpa using ha) (by
    simp [ddlStr, stmtStr, ops, e])
  cases this
  rfl

/-! ## Bounded checks -/

/-- The tables of a schema. -/
def tables (l : List SStmt) : List CreateTable := l.filterMap fun | .createTable t => some t | _ => none

/-- The indexes of a schema. -/
def indexes (l : List SStmt) : List CreateIndex := l.filterMap fun | .createIndex i => some i | _ => none

theorem mem_tables {l : List SStmt} {t : CreateTable} : t ∈ tables l ↔ .createTable t ∈ l := by
  unfold tables
  rw [List.mem_filterMap]
  constructor
  · rintro ⟨s, hs, h⟩
    cases s <;> simp only [Option.some.injEq, reduceCtorEq] at h
    exact h ▸ hs
  · exact fun h => ⟨_, h, rfl⟩

instance (b a : List SStmt) : Decidable (Told (ops sd) b a) :=
  decidable_of_iff ((∀ t ∈ tables b, ∀ t' ∈ tables a, t.str = t'.str → t = t') ∧ (ddlStr (ops sd) b = ddlStr (ops sd) a → b = a))
    (and_congr_left' ⟨fun h t t' ht ht' => h t (mem_tables.2 ht) t' (mem_tables.2 ht'),
      fun h t ht t' ht' => h t t' (mem_tables.1 ht) (mem_tables.1 ht')⟩)

theorem mem_indexes {l : List SStmt} {t : CreateIndex} : t ∈ indexes l ↔ .createIndex t ∈ l := by
  unfold indexes
  rw [List.mem_filterMap]
  constructor
  · rintro ⟨s, hs, h⟩
    cases s <;> simp only [Option.some.injEq, reduceCtorEq] at h
    exact h ▸ hs
  · exact fun h => ⟨_, h, rfl⟩

instance (t : CreateTable) (k : Str) : Decidable (HasColumn t k) := inferInstanceAs (Decidable (∃ c ∈ t.columns, c.name.name = k))
instance (l : List SStmt) (n : Str) : Decidable (HasTable l n) :=
  decidable_of_iff (∃ t ∈ tables l, t.name.diffStr = n) (exists_congr fun _ => and_congr_left' mem_tables)
instance (l : List SStmt) (n : Str) : Decidable (HasIndex l n) :=
  decidable_of_iff (∃ t ∈ indexes l, t.name.diffStr = n) (exists_congr fun _ => and_congr_left' mem_indexes)
instance (i : CreateIndex) : Decidable (IndexTame i) := by unfold IndexTame; infer_instance
instance (l : List SStmt) : Decidable (TameSchema l) := by unfold TameSchema; infer_instance
instance (l : List SStmt) : Decidable (CreateOnly (ops sd) l) := by unfold CreateOnly; infer_instance

instance (c : Column) : Decidable c.Rereadable := by unfold Column.Rereadable; infer_instance
instance (c : Constraint) : Decidable c.Rereadable := by unfold Constraint.Rereadable; infer_instance
instance (t : CreateTable) : Decidable t.Rereadable := by unfold CreateTable.Rereadable; infer_instance

/-- The tables a table refers to. -/
def refs (t : CreateTable) : List Str := parentsIn (tableOf t).options ++ t.constraints.filterMap Constraint.target

theorem mem_refs {t : CreateTable} {n : Str} (h : (tableOf t).Refers n) : n ∈ refs t := by
  rcases h with h | ⟨k, c, h, e⟩
  · exact List.mem_append_left _ h
  · refine List.mem_append_right _ ?_
    simp only [tableOf, Option.map_eq_some_iff] at h
    obtain ⟨c₀, hf, rfl⟩ := h
    refine List.mem_filterMap.2 ⟨c₀, List.mem_of_find?_eq_some hf, ?_⟩
    cases c₀ <;> exact e

instance (b a : List SStmt) : Decidable (SameSchemas (ops sd) b a) :=
  decidable_of_iff (∀ t ∈ tables b, ∀ t' ∈ tables a, t.name.diffStr = t'.name.diffStr →
    t.name.schema.map Ident.name = t'.name.schema.map Ident.name)
    ⟨fun h t t' ht ht' => h t (mem_tables.2 ht) t' (mem_tables.2 ht'), fun h t ht t' ht' => h t t' (mem_tables.1 ht) (mem_tables.1 ht')⟩

/-- The hazards of a table that is created again, with bounded quantifiers. -/
def noRecreateHazard (b a : List SStmt) (t : CreateTable) : Prop :=
  (∀ i ∈ indexes b, HasIndex a i.name.diffStr → i.tableName.diffStr ≠ t.name.diffStr) ∧
  (∀ i ∈ indexes a, i.tableName.diffStr ≠ t.name.diffStr) ∧
  (∀ u ∈ tables b, HasTable a u.name.diffStr → u.name.diffStr ≠ t.name.diffStr → t.name.diffStr ∉ refs u) ∧
  (∀ u ∈ tables a, u.name.diffStr ≠ t.name.diffStr → t.name.diffStr ∉ refs u)

instance (b a : List SStmt) (t : CreateTable) : Decidable (noRecreateHazard b a t) := by unfold noRecreateHazard; infer_instance

/-- The hazards of columns of indexes, with bounded quantifiers. -/
def noIndexHazard (b a : List SStmt) (t t' : CreateTable) : Prop :=
  (∀ c ∈ t.columns, ¬ HasColumn t' c.name.name → ∀ i ∈ indexes b, HasIndex a i.name.diffStr → i.tableName.diffStr = t.name.diffStr →
    c.name.name ∉ i.columns.map (·.ident.name)) ∧
  (∀ i ∈ indexes a, ¬ HasIndex b i.name.diffStr → i.tableName.diffStr = t.name.diffStr → ∀ x ∈ i.columns, HasColumn t x.ident.name)

instance (b a : List SStmt) (t t' : CreateTable) : Decidable (noIndexHazard b a t t') := by unfold noIndexHazard; infer_instance

/-- The hazards of a table that stays, with bounded quantifiers. -/
def noStayHazard (b a : List SStmt) (t t' : CreateTable) : Prop :=
  NoHazard t t' ∧ ((tableOf t).options ≠ (tableOf t').options → noRecreateHazard b a t) ∧ noIndexHazard b a t t'

instance (b a : List SStmt) (t t' : CreateTable) : Decidable (noStayHazard b a t t') := by unfold noStayHazard; infer_instance

/-- `NoSchemaHazard` with bounded quantifiers. -/
def noSchemaHazard (b a : List SStmt) : Prop :=
  (∀ t ∈ tables b, ¬ HasTable a t.name.diffStr → (∀ i ∈ indexes b, i.tableName.diffStr ≠ t.name.diffStr) ∧
    ∀ u ∈ tables b, u.name.diffStr ≠ t.name.diffStr → t.name.diffStr ∉ refs u) ∧
  (∀ t ∈ tables b, ∀ t' ∈ tables a, t.name.diffStr = t'.name.diffStr → noStayHazard b a t t') ∧
  (∀ i ∈ indexes b, ∀ i' ∈ indexes a, i.name.diffStr = i'.name.diffStr → i.tableName.diffStr = i'.tableName.diffStr)

instance (b a : List SStmt) : Decidable (noSchemaHazard b a) := by unfold noSchemaHazard; infer_instance

theorem noSchemaHazard_of {b a : List SStmt} (h : noSchemaHazard b a) : NoSchemaHazard b a := by
  obtain ⟨h1, h2, h3⟩ := h
  have hs : ∀ {t t' : CreateTable}, Stays b a t t' → noStayHazard b a t t' := fun {t t'} (hst : Stays b a t t') =>
    h2 t (mem_tables.2 hst.1) t' (mem_tables.2 hst.2.1) hst.2.2
  refine
    { table := fun t t' hst => (hs hst).1
      droppedTableIndex := fun t i ht hn hi => (h1 t (mem_tables.2 ht) hn).1 i (mem_indexes.2 hi)
      droppedTableReferred := fun t u ht hn hu hne hr => (h1 t (mem_tables.2 ht) hn).2 u (mem_tables.2 hu) hne (mem_refs hr)
      recreatedIndex := fun t t' i hst hne hi => ?_
      recreatedReferred := fun t t' u hst hne hu hun hr => ?_
      droppedColumnIndex := ?_
      newIndexColumn := fun t t' i x hst hi hn hit hx => (hs hst).2.2.2 i (mem_indexes.2 hi) hn hit x hx
      keptIndex := fun i i' hi hi' => h3 i (mem_indexes.2 hi) i' (mem_indexes.2 hi') }
  · rcases hi with ⟨hi, hia⟩ | hi
    · exact ((hs hst).2.1 hne).1 i (mem_indexes.2 hi) hia
    · exact ((hs hst).2.1 hne).2.1 i (mem_indexes.2 hi)
  · rcases hu with ⟨hu, hua⟩ | hu
    · exact ((hs hst).2.1 hne).2.2.1 u (mem_tables.2 hu) hua hun (mem_refs hr)
    · exact ((hs hst).2.1 hne).2.2.2 u (mem_tables.2 hu) hun (mem_refs hr)
  · rintro t t' _ i hst ⟨c, hc, rfl⟩ hno hi hia hit
    exact (hs hst).2.2.1 c hc hno i (mem_indexes.2 hi) hia hit

/-- `OkAfter` with bounded quantifiers. -/
def okAfter (p : List SStmt) : SStmt → Prop
  | .createTable t => DistinctNames t ∧ (∀ c ∈ t.constraints, ∀ k ∈ c.columnNames, ∃ x ∈ t.columns, x.name.name = k) ∧
      ∀ r ∈ refs t, r = t.name.diffStr ∨ HasTable p r
  | .createIndex i => ∃ t ∈ tables p, t.name.diffStr = i.tableName.diffStr ∧ ∀ x ∈ i.columns, HasColumn t x.ident.name
  | _ => False

instance (p : List SStmt) (s : SStmt) : Decidable (okAfter p s) := by
  cases s <;> unfold okAfter <;> infer_instance

theorem okAfter_of {p : List SStmt} {s : SStmt} (h : okAfter p s) : OkAfter p s := by
  cases s with
  | createTable t => exact ⟨h.1, h.2.1, fun r hr => h.2.2 r (mem_refs hr)⟩
  | createIndex i =>
    obtain ⟨t, ht, h⟩ := h
    exact ⟨t, mem_tables.1 ht, h⟩
  | alterTable => exact h.elim
  | dropTable => exact h.elim
  | dropIndex => exact h.elim

/-- The statements can be executed, with bounded quantifiers. -/
def loadable (l : List SStmt) : Prop :=
  DistinctObjects (ops fun _ _ => []) l ∧ ∀ j ∈ List.range l.length, ∀ s ∈ l[j]?.toList, okAfter (l.take j) s

instance (l : List SStmt) : Decidable (loadable l) := by unfold loadable; infer_instance

theorem runs_st {p q : List SStmt} (hd : DistinctObjects (ops sd) (p ++ q)) (h : ∀ q₁ s q₂, q = q₁ ++ s :: q₂ → OkAfter (p ++ q₁) s) :
    Runs Exec (st p) q (st (p ++ q)) := by
  induction q generalizing p with
  | nil => rw [List.append_nil]; exact .nil _
  | cons s q ih =>
    have e : p ++ s :: q = p ++ [s] ++ q := by simp
    refine .cons (exec_create (sd := sd) (X := p) (s := s) ?_ ?_) ?_
    · refine distinct_sublist ?_ hd
      rw [e]
      exact List.sublist_append_left _ _
    · simpa using h [] s q rfl
    · rw [e]
      refine ih (by rw [← e]; exact hd) fun q₁ s' q₂ hq => ?_
      have := h (s :: q₁) s' q₂ (by rw [hq]; rfl)
      simpa using this

theorem loads {l : List SStmt} (h : loadable l) : Runs Exec Db.empty l (st l) := by
  rw [← st_nil]
  refine runs_st (p := []) h.1 ?_
  rintro p s q rfl
  have := h.2 p.length (by simp) s (by simp)
  rw [List.take_left] at this
  exact okAfter_of this

/-! ## Statements that fail -/

section
variable {l : List SStmt} {D : Db} (hl : loadable l)
include hl

theorem st_tab {t : CreateTable} (ht : .createTable t ∈ l) : (st l).tables t.name.diffStr = some (tableOf t) := tables_of_mem hl.1 ht

theorem st_idx {i : CreateIndex} (hi : .createIndex i ∈ l) : (st l).indexes i.name.diffStr = some (indexOf i) := by
  simp only [st, (idx_iff hl.1).2 ⟨hi, rfl⟩, Option.map_some]

theorem not_dropTable_index {t : CreateTable} {i : CreateIndex} (ht : .createTable t ∈ l) (hi : .createIndex i ∈ l)
    (e : i.tableName.diffStr = t.name.diffStr) {cm : Str} {ie : Bool} {r : List SStmt} : ¬ Runs Exec (st l) (.dropTable cm ie t.name :: r) D := by
  have h1 := st_tab hl ht
  have h2 := st_idx hl hi
  generalize st l = x at h1 h2 ⊢
  rintro (_ | ⟨h, _⟩)
  cases h with
  | dropTable _ _ _ _ h3 => exact h3 _ _ h2 e
  | dropTableMissing _ _ h3 => rw [h1] at h3; cases h3

theorem not_dropTable_refers {t u : CreateTable} (ht : .createTable t ∈ l) (hu : .createTable u ∈ l) (hne : u.name.diffStr ≠ t.name.diffStr)
    (hr : (tableOf u).Refers t.name.diffStr) {cm : Str} {ie : Bool} {r : List SStmt} : ¬ Runs Exec (st l) (.dropTable cm ie t.name :: r) D := by
  have h1 := st_tab hl ht
  have h2 := st_tab hl hu
  generalize st l = x at h1 h2 ⊢
  rintro (_ | ⟨h, _⟩)
  cases h with
  | dropTable _ _ _ _ _ h3 => exact h3 _ _ hne h2 hr
  | dropTableMissing _ _ h3 => rw [h1] at h3; cases h3

theorem not_dropColumn_index {i : CreateIndex} (hi : .createIndex i ∈ l) {n : ObjectName} {k : Ident} (e : i.tableName.diffStr = n.diffStr)
    (hk : k.name ∈ i.columns.map (·.ident.name)) {cm : Str} {r : List SStmt} :
    ¬ Runs Exec (st l) (.alterTable ⟨cm, n, .dropColumn k⟩ :: r) D := by
  have h2 := st_idx hl hi
  generalize st l = x at h2 ⊢
  rintro (_ | ⟨h, _⟩)
  cases h with
  | alterTable _ _ _ _ _ _ h3 => exact h3 _ _ h2 (indexOf_on.2 ⟨e, hk⟩)

theorem not_dropColumn_con {t : CreateTable} (ht : .createTable t ∈ l) {n : ObjectName} (e : n.diffStr = t.name.diffStr) {k : Ident} {j : Str} {c : Con}
    (hc : (tableOf t).cons j = some c) (hk : k.name ∈ c.definition.mentions) {cm : Str} {r : List SStmt} :
    ¬ Runs Exec (st l) (.alterTable ⟨cm, n, .dropColumn k⟩ :: r) D := by
  have h1 := st_tab hl ht
  generalize st l = x at h1 ⊢
  rintro (_ | ⟨h, _⟩)
  cases h with
  | alterTable _ _ _ T _ h2 _ h3 =>
    rw [e, h1] at h2
    cases h2
    cases h3 with
    | dropColumn _ _ h4 => exact h4 _ _ hc hk

theorem not_createIndex {t : CreateTable} {i : CreateIndex} (ht : .createTable t ∈ l) (e : i.tableName.diffStr = t.name.diffStr)
    {x : ColumnIdent} (hx : x ∈ i.columns) (hno : ¬ HasColumn t x.ident.name) (hie : i.ifNotExists = false) {r : List SStmt} :
    ¬ Runs Exec (st l) (.createIndex i :: r) D := by
  have h1 := st_tab hl ht
  generalize st l = y at h1 ⊢
  rintro (_ | ⟨h, _⟩)
  cases h with
  | createIndex _ T _ h2 h3 =>
    rw [e, h1] at h2
    cases h2
    exact hno (tableOf_cols.1 (h3 x hx))
  | createIndexExists _ _ h2 => rw [hie] at h2; cases h2

theorem not_dropIndex_createIndex {t : CreateTable} {i j : CreateIndex} (hi : .createIndex i ∈ l) (ht : .createTable t ∈ l)
    (e : j.tableName.diffStr = t.name.diffStr) {x : ColumnIdent} (hx : x ∈ j.columns) (hno : ¬ HasColumn t x.ident.name)
    (hie : j.ifNotExists = false) {cm : Str} {r : List SStmt} : ¬ Runs Exec (st l) (.dropIndex cm false i.name :: .createIndex j :: r) D := by
  have h1 := st_tab hl ht
  have h0 := st_idx hl hi
  generalize st l = y at h0 h1 ⊢
  rintro (_ | ⟨h, (_ | ⟨h', _⟩)⟩)
  cases h with
  | dropIndex _ _ _ _ =>
    cases h' with
    | createIndex _ T _ h2 h3 =>
      simp only [e, h1] at h2
      cases h2
      exact hno (tableOf_cols.1 (h3 x hx))
    | createIndexExists _ _ h2 => rw [hie] at h2; cases h2
end

theorem stuck_of {b a l : List SStmt} (lb : loadable b) (la : loadable a) (hd : diff (ops sd) (some b) (some a) = .ok l)
    (hn : loadable b → ∀ D, ¬ Runs Exec (st b) l D) :
    ∃ B A l, Runs Exec Db.empty b B ∧ Runs Exec Db.empty a A ∧ diff (ops sd) (some b) (some a) = .ok l ∧ ∀ D, ¬ Runs Exec B l D :=
  ⟨_, _, l, loads lb, loads la, hd, hn lb⟩

end Ddl.Sp.Run
