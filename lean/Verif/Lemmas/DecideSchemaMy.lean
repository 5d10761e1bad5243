import Verif.Lemmas.SchemaMy
import Verif.Lemmas.MyTable
import Verif.Lemmas.DecideRun
import Verif.Lemmas.DecideVariants

/-! # Deciding the hypotheses of C53, and migrations that do not work -/

namespace Ddl.My.Run
open Ddl Spec Phases
set_option autoImplicit false

variable {sd : Str → Str → Str}

/-! ## Schemas that are read from a text -/

theorem again_of_readFrom {s : Str} {l : List MStmt} (h : ReadFrom s l) : ∀ x ∈ l, Again x := by
  obtain ⟨⟨ts, hw, hi⟩, h0, hl, hr, hx⟩ := h
  have hok := My.parse_post (by rw [lex_of_writes hw]; exact lx_of_writes hw h0 hi) hl
  have hnd := My.parseTokens_sat (heads := []) (dt := fun _ => false) (pan := True) (ts := lex .mysql s) ⟨fun _ => trivial, fun _ _ _ _ => trivial⟩
  rw [show parseTokens My.parseCreate (lex .mysql s) = .ok l from hl] at hnd
  intro x hm
  have := hok x hm
  cases x with
  | createTable t => exact ⟨this, hr t hm, hnd _ hm t rfl⟩
  | createIndex i => exact ⟨this, hx i hm⟩
  | alterTable a => exact this
  | dropTable => exact this
  | dropIndex => exact this

theorem createOnly_of_again {l : List MStmt} (h : ∀ x ∈ l, Again x) : CreateOnly (ops sd) l := by
  intro x hx
  have := h x hx
  cases x with
  | createTable t => rfl
  | createIndex i => rfl
  | alterTable a => exact this.elim
  | dropTable => exact this.elim
  | dropIndex => exact this.elim

theorem ddlStr_inj {b a : List MStmt} (hb : ∀ x ∈ b, Again x) (ha : ∀ x ∈ a, Again x) (e : ddlStr (ops sd) b = ddlStr (ops sd) a) : b = a := by
  have h1 := parse_again (sd := sd) hb
  have h2 := parse_again (sd := sd) ha
  rw [e, h2] at h1
  cases h1
  rfl

theorem told_of_again {b a : List MStmt} (hb : ∀ x ∈ b, Again x) (ha : ∀ x ∈ a, Again x) : Told (ops sd) b a := by
  refine ⟨fun t t' ht ht' e => ?_, ddlStr_inj hb ha⟩
  have := ddlStr_inj (sd := sd) (b := [.createTable t]) (a := [.createTable t']) (by simpa using hb _ ht) (by simpa using ha _ ht') (by
    simp [ddlStr, stmtStr, ops, show t.str = t'.str from e])
  cases this
  rfl

/-! ## Bounded checks -/

/-- The tables of a schema. -/
def tables (l : List MStmt) : List CreateTable := l.filterMap fun | .createTable t => some t | _ => none

/-- The indexes of a schema. -/
def indexes (l : List MStmt) : List CreateIndex := l.filterMap fun | .createIndex i => some i | _ => none

theorem mem_tables {l : List MStmt} {t : CreateTable} : t ∈ tables l ↔ .createTable t ∈ l := by
  unfold tables
  rw [List.mem_filterMap]
  constructor
  · rintro ⟨s, hs, h⟩
    cases s <;> simp only [Option.some.injEq, reduceCtorEq] at h
    exact h ▸ hs
  · exact fun h => ⟨_, h, rfl⟩

theorem mem_indexes {l : List MStmt} {t : CreateIndex} : t ∈ indexes l ↔ .createIndex t ∈ l := by
  unfold indexes
  rw [List.mem_filterMap]
  constructor
  · rintro ⟨s, hs, h⟩
    cases s <;> simp only [Option.some.injEq, reduceCtorEq] at h
    exact h ▸ hs
  · exact fun h => ⟨_, h, rfl⟩

instance (t : CreateTable) (k : Str) : Decidable (HasColumn t k) := inferInstanceAs (Decidable (∃ c ∈ t.columns, c.name.name = k))
instance (l : List MStmt) (n : Str) : Decidable (HasTable l n) :=
  decidable_of_iff (∃ t ∈ tables l, t.name.diffStr = n) (exists_congr fun _ => and_congr_left' mem_tables)
instance (l : List MStmt) (n : Str) : Decidable (HasIndex l n) :=
  decidable_of_iff (∃ t ∈ indexes l, t.name.diffStr = n) (exists_congr fun _ => and_congr_left' mem_indexes)
instance (l : List MStmt) : Decidable (TameSchema l) :=
  decidable_of_iff (∀ t ∈ tables l, (∀ c ∈ t.columns, c.Tame) ∧ (∀ c ∈ t.constraints, c.Tame) ∧ ∀ o ∈ t.options, WordsOnly o.value)
    ⟨fun h t ht => h t (mem_tables.2 ht), fun h t ht => h t (mem_tables.1 ht)⟩
instance (l : List MStmt) : Decidable (CreateOnly (ops sd) l) := by unfold CreateOnly; infer_instance

instance (l : List ColumnIdent) : Decidable (NoAsc l) := by unfold NoAsc; infer_instance
instance (d : Option Default) (q : Prop) [Decidable q] : Decidable (∀ x, d = some x → x.value ≠ none ∧ q) :=
  match d with
  | none => .isTrue (by simp)
  | some x => decidable_of_iff (x.value ≠ none ∧ q) (by simp)
instance (c : Column) : Decidable c.Rereadable := by unfold Column.Rereadable; infer_instance
instance (c : Constraint) : Decidable c.Rereadable := by
  cases c <;> (unfold Constraint.Rereadable; infer_instance)
instance (t : CreateTable) : Decidable t.Rereadable := by unfold CreateTable.Rereadable; infer_instance
instance (i : CreateIndex) : Decidable i.Rereadable := by unfold CreateIndex.Rereadable; infer_instance

instance (b a : List MStmt) : Decidable (SameSchemas (ops sd) b a) :=
  decidable_of_iff (∀ t ∈ tables b, ∀ t' ∈ tables a, t.name.diffStr = t'.name.diffStr →
    t.name.schema.map Ident.name = t'.name.schema.map Ident.name)
    ⟨fun h t t' ht ht' => h t (mem_tables.2 ht) t' (mem_tables.2 ht'), fun h t ht t' ht' => h t t' (mem_tables.1 ht) (mem_tables.1 ht')⟩

instance (b a : List MStmt) : Decidable (Told (ops sd) b a) :=
  decidable_of_iff ((∀ t ∈ tables b, ∀ t' ∈ tables a, t.str = t'.str → t = t') ∧ (ddlStr (ops sd) b = ddlStr (ops sd) a → b = a))
    (and_congr_left' ⟨fun h t t' ht ht' => h t (mem_tables.2 ht) t' (mem_tables.2 ht'),
      fun h t ht t' ht' => h t t' (mem_tables.1 ht) (mem_tables.1 ht')⟩)

/-- The hazards of a table that stays, with bounded quantifiers. -/
def noStayHazard (b a : List MStmt) (t t' : CreateTable) : Prop :=
  (∀ c ∈ t.constraints, c.IsIndex → ∃ c' ∈ t'.constraints, c'.bare = c.bare) ∧
  (∀ c ∈ t'.constraints, c.IsIndex → (∀ x ∈ t.constraints, x.name.name ≠ c.name.name) → t'.name.schema = none) ∧
  (∀ i ∈ indexes a, ¬ HasIndex b i.name.diffStr → i.tableName.diffStr = t.name.diffStr → ∀ x ∈ i.columns, HasColumn t x.ident.name)

instance (b a : List MStmt) (t t' : CreateTable) : Decidable (noStayHazard b a t t') := by unfold noStayHazard; infer_instance

/-- The hazards of a table that is dropped, with bounded quantifiers. -/
def noDropHazard (b : List MStmt) (t : CreateTable) : Prop :=
  ∀ u ∈ tables b, u.name.diffStr ≠ t.name.diffStr → ∀ c ∈ u.constraints, c.target ≠ some t.name.diffStr

instance (b : List MStmt) (t : CreateTable) : Decidable (noDropHazard b t) := by unfold noDropHazard; infer_instance

/-- The hazards of names, with bounded quantifiers. -/
def noNameHazard (l : List MStmt) : Prop :=
  ∀ t ∈ tables l, ∀ i ∈ indexes l, i.tableName.diffStr = t.name.diffStr → ∀ c ∈ t.constraints, c.name.name ≠ i.name.diffStr

instance (l : List MStmt) : Decidable (noNameHazard l) := by unfold noNameHazard; infer_instance

/-- The hazards of indexes, with bounded quantifiers. -/
def noIndexHazard (b a : List MStmt) : Prop :=
  ∀ i ∈ indexes b, ∃ i' ∈ indexes a, i'.name.diffStr = i.name.diffStr ∧ i'.tableName.diffStr = i.tableName.diffStr ∧ indexOf i' = indexOf i

instance (b a : List MStmt) : Decidable (noIndexHazard b a) := by unfold noIndexHazard; infer_instance

/-- `NoSchemaHazard` with bounded quantifiers. -/
def noSchemaHazard (b a : List MStmt) : Prop :=
  (∀ t ∈ tables b, ¬ HasTable a t.name.diffStr → noDropHazard b t) ∧
  (∀ t ∈ tables b, ∀ t' ∈ tables a, t.name.diffStr = t'.name.diffStr → NoHazard t t' ∧ noStayHazard b a t t') ∧ noNameHazard (b ++ a) ∧
  noIndexHazard b a

instance (b a : List MStmt) : Decidable (noSchemaHazard b a) := by unfold noSchemaHazard; infer_instance

theorem noSchemaHazard_of {b a : List MStmt} (h : noSchemaHazard b a) : NoSchemaHazard b a := by
  obtain ⟨h1, h2, h3, h4⟩ := h
  have hs : ∀ {t t' : CreateTable}, Stays b a t t' → NoHazard t t' ∧ noStayHazard b a t t' := fun {t t'} (hst : Stays b a t t') =>
    h2 t (mem_tables.2 hst.1) t' (mem_tables.2 hst.2.1) hst.2.2
  exact
    { table := fun t t' hst => (hs hst).1
      keptIndex := fun i hi => by
        obtain ⟨i', hi', h⟩ := h4 i (mem_indexes.2 hi)
        exact ⟨i', mem_indexes.1 hi', h⟩
      keptInline := fun t t' c hst => (hs hst).2.1 c
      newInline := fun t t' c hst => (hs hst).2.2.1 c
      droppedTableReferred := fun t u ht hn hu => h1 t (mem_tables.2 ht) hn u (mem_tables.2 hu)
      newIndexColumn := fun t t' i x hst hi hn hit hx => (hs hst).2.2.2 i (mem_indexes.2 hi) hn hit x hx
      separate := fun t i ht hi => h3 t (mem_tables.2 ht) i (mem_indexes.2 hi) }

/-- `OkAfter` with bounded quantifiers. -/
def okAfter (p : List MStmt) : MStmt → Prop
  | .createTable t => DistinctNames t ∧ (∀ c ∈ t.constraints, ∀ k ∈ c.columnNames, ∃ x ∈ t.columns, x.name.name = k) ∧
      ∀ c ∈ t.constraints, ∀ r ∈ c.target.toList, r = t.name.diffStr ∨ HasTable p r
  | .createIndex i => (i.name.schema = none ∧ i.ifNotExists = false) ∧ ∃ t ∈ tables p, t.name.diffStr = i.tableName.diffStr ∧ ∀ x ∈ i.columns, HasColumn t x.ident.name
  | _ => False

instance (p : List MStmt) (s : MStmt) : Decidable (okAfter p s) := by
  cases s <;> unfold okAfter <;> infer_instance

theorem okAfter_of {p : List MStmt} {s : MStmt} (h : okAfter p s) : OkAfter p s := by
  cases s with
  | createTable t => exact ⟨h.1, h.2.1, fun c hc r hr => h.2.2 c hc r (by simp [hr])⟩
  | createIndex i =>
    obtain ⟨h', t, ht, h⟩ := h
    exact ⟨h', t, mem_tables.1 ht, h⟩
  | alterTable => exact h.elim
  | dropTable => exact h.elim
  | dropIndex => exact h.elim

/-- The statements can be executed, with bounded quantifiers. -/
def loadable (l : List MStmt) : Prop :=
  DistinctObjects (ops fun _ _ => []) l ∧
  (∀ t ∈ tables l, ∀ i ∈ indexes l, i.tableName.diffStr = t.name.diffStr → ∀ c ∈ t.constraints, c.name.name ≠ i.name.diffStr) ∧
  ∀ j ∈ List.range l.length, ∀ s ∈ l[j]?.toList, okAfter (l.take j) s

instance (l : List MStmt) : Decidable (loadable l) := by unfold loadable; infer_instance

theorem runs_st {p q : List MStmt} (hd : DistinctObjects (ops sd) (p ++ q)) (hsep : Separate (p ++ q)) (hns : NoStray p)
    (h : ∀ q₁ s q₂, q = q₁ ++ s :: q₂ → OkAfter (p ++ q₁) s) : Runs Exec (st p) q (st (p ++ q)) := by
  induction q generalizing p with
  | nil => rw [List.append_nil]; exact .nil _
  | cons s q ih =>
    have e : p ++ s :: q = p ++ [s] ++ q := by simp
    have ok : OkAfter p s := by simpa using h [] s q rfl
    have hd1 : DistinctObjects (ops sd) (p ++ [s]) := by
      refine distinct_sublist ?_ hd
      rw [e]
      exact List.sublist_append_left _ _
    have hsep1 : Separate (p ++ [s]) := hsep.mono fun u hu => by rw [e]; exact List.mem_append_left _ hu
    refine .cons (exec_create hd1 ok hsep1 (noStray_table hd1 hns)) ?_
    rw [e]
    refine ih (by rw [← e]; exact hd) (by rw [← e]; exact hsep) (noStray_snoc hns ok) fun q₁ s' q₂ hq => ?_
    have := h (s :: q₁) s' q₂ (by rw [hq]; rfl)
    simpa using this

theorem loads {l : List MStmt} (h : loadable l) : Runs Exec Db.empty l (st l) := by
  rw [← st_nil]
  refine runs_st (p := []) h.1 (fun t i ht hi => h.2.1 t (mem_tables.2 ht) i (mem_indexes.2 hi)) (fun i hi => by cases hi) ?_
  rintro p s q rfl
  have := h.2.2 p.length (by simp) s (by simp)
  rw [List.take_left] at this
  exact okAfter_of this

/-! ## Statements that fail -/

section
variable {l : List MStmt} {D : Db} (hl : loadable l)
include hl

theorem st_tab {t : CreateTable} (ht : .createTable t ∈ l) : st l t.name.diffStr = some (ext (tableOf t) (ixs l t.name.diffStr)) :=
  st_of_mem hl.1 ht

theorem not_dropTable_refers {t u : CreateTable} (ht : .createTable t ∈ l) (hu : .createTable u ∈ l) (hne : u.name.diffStr ≠ t.name.diffStr)
    {k : Str} {c : Con} (hc : (tableOf u).cons k = some c) (hr : c.definition.target = some t.name.diffStr) {cm : Str} {ie : Bool}
    {r : List MStmt} : ¬ Runs Exec (st l) (.dropTable cm ie t.name :: r) D := by
  have h1 := st_tab hl ht
  have h2 := st_tab hl hu
  generalize st l = x at h1 h2 ⊢
  rintro (_ | ⟨h, _⟩)
  cases h with
  | dropTable _ _ _ _ h3 => exact h3 _ _ hne h2 ⟨k, c, by simp [ext, hc], hr⟩
  | dropTableMissing _ _ h3 => rw [h1] at h3; cases h3

theorem not_createIndex {t : CreateTable} {i : CreateIndex} (ht : .createTable t ∈ l) (e : i.tableName.diffStr = t.name.diffStr)
    {x : ColumnIdent} (hx : x ∈ i.columns) (hno : ¬ HasColumn t x.ident.name) {r : List MStmt} :
    ¬ Runs Exec (st l) (.createIndex i :: r) D := by
  have h1 := st_tab hl ht
  generalize st l = y at h1 ⊢
  rintro (_ | ⟨h, _⟩)
  cases h with
  | createIndex _ T _ _ h2 _ h3 =>
    rw [e, h1] at h2
    cases h2
    exact hno (tableOf_cols.1 (h3 x hx))

theorem not_createIndex_taken {t : CreateTable} {i : CreateIndex} (ht : .createTable t ∈ l) (e : i.tableName.diffStr = t.name.diffStr)
    {c : Con} (hc : (tableOf t).cons i.name.name.name = some c) {r : List MStmt} : ¬ Runs Exec (st l) (.createIndex i :: r) D := by
  have h1 := st_tab hl ht
  generalize st l = y at h1 ⊢
  rintro (_ | ⟨h, _⟩)
  cases h with
  | createIndex _ T _ _ h2 h3 =>
    rw [e, h1] at h2
    cases h2
    simp [ext, hc] at h3
end

/-- A statement that is understood: no `DROP INDEX`, and no index with a schema. -/
def Understood : MStmt → Bool
  | .dropIndex .. => false
  | .createIndex i => i.name.schema.isNone
  | _ => true

theorem not_understood {l : List MStmt} {d D : Db} (h : l.all Understood = false) : ¬ Runs Exec d l D := by
  intro hr
  induction hr with
  | nil => cases h
  | cons h1 _ ih =>
    rw [List.all_cons, Bool.and_eq_false_iff] at h
    rcases h with h | h
    · cases h1 with
      | createIndex i T h0 => simp [Understood, h0] at h
      | _ => simp [Understood] at h
    · exact ih h

theorem stuck_of {b a l : List MStmt} (lb : loadable b) (la : loadable a) (hd : diff (ops sd) (some b) (some a) = .ok l)
    (hn : loadable b → ∀ D, ¬ Runs Exec (st b) l D) :
    ∃ B A l, Runs Exec Db.empty b B ∧ Runs Exec Db.empty a A ∧ diff (ops sd) (some b) (some a) = .ok l ∧ ∀ D, ¬ Runs Exec B l D :=
  ⟨_, _, l, loads lb, loads la, hd, hn lb⟩

end Ddl.My.Run
