import Verif.Lemmas.DbDiff
import Verif.Lemmas.DecideTame

/-! # Deciding the hypotheses of C03 -/

namespace Ddl.Pg.Db
open Ddl Spec
set_option autoImplicit false

/-- The tables of a schema. -/
def tables (l : List PStmt) : List CreateTable := l.filterMap fun | .createTable t => some t | _ => none

/-- The indexes of a schema. -/
def indexes (l : List PStmt) : List CreateIndex := l.filterMap fun | .createIndex i => some i | _ => none

theorem mem_tables {l : List PStmt} {t : CreateTable} : t ∈ tables l ↔ .createTable t ∈ l := by
  unfold tables
  rw [List.mem_filterMap]
  constructor
  · rintro ⟨s, hs, h⟩
    cases s <;> simp only [Option.some.injEq, reduceCtorEq] at h
    exact h ▸ hs
  · exact fun h => ⟨_, h, rfl⟩

theorem mem_indexes {l : List PStmt} {t : CreateIndex} : t ∈ indexes l ↔ .createIndex t ∈ l := by
  unfold indexes
  rw [List.mem_filterMap]
  constructor
  · rintro ⟨s, hs, h⟩
    cases s <;> simp only [Option.some.injEq, reduceCtorEq] at h
    exact h ▸ hs
  · exact fun h => ⟨_, h, rfl⟩

instance (t : CreateTable) (k : Str) : Decidable (HasColumn t k) := inferInstanceAs (Decidable (∃ c ∈ t.columns, c.name.name = k))
instance (t : CreateTable) (k : Str) : Decidable (HasConstraint t k) := inferInstanceAs (Decidable (∃ c ∈ t.constraints, c.name.name = k))
instance (l : List PStmt) (n : Str) : Decidable (HasTable l n) :=
  decidable_of_iff (∃ t ∈ tables l, t.name.diffStr = n) (exists_congr fun _ => and_congr_left' mem_tables)
instance (l : List PStmt) (n : Str) : Decidable (HasIndex l n) :=
  decidable_of_iff (∃ t ∈ indexes l, t.name.name = n) (exists_congr fun _ => and_congr_left' mem_indexes)
instance (i i' : CreateIndex) : Decidable (SameIndex i i') := inferInstanceAs (Decidable (i.bare = i'.bare))

theorem precedes_iff {l : List PStmt} {n m : Str} : (∃ j ∈ List.range (l.length + 1), HasTable (l.take j) n ∧ ¬ HasTable (l.take j) m) ↔ Precedes l n m := by
  constructor
  · rintro ⟨j, _, h⟩
    exact ⟨l.take j, l.drop j, (List.take_append_drop j l).symm, h⟩
  · rintro ⟨p, q, rfl, h⟩
    refine ⟨p.length, ?_, ?_⟩
    · simp
      omega
    · simpa using h

instance (l : List PStmt) (n m : Str) : Decidable (Precedes l n m) := decidable_of_iff _ precedes_iff

/-- The references to a dropped column, with bounded quantifiers. -/
def noReferred (b a : List PStmt) (t t' : CreateTable) (k : Str) : Prop :=
  ∀ u ∈ tables b, HasTable a u.name.diffStr → ∀ c ∈ u.constraints, ∀ x ∈ c.target.toList, x.1 = t.name.diffStr → k ∈ x.2 →
    u.name.diffStr = t.name.diffStr ∧ ¬ HasConstraint t' c.name.name

instance (b a : List PStmt) (t t' : CreateTable) (k : Str) : Decidable (noReferred b a t t' k) := by unfold noReferred; infer_instance

/-- The hazards of dropped columns, with bounded quantifiers. -/
def noDropHazard (b a : List PStmt) (t t' : CreateTable) : Prop :=
  ∀ k ∈ t.columns, ¬ HasColumn t' k.name.name →
    (∀ c ∈ t.constraints, HasConstraint t' c.name.name → k.name.name ∉ c.mentions) ∧
    (∀ i ∈ indexes b, HasIndex a i.name.name → i.tableName.diffStr = t.name.diffStr → k.name.name ∉ i.columns.map (·.name)) ∧
    noReferred b a t t' k.name.name

/-- The hazards of new columns, with bounded quantifiers. -/
def noAddHazard (b a : List PStmt) (t : CreateTable) : Prop :=
  (∀ i ∈ indexes a, ¬ HasIndex b i.name.name → i.tableName.diffStr = t.name.diffStr → ∀ k ∈ i.columns, HasColumn t k.name) ∧
  (∀ u ∈ tables a, u.name.diffStr ≠ t.name.diffStr → ∀ c ∈ u.constraints, ∀ x ∈ c.target.toList, x.1 = t.name.diffStr → ∀ k ∈ x.2,
    HasColumn t k ∨ (HasTable b u.name.diffStr ∧ Precedes b t.name.diffStr u.name.diffStr))

/-- The hazards of primary keys, with bounded quantifiers. -/
def noKeyHazard (t t' : CreateTable) : Prop :=
  ∀ c ∈ t.columns, ∀ c' ∈ t'.columns, c.name.name = c'.name.name → c'.notNull = false →
    ∀ p ∈ t.constraints, c.name.name ∈ p.keyColumns →
      (c.notNull = true → ¬ HasConstraint t' p.name.name) ∧
      (c.notNull = false → ∃ p' ∈ t'.constraints, c.name.name ∈ p'.keyColumns)

instance (b a : List PStmt) (t t' : CreateTable) : Decidable (noDropHazard b a t t') := by unfold noDropHazard; infer_instance
instance (b a : List PStmt) (t : CreateTable) : Decidable (noAddHazard b a t) := by unfold noAddHazard; infer_instance
instance (t t' : CreateTable) : Decidable (noKeyHazard t t') := by unfold noKeyHazard; infer_instance

/-- `NoHazard` with bounded quantifiers. -/
def noHazard (b a : List PStmt) : Prop :=
  (∀ t ∈ tables b, ¬ HasTable a t.name.diffStr → ∀ i ∈ indexes b, i.tableName.diffStr ≠ t.name.diffStr) ∧
  (∀ t ∈ tables b, ¬ HasTable a t.name.diffStr → ∀ u ∈ tables b, u.name.diffStr ≠ t.name.diffStr → ∀ c ∈ u.constraints,
    ∀ x ∈ c.target.toList, x.1 ≠ t.name.diffStr) ∧
  (∀ t ∈ tables b, ∀ t' ∈ tables a, t.name.diffStr = t'.name.diffStr →
    noDropHazard b a t t' ∧ noAddHazard b a t ∧ noKeyHazard t t') ∧
  (∀ i ∈ indexes b, ∀ i' ∈ indexes a, i.name.name = i'.name.name →
    i.tableName.diffStr = i'.tableName.diffStr ∧ (SameIndexButMethod i i' → SameIndex i i'))

instance (b a : List PStmt) : Decidable (noHazard b a) := by unfold noHazard; infer_instance

theorem noHazard_of {b a : List PStmt} (h : noHazard b a) : NoHazard b a := by
  obtain ⟨h1, h2, h3, h4⟩ := h
  have hs : ∀ {t t' : CreateTable}, Stays b a t t' → _ := fun {t t'} (hst : Stays b a t t') =>
    h3 t (mem_tables.2 hst.1) t' (mem_tables.2 hst.2.1) hst.2.2
  refine
    { droppedTableIndex := fun t i ht hn hi => h1 t (mem_tables.2 ht) hn i (mem_indexes.2 hi)
      droppedTableReferred := fun t u c rcs ht hn hu hne hc e => h2 t (mem_tables.2 ht) hn u (mem_tables.2 hu) hne c hc _ (Option.mem_toList.2 e) rfl
      droppedColumnConstraint := ?_
      droppedColumnIndex := ?_
      droppedColumnReferred := ?_
      newIndexColumn := fun t t' i k hst hi hn hin hk => (hs hst).2.1.1 i (mem_indexes.2 hi) hn hin k hk
      referredColumn := fun t t' u c rcs k hst hu hne hc e hk => (hs hst).2.1.2 u (mem_tables.2 hu) hne c hc _ (Option.mem_toList.2 e) rfl k hk
      keptIndex := fun i i' hi hi' hn => h4 i (mem_indexes.2 hi) i' (mem_indexes.2 hi') hn
      lostNotNull := fun t t' c c' p hst hc hc' hn h1 h2 hp hp' hk => ((hs hst).2.2 c hc c' hc' hn h2 p hp hk).1 h1 hp'
      lostKey := fun t t' c c' p hst hc hc' hn h1 h2 hp hk => ((hs hst).2.2 c hc c' hc' hn h2 p hp hk).2 h1 }
  · rintro t t' _ c hst ⟨x, hx, rfl⟩ hno hc hcn
    exact ((hs hst).1 x hx hno).1 c hc hcn
  · rintro t t' _ i hst ⟨x, hx, rfl⟩ hno hi hin hit
    exact ((hs hst).1 x hx hno).2.1 i (mem_indexes.2 hi) hin hit
  · rintro t t' u _ c rcs hst ⟨x, hx, rfl⟩ hno hu hua hc e hk
    exact ((hs hst).1 x hx hno).2.2 u (mem_tables.2 hu) hua c hc _ (Option.mem_toList.2 e) rfl hk

/-- What a statement needs, with bounded quantifiers. -/
def okIn (p : List PStmt) : PStmt → Prop
  | .createTable t => DistinctNames t ∧ ∀ c ∈ t.constraints, (∀ k ∈ c.columnNames, HasColumn t k) ∧
      ∀ x ∈ c.target.toList, ∃ u ∈ t :: tables p, u.name.diffStr = x.1 ∧ ∀ k ∈ x.2, HasColumn u k
  | .createIndex i => ∃ u ∈ tables p, u.name.diffStr = i.tableName.diffStr ∧ ∀ k ∈ i.columns, HasColumn u k.name
  | _ => False

instance (p : List PStmt) (s : PStmt) : Decidable (okIn p s) := by
  cases s <;> unfold okIn <;> infer_instance

/-- `Loadable` with bounded quantifiers. -/
def loadable (l : List PStmt) : Prop := (l.filterMap obj).Nodup ∧ (∀ s ∈ l, (obj s).isSome) ∧ ∀ j ∈ List.range l.length, ∀ s ∈ l[j]?.toList, okIn (l.take j) s

instance (l : List PStmt) : Decidable (loadable l) := by unfold loadable; infer_instance

theorem loads {l : List PStmt} (h : loadable l) : ∃ D, Execs empty l D := by
  obtain ⟨h1, h2, h3⟩ := h
  refine loadable_execs h2 h1 ?_
  rintro p s q rfl
  have := h3 p.length (by simp) s (by simp)
  rw [List.take_left] at this
  cases s with
  | createTable t =>
    refine ⟨this.1, fun c hc => ⟨(this.2 c hc).1, fun r rcs e => ?_⟩⟩
    obtain ⟨u, hu, r⟩ := (this.2 c hc).2 _ (Option.mem_toList.2 e)
    refine ⟨u, ?_, r⟩
    rcases List.mem_cons.1 hu with rfl | hu
    · exact Or.inr rfl
    · exact Or.inl (mem_tables.1 hu)
  | createIndex i =>
    obtain ⟨u, hu, r⟩ := this
    exact ⟨u, mem_tables.1 hu, r⟩
  | _ => exact this.elim

theorem loads_holds {l : List PStmt} (h : loadable l) : ∃ D, Execs empty l D ∧ Holds (· ∈ l) D := by
  obtain ⟨D, hD⟩ := loads h
  exact ⟨D, hD, (load h.2.1 h.1 hD).2⟩

end Ddl.Pg.Db
