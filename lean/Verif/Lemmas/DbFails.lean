import Verif.Lemmas.DecideDb

/-! # Migrations that do not work -/

namespace Ddl.Pg.Db
open Ddl Spec
set_option autoImplicit false

variable {S : PStmt → Prop} {B D : Catalog} (h : Holds S B)
include h

theorem Holds.table {t : CreateTable} (ht : S (.createTable t)) : B.tables t.name.diffStr = some (tableOf t) := (h.tabs _ _).2 ⟨t, ht, rfl, rfl⟩

theorem Holds.index {i : CreateIndex} (hi : S (.createIndex i)) : B.indexes i.name.name = some i.bare := (h.idxs _ _).2 ⟨i, hi, rfl, rfl⟩

theorem not_dropTable_dropIndex {t : CreateTable} {i : CreateIndex} (ht : S (.createTable t)) (hi : S (.createIndex i))
    (e : i.tableName.diffStr = t.name.diffStr) {cm cm' : Str} {ie : Bool} {l : List PStmt} :
    ¬ Execs B (.dropTable cm ie t.name :: .dropIndex cm' false i.name :: l) D := by
  rintro (_ | ⟨h1, (_ | ⟨h2, _⟩)⟩)
  cases h1 with
  | dropTable =>
    cases h2 with
    | dropIndex _ _ _ h3 =>
      simp only [h.index hi] at h3
      rw [Option.isSome_iff_exists] at h3
      obtain ⟨j, hj⟩ := h3
      obtain ⟨hj, h5⟩ := Option.filter_eq_some_iff.1 hj
      cases hj
      simp [bare_tableName, e] at h5
  | dropTableMissing _ _ h3 => rw [h.table ht] at h3; cases h3

theorem not_dropTable {t u : CreateTable} (ht : S (.createTable t)) (hu : S (.createTable u)) (hd : DistinctNames u) (hne : u.name.diffStr ≠ t.name.diffStr)
    {c : Constraint} {rcs : List Str} (hc : c ∈ u.constraints) (e : c.target = some (t.name.diffStr, rcs)) {cm : Str} {ie : Bool} {l : List PStmt} :
    ¬ Execs B (.dropTable cm ie t.name :: l) D := by
  rintro (_ | ⟨h1, _⟩)
  cases h1 with
  | dropTable _ _ _ _ h3 => exact h3 _ _ _ _ rcs hne (h.table hu) (tableOf_con hd hc) (by rw [bare_target, e])
  | dropTableMissing _ _ h3 => rw [h.table ht] at h3; cases h3

/-- What dropping a column leaves. -/
theorem dropColumn_inv {t : CreateTable} (ht : S (.createTable t)) {tn : ObjectName} (hn : tn.diffStr = t.name.diffStr) {k : Ident} {cm : Str}
    (he : Exec B (.alterTable ⟨cm, tn, .dropColumn k⟩) D) :
    D = ⟨put B.tables t.name.diffStr (some ⟨put (tableOf t).cols k.name none, fun j => ((tableOf t).cons j).filter fun c => !c.definition.mentions.contains k.name⟩),
      fun j => (B.indexes j).filter fun i => !(i.tableName.diffStr == t.name.diffStr && (i.columns.map (·.name)).contains k.name)⟩ ∧
    ∀ m U j c rcs, B.tables m = some U → U.cons j = some c → c.definition.target = some (t.name.diffStr, rcs) → k.name ∉ rcs := by
  cases he with
  | alterTable _ _ _ T _ h1 h2 =>
    rw [hn, h.table ht] at h1
    cases h1
    cases h2 with
    | dropColumn _ h3 h4 => rw [hn] at h4 ⊢; exact ⟨rfl, h4⟩

theorem not_dropColumn_dropConstraint {t : CreateTable} (ht : S (.createTable t)) (hd : DistinctNames t) {tn : ObjectName}
    (hn : tn.diffStr = t.name.diffStr) {k : Ident} {c : Constraint} (hc : c ∈ t.constraints) (hk : k.name ∈ c.mentions) {cm cm' : Str}
    {l : List PStmt} : ¬ Execs B (.alterTable ⟨cm, tn, .dropColumn k⟩ :: .alterTable ⟨cm', tn, .dropConstraint c.name⟩ :: l) D := by
  rintro (_ | ⟨h1, (_ | ⟨h2, _⟩)⟩)
  obtain ⟨rfl, _⟩ := dropColumn_inv h ht hn h1
  cases h2 with
  | alterTable _ _ _ T _ h1 h2 =>
    rw [hn] at h1
    simp only [put_same] at h1
    cases h1
    cases h2 with
    | dropConstraint _ h3 =>
      simp only [tableOf_con hd hc] at h3
      rw [Option.isSome_iff_exists] at h3
      obtain ⟨j, hj⟩ := h3
      obtain ⟨hj, h5⟩ := Option.filter_eq_some_iff.1 hj
      cases hj
      simp [bare_mentions, hk] at h5

theorem not_dropColumn_dropIndex {t : CreateTable} (ht : S (.createTable t)) {tn : ObjectName}
    (hn : tn.diffStr = t.name.diffStr) {k : Ident} {i : CreateIndex} (hi : S (.createIndex i)) (e : i.tableName.diffStr = t.name.diffStr)
    (hk : k.name ∈ i.columns.map (·.name)) {cm cm' : Str} {l : List PStmt} :
    ¬ Execs B (.alterTable ⟨cm, tn, .dropColumn k⟩ :: .dropIndex cm' false i.name :: l) D := by
  rintro (_ | ⟨h1, (_ | ⟨h2, _⟩)⟩)
  obtain ⟨rfl, _⟩ := dropColumn_inv h ht hn h1
  cases h2 with
  | dropIndex _ _ _ h3 =>
    simp only [h.index hi] at h3
    rw [Option.isSome_iff_exists] at h3
    obtain ⟨j, hj⟩ := h3
    obtain ⟨hj, h5⟩ := Option.filter_eq_some_iff.1 hj
    cases hj
    rw [bare_columns] at h5
    simp only [bare_tableName, e, beq_self_eq_true, Bool.true_and, Bool.not_eq_true'] at h5
    rw [List.contains_iff_mem.2 hk] at h5
    cases h5

theorem not_dropColumn {t u : CreateTable} (ht : S (.createTable t)) {tn : ObjectName} (hn : tn.diffStr = t.name.diffStr) (hu : S (.createTable u))
    (hd : DistinctNames u) {k : Ident} {c : Constraint} {rcs : List Str} (hc : c ∈ u.constraints) (e : c.target = some (t.name.diffStr, rcs))
    (hk : k.name ∈ rcs) {cm : Str} {l : List PStmt} : ¬ Execs B (.alterTable ⟨cm, tn, .dropColumn k⟩ :: l) D := by
  rintro (_ | ⟨h1, _⟩)
  obtain ⟨_, h2⟩ := dropColumn_inv h ht hn h1
  exact h2 _ _ _ _ rcs (h.table hu) (tableOf_con hd hc) (by rw [bare_target, e]) hk

theorem not_createIndex {t : CreateTable} {i : CreateIndex} (ht : S (.createTable t)) (e : i.tableName.diffStr = t.name.diffStr)
    {k : Ident} (hk : k ∈ i.columns) (hno : ¬ HasColumn t k.name) (hie : i.ifNotExists = false) {l : List PStmt} :
    ¬ Execs B (.createIndex i :: l) D := by
  rintro (_ | ⟨h1, _⟩)
  cases h1 with
  | createIndex _ T _ h2 h3 =>
    rw [e, h.table ht] at h2
    cases h2
    exact hno (tableOf_cols.1 (h3 k hk))
  | createIndexExists _ _ h2 => rw [hie] at h2; cases h2

theorem not_createTable {t u : CreateTable} {c : Constraint} {rcs : List Str} (ht : S (.createTable t)) (hc : c ∈ u.constraints)
    (hne : t.name.diffStr ≠ u.name.diffStr) (e : c.target = some (t.name.diffStr, rcs)) {k : Str} (hk : k ∈ rcs) (hno : ¬ HasColumn t k)
    (hie : u.ifNotExists = false) {l : List PStmt} : ¬ Execs B (.createTable u :: l) D := by
  rintro (_ | ⟨h1, _⟩)
  cases h1 with
  | createTable _ _ _ h3 =>
    obtain ⟨R, hR, h4⟩ := (h3 c hc).2 _ _ e
    rw [put_ne _ _ hne, h.table ht] at hR
    cases hR
    exact hno (tableOf_cols.1 (h4 k hk))
  | createTableExists _ _ h2 => rw [hie] at h2; cases h2

theorem not_dropIndex_createIndex {t : CreateTable} {i j : CreateIndex} (hi : S (.createIndex i)) (ht : S (.createTable t))
    (e : j.tableName.diffStr = t.name.diffStr) {k : Ident} (hk : k ∈ j.columns) (hno : ¬ HasColumn t k.name) (hie : j.ifNotExists = false) {cm : Str}
    {l : List PStmt} : ¬ Execs B (.dropIndex cm false i.name :: .createIndex j :: l) D := by
  rintro (_ | ⟨h1, h2⟩)
  obtain ⟨D', h3, h4⟩ := exec_dropIndex h hi cm
  cases h1 with
  | dropIndex _ _ _ h5 =>
    cases h3 with
    | dropIndex =>
      exact not_createIndex h4 ⟨ht, by rw [obj_table, obj_index]; simp⟩ e hk hno hie h2

theorem not_dropNotNull {t : CreateTable} (ht : S (.createTable t)) (hd : DistinctNames t) {tn : ObjectName} (hn : tn.diffStr = t.name.diffStr)
    {p : Constraint} (hp : p ∈ t.constraints) {k : Ident} (hk : k.name ∈ p.keyColumns) {cm : Str} {l : List PStmt} :
    ¬ Execs B (.alterTable ⟨cm, tn, .dropNotNull k⟩ :: l) D := by
  rintro (_ | ⟨h1, _⟩)
  cases h1 with
  | alterTable _ _ _ T _ h1 h2 =>
    rw [hn, h.table ht] at h1
    cases h1
    cases h2 with
    | dropNotNull _ _ _ h4 => exact h4 _ _ (tableOf_con hd hp) (by rwa [bare_keyColumns])

/-- Dropping a primary key leaves its columns `NOT NULL`. -/
theorem dropConstraint_inv {t : CreateTable} (ht : S (.createTable t)) {tn : ObjectName} (hn : tn.diffStr = t.name.diffStr) {k : Ident} {cm : Str}
    (he : Execs B [.alterTable ⟨cm, tn, .dropConstraint k⟩] D) :
    ∃ T, D.tables t.name.diffStr = some T ∧ T.cols = (tableOf t).cols := by
  obtain (_ | ⟨h1, (_ | ⟨_, _⟩)⟩) := he
  cases h1 with
  | alterTable _ _ _ T _ h1 h2 =>
    rw [hn, h.table ht] at h1
    cases h1
    cases h2 with
    | dropConstraint _ h3 => exact ⟨⟨(tableOf t).cols, put (tableOf t).cons k.name none⟩, by rw [hn]; exact setTable_tables _ _ _, rfl⟩

theorem not_lost_key {S' : PStmt → Prop} (h' : Holds S' D) {t t' : CreateTable} (ht : S (.createTable t)) (ht' : S' (.createTable t'))
    (e : t'.name.diffStr = t.name.diffStr) {tn : ObjectName} (hn : tn.diffStr = t.name.diffStr) {c : Column} (hc : c ∈ t.columns)
    (hk : DistinctNames t ∧ c.name.name ∈ t.constraints.flatMap Constraint.keyColumns ∧ DistinctNames t' ∧
      ∃ c' ∈ t'.columns, c'.name.name = c.name.name ∧ c'.notNull = false ∧ c.name.name ∉ t'.constraints.flatMap Constraint.keyColumns)
    {k : Ident} {cm : Str} : ¬ Execs B [.alterTable ⟨cm, tn, .dropConstraint k⟩] D := by
  intro he
  obtain ⟨T, h1, h2⟩ := dropConstraint_inv h ht hn he
  obtain ⟨hd, hk, hd', c', hc', hcn, hcnn, hk'⟩ := hk
  have h3 := h'.table ht'
  rw [e, h1] at h3
  cases h3
  have h4 := congrFun h2 c.name.name
  rw [tableOf_col hd hc, ← hcn, tableOf_col hd' hc', hcn] at h4
  have h5 := congrArg (Option.map Col.notNull) h4
  simp only [Option.map_some, Option.some.injEq, hcnn, Bool.false_or, List.contains_iff_mem.2 hk, Bool.or_true] at h5
  exact hk' (List.contains_iff_mem.1 h5)

theorem not_same_index {S' : PStmt → Prop} (h' : Holds S' B) {i i' : CreateIndex} (hi : S (.createIndex i)) (hi' : S' (.createIndex i'))
    (e : i'.name.name = i.name.name) (hne : i.bare ≠ i'.bare) : False := by
  have h1 := h.index hi
  have h2 := h'.index hi'
  rw [e, h1] at h2
  exact hne (Option.some.inj h2)

omit h in
theorem stuck_of {sd : Str → Str → Str} {b a l : List PStmt} (lb : loadable b) (la : loadable a) (hd : diff (ops sd) (some b) (some a) = .ok l)
    (hn : ∀ B D, Holds (· ∈ b) B → ¬ Execs B l D) :
    ∃ B A l, Execs empty b B ∧ Execs empty a A ∧ diff (ops sd) (some b) (some a) = .ok l ∧ ∀ D, ¬ Execs B l D := by
  obtain ⟨B, hB, h⟩ := loads_holds lb
  obtain ⟨A, hA⟩ := loads la
  exact ⟨B, A, l, hB, hA, hd, fun D => hn B D h⟩

omit h in
theorem wrong_of {sd : Str → Str → Str} {b a l : List PStmt} (lb : loadable b) (la : loadable a) (hd : diff (ops sd) (some b) (some a) = .ok l)
    (hn : ∀ B A, Holds (· ∈ b) B → Holds (· ∈ a) A → ¬ Execs B l A) :
    ∃ B A l, Execs empty b B ∧ Execs empty a A ∧ diff (ops sd) (some b) (some a) = .ok l ∧ ¬ Execs B l A := by
  obtain ⟨B, hB, h⟩ := loads_holds lb
  obtain ⟨A, hA, h'⟩ := loads_holds la
  exact ⟨B, A, l, hB, hA, hd, hn B A h h'⟩

omit h in
theorem missed_of {sd : Str → Str → Str} {b a : List PStmt} (lb : loadable b) (la : loadable a)
    (hd : diff (ops sd) (some b) (some a) = .err .noDifference) (hn : ∀ B, Holds (· ∈ b) B → ¬ Holds (· ∈ a) B) :
    ∃ B A, Execs empty b B ∧ Execs empty a A ∧ diff (ops sd) (some b) (some a) = .err .noDifference ∧ B ≠ A := by
  obtain ⟨B, hB, h⟩ := loads_holds lb
  obtain ⟨A, hA, h'⟩ := loads_holds la
  exact ⟨B, A, hB, hA, hd, fun e => hn B h (e ▸ h')⟩

end Ddl.Pg.Db
