import Verif.Lemmas.PgNoDiff
import Verif.Spec.Db

/-! # PostgreSQL: executing the alterations of one table -/

namespace Ddl.Pg.Db
open Ddl Spec
set_option autoImplicit false

/-! ## Catalogues -/

theorem put_put {α : Type} (m : Str → Option α) (k : Str) (v w : Option α) : put (put m k v) k w = put m k w := by
  funext x; simp only [put]; split <;> rfl

theorem put_self {α : Type} (m : Str → Option α) (k : Str) : put m k (m k) = m := by
  funext x; simp only [put]; split
  · rename_i h; rw [h]
  · rfl

theorem put_same {α : Type} (m : Str → Option α) (k : Str) (v : Option α) : put m k v k = v := by simp [put]

theorem put_ne {α : Type} (m : Str → Option α) {k x : Str} (v : Option α) (h : x ≠ k) : put m k v x = m x := by simp [put, h]

@[simp] theorem setTable_setTable (d : Catalog) (n : Str) (T U : Tbl) : (d.setTable n T).setTable n U = d.setTable n U := by
  simp [Catalog.setTable, put_put]

@[simp] theorem setTable_tables (d : Catalog) (n : Str) (T : Tbl) : (d.setTable n T).tables n = some T := by
  simp [Catalog.setTable, put]

theorem setTable_self {d : Catalog} {n : Str} {T : Tbl} (h : d.tables n = some T) : d.setTable n T = d := by
  simp [Catalog.setTable, ← h, put_self]

theorem Execs.append {d d' d'' : Catalog} {l r : List PStmt} (h : Execs d l d') (h' : Execs d' r d'') : Execs d (l ++ r) d'' := by
  induction h with
  | nil => exact h'
  | cons h _ ih => exact .cons h (ih h')

theorem Execs.one {d d' : Catalog} {s : PStmt} (h : Exec d s d') : Execs d [s] d' := .cons h (.nil _)

/-! ## What forgetting quotes keeps -/

theorem bare_mentions (c : Constraint) : c.bare.mentions = c.mentions := by
  cases c <;> simp [Constraint.bare, Constraint.mentions, Ident.bare, Function.comp_def]

theorem bare_target (c : Constraint) : c.bare.target = c.target := by
  cases c <;> simp [Constraint.bare, Constraint.target, Ident.bare, Function.comp_def]

theorem bare_keyColumns (c : Constraint) : c.bare.keyColumns = c.keyColumns := by
  cases c <;> simp [Constraint.bare, Constraint.keyColumns, Ident.bare, Function.comp_def]

theorem bare_columnNames (c : Constraint) : c.bare.columnNames = c.columnNames := by
  cases c <;> simp [Constraint.bare, Constraint.columnNames, Ident.bare, Function.comp_def]

theorem columnNames_mentions {c : Constraint} {k : Str} (h : k ∈ c.columnNames) : k ∈ c.mentions := by
  cases c <;> first | exact h | cases h

theorem keyColumns_columnNames {c : Constraint} {k : Str} (h : k ∈ c.keyColumns) : k ∈ c.columnNames := by
  cases c <;> first | exact h | cases h

theorem tableOf_cols {t : CreateTable} {k : Str} : ((tableOf t).cols k).isSome ↔ HasColumn t k := by
  simp only [tableOf, withKey, Option.isSome_map, List.find?_isSome, beq_iff_eq, HasColumn]

theorem tableOf_col {t : CreateTable} (hd : DistinctNames t) {c : Column} (hc : c ∈ t.columns) :
    (tableOf t).cols c.name.name = some { colOf c with notNull := c.notNull || (t.constraints.flatMap Constraint.keyColumns).contains c.name.name } := by
  simp only [tableOf, withKey, find?_of_nodup (f := fun c : Column => c.name.name) hd.1 hc, Option.map_some]
  rfl

theorem tableOf_col_none {t : CreateTable} {k : Str} (h : ¬ HasColumn t k) : (tableOf t).cols k = none := by
  have := mt tableOf_cols.1 h
  simpa using this

theorem tableOf_con {t : CreateTable} (hd : DistinctNames t) {c : Constraint} (hc : c ∈ t.constraints) :
    (tableOf t).cons c.name.name = some ⟨c.bare, true⟩ := by
  simp only [tableOf, find?_of_nodup (f := fun c : Constraint => c.name.name) hd.2 hc, Option.map_some]

theorem tableOf_con_some {t : CreateTable} {k : Str} {p : Con} (h : (tableOf t).cons k = some p) :
    ∃ c ∈ t.constraints, c.name.name = k ∧ p = ⟨c.bare, true⟩ := by
  simp only [tableOf, Option.map_eq_some_iff] at h
  obtain ⟨c, h, rfl⟩ := h
  have := List.find?_some h
  exact ⟨c, List.mem_of_find?_eq_some h, by simpa using this, rfl⟩

theorem tableOf_con_none {t : CreateTable} {k : Str} (h : ¬ HasConstraint t k) : (tableOf t).cons k = none := by
  cases e : (tableOf t).cons k with
  | none => rfl
  | some p =>
    obtain ⟨c, hc, hn, _⟩ := tableOf_con_some e
    exact absurd ⟨c, hc, hn⟩ h

/-! ## Runs on one table -/

/-- The alterations succeed and turn table `T` into `T'`, leaving everything else as it is. -/
def Run (d : Catalog) (n : Str) (T : Tbl) (l : List AlterTable) (T' : Tbl) : Prop :=
  Execs (d.setTable n T) (l.map Stmt.alterTable) (d.setTable n T')

variable {d : Catalog} {n : Str}

theorem Run.nil (T : Tbl) : Run d n T [] T := Execs.nil _

theorem Run.append {T T' T'' : Tbl} {l r : List AlterTable} (h : Run d n T l T') (h' : Run d n T' r T'') : Run d n T (l ++ r) T'' := by
  unfold Run
  rw [List.map_append]
  exact Execs.append h h'

theorem Run.one {T T' : Tbl} {cm : Str} {tn : ObjectName} {act : Action} (hn : tn.diffStr = n)
    (h : Alter (d.setTable n T) n T act (d.setTable n T')) : Run d n T [⟨cm, tn, act⟩] T' := by
  subst hn
  exact Execs.one (.alterTable cm tn act T _ (setTable_tables _ _ _) h)

/-- Working through a list while keeping an invariant of the part done. -/
theorem run_flatMap {α : Type} {f : α → List AlterTable} (Inv : List α → Tbl → Prop) {l : List α}
    (step : ∀ p x q, l = p ++ x :: q → ∀ T, Inv p T → ∃ T', Run d n T (f x) T' ∧ Inv (p ++ [x]) T') {T : Tbl} (h : Inv [] T) :
    ∃ T', Run d n T (l.flatMap f) T' ∧ Inv l T' := by
  have : ∀ q p, l = p ++ q → ∀ T, Inv p T → ∃ T', Run d n T (q.flatMap f) T' ∧ Inv l T' := by
    intro q
    induction q with
    | nil =>
      intro p e T h
      refine ⟨T, Run.nil T, ?_⟩
      rw [e, List.append_nil]
      exact h
    | cons x q ih =>
      intro p e T h
      obtain ⟨T1, h1, i1⟩ := step p x q e T h
      obtain ⟨T2, h2, i2⟩ := ih (p ++ [x]) (by simp [e]) T1 i1
      exact ⟨T2, h1.append h2, i2⟩
  exact this l [] rfl T h

/-! ## One column -/

theorem default_inj {b a : Column} (hb : b.default ≠ some ⟨none⟩ → ∃ us, ColOk b us) (ha : a.default ≠ some ⟨none⟩ → ∃ us, ColOk a us)
    (tb : b.Tame) (ta : a.Tame) (hs : b.default.isSome ∨ a.default.isNone) (hs' : ¬ (b.default.isSome ∧ a.default.isNone))
    (h : a.default.isSome → defaultDiffStr b.default = defaultDiffStr a.default) : b.default.map Default.bare = a.default.map Default.bare := by
  obtain ⟨bn, bd, bdef, bnn⟩ := b
  obtain ⟨an, ad, adef, ann⟩ := a
  simp only at *
  rcases bdef with _ | ⟨_ | be⟩
  · rcases adef with _ | ⟨_ | ae⟩
    · rfl
    · simp at hs
    · simp at hs
  · exact absurd rfl tb.2.2
  · rcases adef with _ | ⟨_ | ae⟩
    · simp at hs'
    · exact absurd rfl ta.2.2
    · have e := h rfl
      simp only [defaultDiffStr, List.append_cancel_left_eq] at e
      have := exprDiff_inj (default_bound (c := ⟨bn, bd, some ⟨some be⟩, bnn⟩) hb rfl)
        (default_bound (c := ⟨an, ad, some ⟨some ae⟩, ann⟩) ha rfl) (tb.2.1 _ rfl) (ta.2.1 _ rfl) e
      simp [Default.bare, this]

/-- `NOT NULL` of a column that is altered. -/
def nnAfter (b a nn : Bool) : Bool := if b && !a then false else if !b && a then true else nn

theorem alterColumn_run {sd : Str → Str → Str} {tn : ObjectName} (hn : tn.diffStr = n) {b a : Column}
    (hb : b.default ≠ some ⟨none⟩ → ∃ us, ColOk b us) (ha : a.default ≠ some ⟨none⟩ → ∃ us, ColOk a us) (tb : b.Tame) (ta : a.Tame)
    {T : Tbl} {nn : Bool} (hc : T.cols a.name.name = some ⟨b.dataType.bare, b.default.map Default.bare, nn⟩)
    (hk : b.notNull = true → a.notNull = false → ∀ j p, T.cons j = some p → a.name.name ∉ p.definition.keyColumns) :
    Run d n T (alterColumn sd tn b a)
      { T with cols := put T.cols a.name.name (some ⟨a.dataType.bare, a.default.map Default.bare, nnAfter b.notNull a.notNull nn⟩) } := by
  unfold alterColumn
  -- the type
  have h1 : Run d n T (if b.dataType.diffStr ≠ a.dataType.diffStr then [⟨sd b.str a.str, tn, .setDataType a.name a.dataType⟩] else [])
      { T with cols := put T.cols a.name.name (some ⟨a.dataType.bare, b.default.map Default.bare, nn⟩) } := by
    split
    · refine Run.one hn ?_
      have := Alter.setDataType (d := d.setTable n T) (n := n) a.name a.dataType _ hc
      rwa [setTable_setTable] at this
    · rename_i h
      rw [← dataType_inj tb.1 ta.1 (not_not.1 h), ← hc, put_self]
      exact Run.nil _
  -- the default
  refine (h1.append (T'' := { T with cols := put T.cols a.name.name (some ⟨a.dataType.bare, a.default.map Default.bare, nn⟩) }) ?_).append ?_
  · split
    · rename_i h
      have e : a.default = none := by simpa using h.2
      refine Run.one hn ?_
      have := Alter.dropDefault (d := d.setTable n { T with cols := put T.cols a.name.name (some ⟨a.dataType.bare, b.default.map Default.bare, nn⟩) })
        (T := { T with cols := put T.cols a.name.name (some ⟨a.dataType.bare, b.default.map Default.bare, nn⟩) })
        (n := n) a.name _ (put_same _ _ _)
      rw [setTable_setTable] at this
      simpa [put_put, e] using this
    · rename_i h
      split
      · refine Run.one hn ?_
        have := Alter.setDefault (d := d.setTable n { T with cols := put T.cols a.name.name (some ⟨a.dataType.bare, b.default.map Default.bare, nn⟩) })
          (T := { T with cols := put T.cols a.name.name (some ⟨a.dataType.bare, b.default.map Default.bare, nn⟩) })
          (n := n) a.name a.default _ (put_same _ _ _)
        rw [setTable_setTable] at this
        simpa [put_put] using this
      · rename_i h'
        rw [default_inj hb ha tb ta ?_ h ?_]
        · exact Run.nil _
        · cases hbd : b.default with
          | some x => exact Or.inl rfl
          | none =>
            cases had : a.default with
            | none => exact Or.inr rfl
            | some y =>
              refine absurd ?_ h'
              rcases y with ⟨_ | y⟩
              · exact absurd had ta.2.2
              · rw [hbd, had]
                simp [defaultDiffStr]
        · intro hs
          by_contra hne
          exact h' ⟨hs, hne⟩
  -- NOT NULL
  · split
    · rename_i h
      refine Run.one hn ?_
      have := Alter.dropNotNull (d := d.setTable n { T with cols := put T.cols a.name.name (some ⟨a.dataType.bare, a.default.map Default.bare, nn⟩) })
        (T := { T with cols := put T.cols a.name.name (some ⟨a.dataType.bare, a.default.map Default.bare, nn⟩) })
        (n := n) a.name _ (put_same _ _ _) (hk h.1 (by simpa using h.2))
      rw [setTable_setTable] at this
      simpa [put_put, nnAfter, h.1, h.2] using this
    · split
      · rename_i h
        refine Run.one hn ?_
        have := Alter.setNotNull (d := d.setTable n { T with cols := put T.cols a.name.name (some ⟨a.dataType.bare, a.default.map Default.bare, nn⟩) })
          (T := { T with cols := put T.cols a.name.name (some ⟨a.dataType.bare, a.default.map Default.bare, nn⟩) })
          (n := n) a.name _ (put_same _ _ _)
        rw [setTable_setTable] at this
        simpa [put_put, nnAfter, h.1, h.2] using this
      · rename_i h h'
        have : nnAfter b.notNull a.notNull nn = nn := by
          revert h h'
          unfold nnAfter
          cases b.notNull <;> cases a.notNull <;> simp
        rw [this]
        exact Run.nil _

/-! ## One table -/

/-- What is needed to turn table `t` into `t'` in database `d`. -/
structure TabCond (d : Catalog) (n : Str) (t t' : CreateTable) : Prop where
  name : t.name.diffStr = n
  name' : t'.name.diffStr = n
  ok : TabOk t
  ok' : TabOk t'
  tame : t.Tame
  tame' : t'.Tame
  dist : DistinctNames t
  dist' : DistinctNames t'
  columns : ∀ c ∈ t.constraints, ∀ k ∈ c.columnNames, HasColumn t k
  columns' : ∀ c ∈ t'.constraints, ∀ k ∈ c.columnNames, HasColumn t' k
  target : ∀ c ∈ t'.constraints, ∀ r rcs, c.target = some (r, rcs) → r ≠ n → ∃ R, d.tables r = some R ∧ ∀ k ∈ rcs, (R.cols k).isSome
  targetSelf : ∀ c ∈ t'.constraints, ∀ rcs, c.target = some (n, rcs) → ∀ k ∈ rcs, HasColumn t' k
  dropRef : ∀ m U j p rcs, m ≠ n → d.tables m = some U → U.cons j = some p → p.definition.target = some (n, rcs) →
    ∀ k ∈ rcs, HasColumn t k → HasColumn t' k
  dropRefSelf : ∀ c ∈ t.constraints, HasConstraint t' c.name.name → ∀ rcs, c.target = some (n, rcs) → ∀ k ∈ rcs, HasColumn t k → HasColumn t' k
  dropCon : ∀ c ∈ t.constraints, HasConstraint t' c.name.name → ∀ k ∈ c.mentions, HasColumn t k → HasColumn t' k
  dropIdx : ∀ j i, d.indexes j = some i → i.tableName.diffStr = n → ∀ k ∈ i.columns.map (·.name), HasColumn t k → HasColumn t' k
  lostNotNull : ∀ c ∈ t.columns, ∀ c' ∈ t'.columns, c.name.name = c'.name.name → c.notNull = true → c'.notNull = false →
    ∀ p ∈ t.constraints, HasConstraint t' p.name.name → c.name.name ∉ p.keyColumns
  lostKey : ∀ c ∈ t.columns, ∀ c' ∈ t'.columns, c.name.name = c'.name.name → c.notNull = false → c'.notNull = false →
    ∀ p ∈ t.constraints, c.name.name ∈ p.keyColumns → ∃ p' ∈ t'.constraints, c.name.name ∈ p'.keyColumns

theorem findConstraint_some {k : Str} {l : List Constraint} {c : Constraint} (h : findConstraint k l = some c) : c ∈ l ∧ c.name.name = k := by
  have := List.find?_some h
  exact ⟨List.mem_of_find?_eq_some h, by simpa using this⟩

theorem findConstraint_none {k : Str} {t : CreateTable} (h : findConstraint k t.constraints = none) : ¬ HasConstraint t k := by
  rintro ⟨c, hc, hn⟩
  have := List.find?_eq_none.1 h c hc
  simp [hn] at this

theorem findColumn_some {k : Str} {l : List Column} {c : Column} (h : findColumn k l = some c) : c ∈ l ∧ c.name.name = k := by
  have := List.find?_some h
  exact ⟨List.mem_of_find?_eq_some h, by simpa using this⟩

theorem findColumn_none {k : Str} {t : CreateTable} (h : findColumn k t.columns = none) : ¬ HasColumn t k := by
  rintro ⟨c, hc, hn⟩
  have := List.find?_eq_none.1 h c hc
  simp [hn] at this

theorem withKey_withKey (m : Str → Option Col) (a b : List Str) : withKey (withKey m a) b = withKey m (a ++ b) := by
  funext k
  simp only [withKey, Option.map_map]
  cases m k with
  | none => rfl
  | some c =>
    simp only [Option.map_some, Function.comp_apply, Option.some.injEq, Col.mk.injEq, true_and]
    rw [Bool.or_assoc, Bool.eq_iff_iff]
    simp

theorem withKey_nil (m : Str → Option Col) : withKey m [] = m := by
  funext k
  simp [withKey]

theorem withKey_isSome (m : Str → Option Col) (a : List Str) (k : Str) : (withKey m a k).isSome = (m k).isSome := by
  simp [withKey]

theorem foldl_append_nodup : ∀ (l acc : List Constraint), ((acc ++ l).map (·.name.name)).Nodup → l.foldl appendConstraint acc = acc ++ l := by
  have app : ∀ (acc : List Constraint) (c : Constraint), c.name.name ∉ acc.map (·.name.name) → appendConstraint acc c = acc ++ [c] := by
    intro acc c
    induction acc with
    | nil => intro _; rfl
    | cons x r ih =>
      intro h
      simp only [List.map_cons, List.mem_cons, not_or] at h
      simp only [appendConstraint, if_neg (Ne.symm h.1), ih h.2, List.cons_append]
  intro l
  induction l with
  | nil => intro acc _; simp
  | cons c l ih =>
    intro acc h
    rw [List.foldl_cons, app acc c ?_, ih _ (by simpa using h)]
    · simp
    · rw [List.map_append, List.nodup_append] at h
      intro hm
      exact h.2.2 _ hm _ (by simp) rfl

open Classical in
/-- The columns behind the alterations of columns. -/
noncomputable def midCols (t t' : CreateTable) (k : Str) : Option Col :=
  match findColumn k t'.columns, findColumn k t.columns with
  | none, _ => none
  | some a, none => some (colOf a)
  | some a, some b => some ⟨a.dataType.bare, a.default.map Default.bare,
      nnAfter b.notNull a.notNull (b.notNull || (t.constraints.flatMap Constraint.keyColumns).contains k)⟩

/-- The columns of primary keys that are replaced. -/
def replacedKey (t' : CreateTable) (b : Constraint) : List Str :=
  match findConstraint b.name.name t'.constraints with
  | some a => if b.diffStr ≠ a.diffStr then a.keyColumns else []
  | none => []

theorem nodup_prefix {α : Type} {f : α → Str} {l p q : List α} {x : α} (h : (l.map f).Nodup) (e : l = p ++ x :: q) : ∀ c ∈ p, f c ≠ f x := by
  intro c hc he
  rw [e, List.map_append, List.nodup_append] at h
  exact h.2.2 _ (List.mem_map.2 ⟨c, hc, rfl⟩) _ (List.mem_map.2 ⟨x, by simp, rfl⟩) he

section
variable {sd : Str → Str → Str} {t t' : CreateTable} (hc : TabCond d n t t')
include hc

open Classical in
theorem drop_phase (tn : ObjectName) (hn : tn.diffStr = n) : ∃ T, Run d n (tableOf t) (dropConstraints sd tn t.constraints t'.constraints) T ∧
    T.cols = (tableOf t).cols ∧ ∀ j, T.cons j = if HasConstraint t' j then (tableOf t).cons j else none := by
  refine Exists.elim (run_flatMap (d := d) (n := n) (T := tableOf t)
    (f := fun b : Constraint => match findConstraint b.name.name t'.constraints with
      | none => [(⟨sd b.str [], tn, .dropConstraint b.name⟩ : AlterTable)]
      | some _ => [])
    (fun p T => T.cols = (tableOf t).cols ∧
      ∀ j, T.cons j = if (∃ c ∈ p, c.name.name = j) ∧ ¬ HasConstraint t' j then none else (tableOf t).cons j)
    (l := t.constraints) ?step ⟨rfl, by simp⟩) ?_
  swap
  · rintro T ⟨hr, h1, h2⟩
    refine ⟨T, hr, h1, fun j => ?_⟩
    rw [h2 j]
    by_cases hk : HasConstraint t' j
    · simp [hk]
    · by_cases hm : HasConstraint t j
      · have hm' : ∃ c ∈ t.constraints, c.name.name = j := hm
        simp [hk, hm']
      · simp [hk, tableOf_con_none hm]
  · rintro p x q e T ⟨h1, h2⟩
    have hp := nodup_prefix hc.dist.2 e
    have hx : x ∈ t.constraints := by simp [e]
    have hstep : ∀ j, j ≠ x.name.name → ((∃ c ∈ p ++ [x], c.name.name = j) ↔ ∃ c ∈ p, c.name.name = j) := by
      intro j hj
      simp only [List.mem_append, List.mem_singleton, or_and_right, exists_or, exists_eq_left, or_iff_left_iff_imp]
      exact fun h => absurd h.symm hj
    have hx' : ¬ ∃ c ∈ p, c.name.name = x.name.name := fun ⟨c, h, h'⟩ => hp c h h'
    cases hf : findConstraint x.name.name t'.constraints with
    | none =>
      have hk := findConstraint_none hf
      refine ⟨{ T with cons := put T.cons x.name.name none }, ?_, h1, fun j => ?_⟩
      · simp only
        refine Run.one hn ?_
        have := Alter.dropConstraint (d := d.setTable n T) (n := n) (T := T) x.name ?_
        · rwa [setTable_setTable] at this
        · rw [h2, if_neg (fun h => hx' h.1), tableOf_con hc.dist hx]
          rfl
      · simp only
        by_cases hj : j = x.name.name
        · subst hj
          rw [put_same, if_pos ⟨⟨x, by simp, rfl⟩, hk⟩]
        · rw [put_ne _ _ hj, h2]; simp only [hstep j hj]
    | some a =>
      obtain ⟨ha, han⟩ := findConstraint_some hf
      refine ⟨T, Run.nil T, h1, fun j => ?_⟩
      rw [h2]
      by_cases hj : j = x.name.name
      · subst hj
        have hk : HasConstraint t' x.name.name := ⟨a, ha, han⟩
        simp [hk]
      · simp only [hstep j hj]

open Classical in
theorem column_phase (tn : ObjectName) (hn : tn.diffStr = n) {T : Tbl} (h1 : T.cols = (tableOf t).cols)
    (h2 : ∀ j, T.cons j = if HasConstraint t' j then (tableOf t).cons j else none) :
    ∃ T', Run d n T (diffColumns sd tn t.columns t'.columns) T' ∧ T'.cons = T.cons ∧ T'.cols = midCols t t' := by
  have con : ∀ {j : Str} {p : Con}, T.cons j = some p → ∃ c ∈ t.constraints, HasConstraint t' c.name.name ∧ p = ⟨c.bare, true⟩ := by
    intro j p h
    rw [h2] at h
    split at h
    · rename_i hk
      obtain ⟨c, hc', hn', rfl⟩ := tableOf_con_some h
      exact ⟨c, hc', hn' ▸ hk, rfl⟩
    · cases h
  refine Exists.elim (run_flatMap (d := d) (n := n) (T := T) (f := columnRound sd tn t'.columns)
    (fun p U => U.cons = T.cons ∧ ∀ k, U.cols k = if ∃ c ∈ p, c.name.name = k then midCols t t' k else (tableOf t).cols k)
    (l := t.columns) ?step ⟨rfl, by simp [h1]⟩) ?_
  swap
  · rintro T1 ⟨hr1, i1, i2⟩
    -- new columns
    refine Exists.elim (run_flatMap (d := d) (n := n) (T := T1)
      (f := fun c : Column => [(⟨sd [] c.str, tn, .addColumn c⟩ : AlterTable)])
      (fun p U => U.cons = T.cons ∧ ∀ k, U.cols k = if ∃ c ∈ p, c.name.name = k then midCols t t' k else T1.cols k)
      (l := onlyLeftColumn t'.columns t.columns) ?stepn ⟨i1, by simp⟩) ?_
    swap
    · rintro T2 ⟨hr2, j1, j2⟩
      refine ⟨T2, ?_, j1, ?_⟩
      · unfold diffColumns
        rw [List.map_eq_flatMap]
        exact hr1.append hr2
      · funext k
        rw [j2, i2]
        split
        · rfl
        · rename_i hno
          split
          · rfl
          · rename_i hno'
            have hk : ¬ HasColumn t k := hno'
            rw [tableOf_col_none hk]
            have hf : findColumn k t.columns = none := List.find?_eq_none.2 fun c hc' h => hk ⟨c, hc', by simpa using h⟩
            unfold midCols
            rw [hf]
            cases hf' : findColumn k t'.columns with
            | none => rfl
            | some a =>
              obtain ⟨ha, rfl⟩ := findColumn_some hf'
              refine absurd ⟨a, ?_, rfl⟩ hno
              simp only [onlyLeftColumn, List.mem_filter]
              exact ⟨ha, by rw [hf]; rfl⟩
    · rintro p x q e U ⟨k1, k2⟩
      have hx : x ∈ onlyLeftColumn t'.columns t.columns := by rw [e]; simp
      simp only [onlyLeftColumn, List.mem_filter, Option.isNone_iff_eq_none] at hx
      have hnd : ((onlyLeftColumn t'.columns t.columns).map (·.name.name)).Nodup :=
        hc.dist'.1.sublist ((List.filter_sublist).map _)
      have hp := nodup_prefix hnd e
      have hx' : ¬ ∃ c ∈ p, c.name.name = x.name.name := fun ⟨c, h, h'⟩ => hp c h h'
      have hmid : midCols t t' x.name.name = some (colOf x) := by
        unfold midCols
        rw [hx.2, show findColumn x.name.name t'.columns = some x from find?_of_nodup (f := fun c : Column => c.name.name) hc.dist'.1 hx.1]
      refine ⟨{ U with cols := put U.cols x.name.name (some (colOf x)) }, ?_, k1, fun k => ?_⟩
      · refine Run.one hn ?_
        have := Alter.addColumn (d := d.setTable n U) (n := n) (T := U) x ?_
        · rwa [setTable_setTable] at this
        · have hno : ¬ HasColumn t x.name.name := findColumn_none hx.2
          have hno' : ¬ ∃ c ∈ t.columns, c.name.name = x.name.name := hno
          rw [k2, if_neg hx', i2, if_neg hno', tableOf_col_none hno]
      · simp only
        by_cases hk : k = x.name.name
        · subst hk
          rw [put_same, if_pos ⟨x, by simp, rfl⟩, hmid]
        · rw [put_ne _ _ hk, k2]
          have : (∃ c ∈ p ++ [x], c.name.name = k) ↔ ∃ c ∈ p, c.name.name = k := by
            simp only [List.mem_append, List.mem_singleton, or_and_right, exists_or, exists_eq_left, or_iff_left_iff_imp]
            exact fun h => absurd h.symm hk
          simp only [this]
  · rintro p x q e U ⟨k1, k2⟩
    have hx : x ∈ t.columns := by simp [e]
    have hp := nodup_prefix hc.dist.1 e
    have hx' : ¬ ∃ c ∈ p, c.name.name = x.name.name := fun ⟨c, h, h'⟩ => hp c h h'
    have hstep : ∀ k, k ≠ x.name.name → ((∃ c ∈ p ++ [x], c.name.name = k) ↔ ∃ c ∈ p, c.name.name = k) := by
      intro k hk
      simp only [List.mem_append, List.mem_singleton, or_and_right, exists_or, exists_eq_left, or_iff_left_iff_imp]
      exact fun h => absurd h.symm hk
    have hcol : U.cols x.name.name = some { colOf x with notNull := x.notNull || (t.constraints.flatMap Constraint.keyColumns).contains x.name.name } := by
      rw [k2, if_neg hx', tableOf_col hc.dist hx]
    have hfx : findColumn x.name.name t.columns = some x := find?_of_nodup (f := fun c : Column => c.name.name) hc.dist.1 hx
    unfold columnRound
    cases hf : findColumn x.name.name t'.columns with
    | none =>
      have hno : ¬ HasColumn t' x.name.name := findColumn_none hf
      have hyes : HasColumn t x.name.name := ⟨x, hx, rfl⟩
      refine ⟨{ U with cols := put U.cols x.name.name none }, ?_, k1, fun k => ?_⟩
      · simp only
        refine Run.one hn ?_
        have := Alter.dropColumn (d := d.setTable n U) (n := n) (T := U) x.name (by rw [hcol]; rfl) ?_
        · have ecat : (⟨put (d.setTable n U).tables n (some ⟨put U.cols x.name.name none, fun j => (U.cons j).filter fun c => !c.definition.mentions.contains x.name.name⟩),
              fun j => ((d.setTable n U).indexes j).filter fun i => !(i.tableName.diffStr == n && (i.columns.map (·.name)).contains x.name.name)⟩ : Catalog) =
              d.setTable n { U with cols := put U.cols x.name.name none } := by
            have e1 : (fun j => (U.cons j).filter fun c => !c.definition.mentions.contains x.name.name) = U.cons := by
              funext j
              cases hj : U.cons j with
              | none => rfl
              | some p =>
                rw [Option.filter_eq_some_iff.2 ⟨rfl, ?_⟩]
                rw [k1] at hj
                obtain ⟨c, hc1, hc2, rfl⟩ := con hj
                have := mt (fun h => hc.dropCon c hc1 hc2 x.name.name h hyes) hno
                simpa [bare_mentions] using this
            have e2 : (fun j => ((d.setTable n U).indexes j).filter fun i => !(i.tableName.diffStr == n && (i.columns.map (·.name)).contains x.name.name)) =
                d.indexes := by
              funext j
              show Option.filter _ (d.indexes j) = _
              cases hj : d.indexes j with
              | none => rfl
              | some i =>
                rw [Option.filter_eq_some_iff.2 ⟨rfl, ?_⟩]
                by_cases hin : i.tableName.diffStr = n
                · have := mt (fun h => hc.dropIdx j i hj hin x.name.name h hyes) hno
                  simpa [hin] using this
                · simp [hin]
            rw [e1, e2]
            simp [Catalog.setTable, put_put]
          rwa [ecat] at this
        · intro m V j p rcs hm hj htg hin
          by_cases hmn : m = n
          · subst hmn
            rw [setTable_tables] at hm
            cases hm
            rw [k1] at hj
            obtain ⟨c, hc1, hc2, rfl⟩ := con hj
            rw [bare_target] at htg
            exact hno (hc.dropRefSelf c hc1 hc2 rcs htg _ hin hyes)
          · simp only [Catalog.setTable, put_ne _ _ hmn] at hm
            exact hno (hc.dropRef m V j p rcs hmn hm hj htg _ hin hyes)
      · simp only
        by_cases hk : k = x.name.name
        · subst hk
          rw [put_same, if_pos ⟨x, by simp, rfl⟩, midCols, hf]
        · rw [put_ne _ _ hk, k2]; simp only [hstep k hk]
    | some a =>
      obtain ⟨ha, han⟩ := findColumn_some hf
      simp only
      refine ⟨_, alterColumn_run (sd := sd) hn (hc.ok.2.2.2.1 x hx) (hc.ok'.2.2.2.1 a ha) (hc.tame.1 x hx) (hc.tame'.1 a ha) (T := U)
        (nn := x.notNull || (t.constraints.flatMap Constraint.keyColumns).contains x.name.name) ?_ ?_, k1, fun k => ?_⟩
      · rw [han, hcol]
        rfl
      · intro hb' ha' j p hj
        rw [k1] at hj
        obtain ⟨c, hc1, hc2, rfl⟩ := con hj
        rw [han, bare_keyColumns]
        exact hc.lostNotNull x hx a ha han.symm hb' ha' c hc1 hc2
      · simp only
        rw [han]
        by_cases hk : k = x.name.name
        · subst hk
          rw [put_same, if_pos ⟨x, by simp, rfl⟩, midCols, hf, hfx]
        · rw [put_ne _ _ hk, k2]; simp only [hstep k hk]

omit hc in
theorem midCols_isSome {k : Str} : (midCols t t' k).isSome ↔ HasColumn t' k := by
  unfold midCols
  cases hf : findColumn k t'.columns with
  | none => simpa using findColumn_none hf
  | some a =>
    obtain ⟨ha, han⟩ := findColumn_some hf
    have : HasColumn t' k := ⟨a, ha, han⟩
    cases findColumn k t.columns <;> simp [this]

theorem fits_now {c : Constraint} (hm : c ∈ t'.constraints) {U : Tbl} (hU : ∀ k, HasColumn t' k → (U.cols k).isSome) :
    Fits (d.setTable n U).tables U c := by
  refine ⟨fun k hk => hU k (hc.columns' c hm k hk), fun r rcs hr => ?_⟩
  by_cases hrn : r = n
  · subst hrn
    exact ⟨U, setTable_tables _ _ _, fun k hk => hU k (hc.targetSelf c hm rcs hr k hk)⟩
  · obtain ⟨R, h1, h2⟩ := hc.target c hm r rcs hr hrn
    exact ⟨R, by simpa [Catalog.setTable, put_ne _ _ hrn] using h1, h2⟩

open Classical in
theorem replace_phase (tn : ObjectName) (hn : tn.diffStr = n) {T : Tbl} (h1 : T.cols = midCols t t')
    (h2 : ∀ j, T.cons j = if HasConstraint t' j then (tableOf t).cons j else none) :
    ∃ T', Run d n T (replaceConstraints sd false tn t.constraints t'.constraints) T' ∧
      T'.cols = withKey (midCols t t') (t.constraints.flatMap (replacedKey t')) ∧
      ∀ j, T'.cons j = if HasConstraint t j then (tableOf t').cons j else none := by
  refine Exists.elim (run_flatMap (d := d) (n := n) (T := T)
    (f := fun b : Constraint => match findConstraint b.name.name t'.constraints with
    | none => []
    | some a =>
      if b.diffStr ≠ a.diffStr then
        [(⟨sd b.str [], tn, .dropConstraint b.name⟩ : AlterTable), ⟨sd [] a.str, tn, .addConstraint a false⟩]
      else [])
    (fun p U => U.cols = withKey (midCols t t') (p.flatMap (replacedKey t')) ∧
      ∀ j, U.cons j = if ∃ c ∈ p, c.name.name = j then (tableOf t').cons j else T.cons j)
    (l := t.constraints) ?step ⟨by rw [h1]; exact (withKey_nil _).symm, by simp⟩) ?_
  swap
  · rintro T1 ⟨hr1, i1, i2⟩
    refine ⟨T1, hr1, i1, fun j => ?_⟩
    rw [i2]
    by_cases hj : HasConstraint t j
    · have hj' : ∃ c ∈ t.constraints, c.name.name = j := hj
      rw [if_pos hj', if_pos hj]
    · have hj' : ¬ ∃ c ∈ t.constraints, c.name.name = j := hj
      rw [if_neg hj', if_neg hj, h2, tableOf_con_none hj, ite_self]
  · rintro p x q e U ⟨k1, k2⟩
    have hx : x ∈ t.constraints := by simp [e]
    have hp := nodup_prefix hc.dist.2 e
    have hx' : ¬ ∃ c ∈ p, c.name.name = x.name.name := fun ⟨c, h, h'⟩ => hp c h h'
    have hstep : ∀ k, k ≠ x.name.name → ((∃ c ∈ p ++ [x], c.name.name = k) ↔ ∃ c ∈ p, c.name.name = k) := by
      intro k hk
      simp only [List.mem_append, List.mem_singleton, or_and_right, exists_or, exists_eq_left, or_iff_left_iff_imp]
      exact fun h => absurd h.symm hk
    have hcon : U.cons x.name.name = if HasConstraint t' x.name.name then some ⟨x.bare, true⟩ else none := by
      rw [k2, if_neg hx', h2, tableOf_con hc.dist hx]
    have hrk : ∀ p : List Constraint, (p ++ [x]).flatMap (replacedKey t') = p.flatMap (replacedKey t') ++ replacedKey t' x := by simp
    cases hf : findConstraint x.name.name t'.constraints with
    | none =>
      have hk := findConstraint_none hf
      refine ⟨U, Run.nil U, ?_, fun j => ?_⟩
      · rw [hrk, replacedKey, hf, k1, List.append_nil]
      · by_cases hj : j = x.name.name
        · subst hj
          rw [hcon, if_neg hk, if_pos ⟨x, by simp, rfl⟩, tableOf_con_none hk]
        · rw [k2]; simp only [hstep j hj]
    | some a =>
      obtain ⟨ha, han⟩ := findConstraint_some hf
      have hk : HasConstraint t' x.name.name := ⟨a, ha, han⟩
      have hta : (tableOf t').cons x.name.name = some ⟨a.bare, true⟩ := by rw [← han]; exact tableOf_con hc.dist' ha
      rw [if_pos hk] at hcon
      by_cases hd : x.diffStr = a.diffStr
      · have hb : x.bare = a.bare := constraint_inj (hc.ok.2.2.2.2 x hx) (hc.ok'.2.2.2.2 a ha) (hc.tame.2 x hx).1 (hc.tame'.2 a ha).1 han.symm hd
        simp only [ne_eq, hd, not_true_eq_false, if_false]
        refine ⟨U, Run.nil U, ?_, fun j => ?_⟩
        · rw [hrk, replacedKey, hf]
          simp [hd, k1]
        · by_cases hj : j = x.name.name
          · subst hj
            rw [hcon, if_pos ⟨x, by simp, rfl⟩, hta, hb]
          · rw [k2]; simp only [hstep j hj]
      · simp only [ne_eq, hd, not_false_eq_true, if_true]
        refine ⟨⟨withKey U.cols a.keyColumns, put U.cons x.name.name (some ⟨a.bare, true⟩)⟩, ?_, ?_, fun j => ?_⟩
        · have r1 : Run d n U [⟨sd x.str [], tn, .dropConstraint x.name⟩] { U with cons := put U.cons x.name.name none } := by
            refine Run.one hn ?_
            have := Alter.dropConstraint (d := d.setTable n U) (n := n) (T := U) x.name (by rw [hcon]; rfl)
            rwa [setTable_setTable] at this
          have r2 : Run d n { U with cons := put U.cons x.name.name none } [⟨sd [] a.str, tn, .addConstraint a false⟩]
              ⟨withKey U.cols a.keyColumns, put U.cons x.name.name (some ⟨a.bare, true⟩)⟩ := by
            refine Run.one hn ?_
            have := Alter.addConstraint (d := d.setTable n { U with cons := put U.cons x.name.name none }) (n := n)
              (T := { U with cons := put U.cons x.name.name none }) a false (by rw [han]; exact put_same _ _ _)
              (fits_now hc ha fun k hk => by
                simp only [k1, withKey_isSome]
                exact midCols_isSome.2 hk)
            rw [setTable_setTable, han, put_put] at this
            exact this
          exact r1.append r2
        · rw [hrk, replacedKey, hf]
          simp only [ne_eq, hd, not_false_eq_true, if_true]
          rw [k1, withKey_withKey]
        · simp only
          by_cases hj : j = x.name.name
          · subst hj
            rw [put_same, if_pos ⟨x, by simp, rfl⟩, hta]
          · rw [put_ne _ _ hj, k2]; simp only [hstep j hj]

theorem onlyLeft_eq : onlyLeftConstraint t'.constraints t.constraints =
    t'.constraints.filter (fun c => (findConstraint c.name.name t.constraints).isNone) := by
  unfold onlyLeftConstraint
  rw [foldl_append_nodup _ [] ?_, List.nil_append]
  exact hc.dist'.2.sublist ((List.filter_sublist).map _)

open Classical in
theorem add_phase (tn : ObjectName) (hn : tn.diffStr = n) {T : Tbl} {ks : List Str} (h1 : T.cols = withKey (midCols t t') ks)
    (h2 : ∀ j, T.cons j = if HasConstraint t j then (tableOf t').cons j else none) :
    ∃ T', Run d n T (addConstraints sd false tn t.constraints t'.constraints) T' ∧
      T'.cols = withKey (midCols t t') (ks ++ (onlyLeftConstraint t'.constraints t.constraints).flatMap Constraint.keyColumns) ∧
      T'.cons = (tableOf t').cons := by
  have hmem : ∀ x ∈ onlyLeftConstraint t'.constraints t.constraints, x ∈ t'.constraints ∧ ¬ HasConstraint t x.name.name := by
    intro x hx
    rw [onlyLeft_eq hc, List.mem_filter, Option.isNone_iff_eq_none] at hx
    exact ⟨hx.1, findConstraint_none hx.2⟩
  refine Exists.elim (run_flatMap (d := d) (n := n) (T := T)
    (f := fun c : Constraint => [(⟨sd [] c.str, tn, .addConstraint c false⟩ : AlterTable)])
    (fun p U => U.cols = withKey (midCols t t') (ks ++ p.flatMap Constraint.keyColumns) ∧
      ∀ j, U.cons j = if ∃ c ∈ p, c.name.name = j then (tableOf t').cons j else T.cons j)
    (l := onlyLeftConstraint t'.constraints t.constraints) ?step ⟨by rw [h1]; simp, by simp⟩) ?_
  swap
  · rintro T1 ⟨hr1, i1, i2⟩
    refine ⟨T1, ?_, i1, ?_⟩
    · unfold addConstraints
      rw [List.map_eq_flatMap]
      exact hr1
    · funext j
      rw [i2]
      split
      · rfl
      · rename_i hno
        rw [h2]
        split
        · rfl
        · rename_i hno'
          refine (tableOf_con_none ?_).symm
          rintro ⟨c, hc1, rfl⟩
          refine hno ⟨c, ?_, rfl⟩
          rw [onlyLeft_eq hc, List.mem_filter, Option.isNone_iff_eq_none]
          exact ⟨hc1, List.find?_eq_none.2 fun x hx h => hno' ⟨x, hx, by simpa using h⟩⟩
  · rintro p x q e U ⟨k1, k2⟩
    obtain ⟨hx, hnew⟩ := hmem x (by rw [e]; simp)
    have hnd : ((onlyLeftConstraint t'.constraints t.constraints).map (·.name.name)).Nodup := by
      rw [onlyLeft_eq hc]
      exact hc.dist'.2.sublist ((List.filter_sublist).map _)
    have hp := nodup_prefix hnd e
    have hx' : ¬ ∃ c ∈ p, c.name.name = x.name.name := fun ⟨c, h, h'⟩ => hp c h h'
    refine ⟨⟨withKey U.cols x.keyColumns, put U.cons x.name.name (some ⟨x.bare, true⟩)⟩, ?_, ?_, fun j => ?_⟩
    · refine Run.one hn ?_
      have := Alter.addConstraint (d := d.setTable n U) (n := n) (T := U) x false (by rw [k2, if_neg hx', h2, if_neg hnew])
        (fits_now hc hx fun k hk => by
          rw [k1, withKey_isSome]
          exact midCols_isSome.2 hk)
      rwa [setTable_setTable] at this
    · simp only [k1, withKey_withKey]
      simp
    · simp only
      by_cases hj : j = x.name.name
      · subst hj
        rw [put_same, if_pos ⟨x, by simp, rfl⟩, tableOf_con hc.dist' hx]
      · have : (∃ c ∈ p ++ [x], c.name.name = j) ↔ ∃ c ∈ p, c.name.name = j := by
          simp only [List.mem_append, List.mem_singleton, or_and_right, exists_or, exists_eq_left, or_iff_left_iff_imp]
          exact fun h => absurd h.symm hj
        rw [put_ne _ _ hj, k2]; simp only [this]

theorem cols_final : withKey (midCols t t') (t.constraints.flatMap (replacedKey t') ++
    (onlyLeftConstraint t'.constraints t.constraints).flatMap Constraint.keyColumns) = (tableOf t').cols := by
  have hfwd : ∀ k, k ∈ t.constraints.flatMap (replacedKey t') ++ (onlyLeftConstraint t'.constraints t.constraints).flatMap Constraint.keyColumns →
      k ∈ t'.constraints.flatMap Constraint.keyColumns := by
    intro k hk
    simp only [List.mem_append, List.mem_flatMap] at hk ⊢
    rcases hk with ⟨c, hc1, hk⟩ | ⟨c, hc1, hk⟩
    · unfold replacedKey at hk
      split at hk
      · rename_i a hf
        split at hk
        · exact ⟨a, (findConstraint_some hf).1, hk⟩
        · cases hk
      · cases hk
    · rw [onlyLeft_eq hc, List.mem_filter] at hc1
      exact ⟨c, hc1.1, hk⟩
  have hbwd : ∀ k, k ∈ t'.constraints.flatMap Constraint.keyColumns →
      k ∈ t.constraints.flatMap (replacedKey t') ++ (onlyLeftConstraint t'.constraints t.constraints).flatMap Constraint.keyColumns ∨
        ∃ c ∈ t.constraints, HasConstraint t' c.name.name ∧ k ∈ c.keyColumns := by
    intro k hk
    simp only [List.mem_flatMap] at hk
    obtain ⟨a, ha, hk⟩ := hk
    cases hf : findConstraint a.name.name t.constraints with
    | none =>
      left
      simp only [List.mem_append, List.mem_flatMap]
      refine Or.inr ⟨a, ?_, hk⟩
      rw [onlyLeft_eq hc, List.mem_filter, hf]
      exact ⟨ha, rfl⟩
    | some c =>
      obtain ⟨hc1, hcn⟩ := findConstraint_some hf
      have hfa : findConstraint c.name.name t'.constraints = some a := by
        rw [hcn]
        exact find?_of_nodup (f := fun c : Constraint => c.name.name) hc.dist'.2 ha
      by_cases hd : c.diffStr = a.diffStr
      · right
        have hb : c.bare = a.bare := constraint_inj (hc.ok.2.2.2.2 c hc1) (hc.ok'.2.2.2.2 a ha) (hc.tame.2 c hc1).1 (hc.tame'.2 a ha).1 hcn hd
        refine ⟨c, hc1, ⟨a, ha, hcn.symm⟩, ?_⟩
        rw [← bare_keyColumns, hb, bare_keyColumns]
        exact hk
      · left
        simp only [List.mem_append, List.mem_flatMap]
        refine Or.inl ⟨c, hc1, ?_⟩
        unfold replacedKey
        rw [hfa]
        simpa [hd] using hk
  funext k
  generalize hL : t.constraints.flatMap (replacedKey t') ++ (onlyLeftConstraint t'.constraints t.constraints).flatMap Constraint.keyColumns = L
    at hfwd hbwd
  simp only [tableOf, withKey, midCols]
  have ef : t'.columns.find? (fun c => c.name.name == k) = findColumn k t'.columns := rfl
  rw [ef]
  cases hf : findColumn k t'.columns with
  | none => rfl
  | some a =>
    obtain ⟨ha, han⟩ := findColumn_some hf
    cases hf' : findColumn k t.columns with
    | none =>
      have hno := findColumn_none hf'
      simp only [Option.map_some, Option.some.injEq, Col.mk.injEq, true_and]
      congr 1
      rw [Bool.eq_iff_iff, List.contains_iff_mem, List.contains_iff_mem]
      refine ⟨hfwd k, fun h => ?_⟩
      rcases hbwd k h with h | ⟨c, hc1, _, hk⟩
      · exact h
      · exact absurd (hc.columns c hc1 k (keyColumns_columnNames hk)) hno
    | some b =>
      obtain ⟨hb, hbn⟩ := findColumn_some hf'
      simp only [Option.map_some, Option.some.injEq, colOf, Col.mk.injEq, true_and]
      rw [Bool.eq_iff_iff]
      simp only [Bool.or_eq_true, List.contains_iff_mem]
      have hlost := hc.lostNotNull b hb a ha (by rw [hbn, han])
      have hkey := hc.lostKey b hb a ha (by rw [hbn, han])
      rw [hbn] at hlost hkey
      unfold nnAfter
      cases hbb : b.notNull <;> cases haa : a.notNull <;> simp only [hbb, haa] at hlost hkey ⊢
      · simp only [Bool.not_false, Bool.and_true, Bool.false_eq_true, if_false, Bool.and_false, Bool.false_or,
          false_or, List.contains_iff_mem]
        constructor
        · rintro (h | h)
          · obtain ⟨p, hp, hk⟩ := List.mem_flatMap.1 h
            obtain ⟨p', hp', hk'⟩ := hkey trivial trivial p hp hk
            exact List.mem_flatMap.2 ⟨p', hp', hk'⟩
          · exact hfwd k h
        · intro h
          rcases hbwd k h with h | ⟨c, hc1, _, hk⟩
          · exact Or.inr h
          · exact Or.inl (List.mem_flatMap.2 ⟨c, hc1, hk⟩)
      · simp
      · simp only [Bool.not_false, Bool.and_true, if_true, Bool.false_eq_true, false_or]
        refine ⟨hfwd k, fun h => ?_⟩
        rcases hbwd k h with h | ⟨c, hc1, hc2, hk⟩
        · exact h
        · exact absurd hk (hlost trivial trivial c hc1 hc2)
      · simp

/-- The alterations turn the table into the one wanted. -/
theorem table_run : Run d n (tableOf t) (renameTable sd t.name t'.name ++ dropConstraints sd (renamedName t.name t'.name) t.constraints t'.constraints ++
    diffColumns sd (renamedName t.name t'.name) t.columns t'.columns ++
    replaceConstraints sd false (renamedName t.name t'.name) t.constraints t'.constraints ++
    addConstraints sd false (renamedName t.name t'.name) t.constraints t'.constraints) (tableOf t') := by
  have he : t.name.diffStr = t'.name.diffStr := by rw [hc.name, hc.name']
  have hn : (renamedName t.name t'.name).diffStr = n := by
    unfold renamedName
    rw [if_neg (by simp [he]), hc.name']
  rw [renameTable_same he, List.nil_append]
  obtain ⟨T1, r1, a1, a2⟩ := drop_phase (sd := sd) hc _ hn
  obtain ⟨T2, r2, b1, b2⟩ := column_phase (sd := sd) hc _ hn a1 a2
  obtain ⟨T3, r3, c1, c2⟩ := replace_phase (sd := sd) hc _ hn b2 (by rw [b1]; exact a2)
  obtain ⟨T4, r4, d1, d2⟩ := add_phase (sd := sd) hc _ hn c1 c2
  have : T4 = tableOf t' := by
    obtain ⟨cols, cons⟩ := T4
    simp only at d1 d2
    rw [d1, d2, cols_final hc]
  exact this ▸ ((r1.append r2).append r3).append r4

end
end Ddl.Pg.Db
