import Verif.Lemmas.Run
import Verif.Lemmas.CrdbSat

/-! # CockroachDB: executing the alterations of one table -/

namespace Ddl.Crdb.Run
open Ddl Spec
set_option autoImplicit false

/-! ## Equal texts, equal definitions -/

theorem type_inj {t t' : DataType} (h : Pg.TameParams t.expr) (h' : Pg.TameParams t'.expr) (e : t.diffStr = t'.diffStr) :
    t.bare = t'.bare := by
  obtain ⟨e1, e2⟩ := params_inj h h' e
  simp [DataType.bare, e1, e2]

theorem column_inj {i j : ColumnIdent} (hi : Pg.IsWord i.ident.name) (hj : Pg.IsWord j.ident.name) (e : i.diffStr = j.diffStr) :
    i.bare = j.bare := by
  have key : ∀ i : ColumnIdent, i.diffStr = i.ident.name ++ ' ' :: (if i.order = some true then s%"DESC" else s%"ASC") := by
    intro i
    simp only [ColumnIdent.diffStr, Ident.diffStr]
    split <;> rfl
  rw [key, key] at e
  obtain ⟨e1, e2⟩ := append_sep_inj hi.not_mem.1 hj.not_mem.1 e
  simp only [ColumnIdent.bare, Ident.bare, e1]
  congr 2
  by_cases h1 : i.order = some true <;> by_cases h2 : j.order = some true <;> simp [h1, h2] at e2 ⊢

theorem columnDiff_plain {i : ColumnIdent} (h : Pg.IsWord i.ident.name) : i.diffStr ≠ [] ∧ ',' ∉ i.diffStr ∧ ')' ∉ i.diffStr := by
  have h1 := h.1
  have h2 := h.not_mem
  simp only [ColumnIdent.diffStr, Ident.diffStr]
  refine ⟨by simp [h1], ?_, ?_⟩ <;> rw [List.mem_append, not_or] <;> refine ⟨by tauto, ?_⟩ <;> split <;> decide

theorem columns_inj {l l' : List ColumnIdent} (h : ∀ i ∈ l, Pg.IsWord i.ident.name) (h' : ∀ i ∈ l', Pg.IsWord i.ident.name)
    (e : columnsDiffStr l = columnsDiffStr l') : l.map ColumnIdent.bare = l'.map ColumnIdent.bare := by
  have m : ∀ {l : List ColumnIdent}, (∀ i ∈ l, Pg.IsWord i.ident.name) → ∀ a ∈ l.map ColumnIdent.diffStr, a ≠ [] ∧ ',' ∉ a := by
    intro l h a ha
    obtain ⟨i, hi, rfl⟩ := List.mem_map.1 ha
    exact ⟨(columnDiff_plain (h i hi)).1, (columnDiff_plain (h i hi)).2.1⟩
  have := join_comma_inj (m h) (m h') e
  clear e m
  induction l generalizing l' with
  | nil =>
    cases l' with
    | nil => rfl
    | cons => cases this
  | cons i l ih =>
    cases l' with
    | nil => cases this
    | cons j l' =>
      simp only [List.map_cons, List.cons.injEq] at this ⊢
      exact ⟨column_inj (h i (by simp)) (h' j (by simp)) this.1,
        ih (fun x hx => h x (by simp [hx])) (fun x hx => h' x (by simp [hx])) this.2⟩

theorem columns_close {l : List ColumnIdent} (h : ∀ i ∈ l, Pg.IsWord i.ident.name) : ')' ∉ columnsDiffStr l := by
  refine join_comma_close ?_
  intro a ha
  obtain ⟨i, hi, rfl⟩ := List.mem_map.1 ha
  exact (columnDiff_plain (h i hi)).2.2

theorem constraint_inj {b a : Constraint} (tb : b.Tame) (ta : a.Tame) (hn : b.name.name = a.name.name)
    (e : b.diffStr = a.diffStr) : defOf b = defOf a := by
  cases b with
  | primaryKey n cs =>
    cases a with
    | primaryKey n' cs' =>
      simp only [Constraint.name] at hn
      simp only [Constraint.diffStr, Ident.diffStr, hn, List.append_assoc, List.append_cancel_left_eq, List.append_cancel_right_eq] at e
      simp only [defOf, Constraint.bare, Ident.bare, hn, columns_inj tb ta e]
    | foreignKey n' cs' r rcs act =>
      simp only [Constraint.name] at hn
      simp [Constraint.diffStr, Ident.diffStr, hn] at e
    | index n' uq pre cs' post => cases uq <;> simp [Constraint.diffStr] at e
    | check n' x =>
      simp only [Constraint.name] at hn
      simp [Constraint.diffStr, Ident.diffStr, hn] at e
  | foreignKey n cs r rcs act =>
    cases a with
    | primaryKey n' cs' =>
      simp only [Constraint.name] at hn
      simp [Constraint.diffStr, Ident.diffStr, hn] at e
    | foreignKey n' cs' r' rcs' act' =>
      simp only [Constraint.name] at hn
      simp only [Constraint.diffStr, Ident.diffStr, hn, List.append_assoc, List.append_cancel_left_eq] at e
      simp only [List.cons_append, List.nil_append] at e
      obtain ⟨e1, e2⟩ := append_sep_inj (columns_close tb.1) (columns_close ta.1) e
      simp only [List.cons.injEq, true_and] at e2
      obtain ⟨e3, e4⟩ := append_sep_inj tb.2.1.not_mem.1 ta.2.1.not_mem.1 e2
      simp only [List.cons.injEq, true_and] at e4
      obtain ⟨e5, e6⟩ := append_sep_inj (columns_close tb.2.2) (columns_close ta.2.2) e4
      have e7 : act = act' := by
        by_cases h : act = [] <;> by_cases h' : act' = [] <;> simp [h, h'] at e6
        · rw [h, h']
        · exact e6
      simp only [defOf, Constraint.bare, Ident.bare, hn, e3, columns_inj tb.1 ta.1 e1, columns_inj tb.2.2 ta.2.2 e5, e7]
    | index n' uq pre cs' post => cases uq <;> simp [Constraint.diffStr] at e
    | check n' x =>
      simp only [Constraint.name] at hn
      simp [Constraint.diffStr, Ident.diffStr, hn] at e
  | index n uq pre cs post =>
    cases a with
    | primaryKey n' cs' => cases uq <;> simp [Constraint.diffStr] at e
    | foreignKey n' cs' r rcs act => cases uq <;> simp [Constraint.diffStr] at e
    | index n' uq' pre' cs' post' =>
      simp only [Constraint.name] at hn
      have hu : uq = uq' := by
        cases uq <;> cases uq' <;> simp [Constraint.diffStr] at e ⊢
      subst hu
      simp only [Constraint.diffStr, Ident.diffStr, hn, List.append_assoc, List.append_cancel_left_eq] at e
      simp only [List.cons_append, List.nil_append] at e
      obtain ⟨e1, e2⟩ := append_sep_inj tb.1 ta.1 e
      obtain ⟨e3, e4⟩ := append_sep_inj (columns_close tb.2) (columns_close ta.2) e2
      simp only [defOf, e1, e4, columns_inj tb.2 ta.2 e3]
    | check n' x => cases uq <;> simp [Constraint.diffStr] at e
  | check n x =>
    cases a with
    | primaryKey n' cs' =>
      simp only [Constraint.name] at hn
      simp [Constraint.diffStr, Ident.diffStr, hn] at e
    | foreignKey n' cs' r rcs act =>
      simp only [Constraint.name] at hn
      simp [Constraint.diffStr, Ident.diffStr, hn] at e
    | index n' uq pre cs' post => cases uq <;> simp [Constraint.diffStr] at e
    | check n' x' =>
      simp only [Constraint.name] at hn
      simp only [Constraint.diffStr, Ident.diffStr, hn, List.append_assoc, List.append_cancel_left_eq] at e
      simp only [defOf, Constraint.bare, Ident.bare, hn]
      rw [show x.map Ident.bare = x'.map Ident.bare from words_inj tb ta e]

/-! ## Columns -/

section
variable {sd : Str → Str → Str} {tn : ObjectName}

/-- The statements of `ALTER TABLE` actions. -/
abbrev stmts (l : List AlterTable) : List CStmt := l.map Stmt.alterTable

theorem step_alter {T T' : Tbl} {cm : Str} {act : Action} (hn : tn.diffStr = T.name) (h : Alter T act T') :
    Runs Step (some T) (stmts [⟨cm, tn, act⟩]) (some T') := Runs.one (.alterTable T T' cm tn act hn h)

theorem alterColumn_runs {b a : Column} (tb : b.Tame) (ta : a.Tame) (hn : a.name.name = b.name.name)
    (hv : b.notVisible = a.notVisible ∧ b.as_.map As.bare = a.as_.map As.bare) {T : Tbl} (ht : tn.diffStr = T.name)
    (hc : T.cols b.name.name = some (colOf b)) :
    Runs Step (some T) (stmts (alterColumn sd tn b a)) (some { T with cols := upd T.cols b.name.name (some (colOf a)) }) := by
  simp only [alterColumn, stmts, List.map_append]
  have h1 : Runs Step (some T) (stmts (if b.dataType.diffStr ≠ a.dataType.diffStr then
      [⟨sd b.str a.str, tn, .setDataType a.name a.dataType⟩] else []))
      (some { T with cols := upd T.cols b.name.name (some { colOf b with type := a.dataType.bare }) }) := by
    split
    · refine step_alter ht ?_
      have := Alter.setDataType (T := T) a.name a.dataType (colOf b) (by rw [hn, hc])
      rwa [hn] at this
    · rename_i h
      simp only [ne_eq, not_not] at h
      have : ({ colOf b with type := a.dataType.bare } : Col) = colOf b := by
        simp only [colOf, type_inj tb.1 ta.1 h]
      rw [this, upd_self _ hc]
      exact .nil _
  have h2 : Runs Step (some { T with cols := upd T.cols b.name.name (some { colOf b with type := a.dataType.bare }) })
      (stmts (if b.default.isSome ∧ a.default.isNone then [⟨sd b.str a.str, tn, .dropDefault a.name⟩]
        else if a.default.isSome ∧ defaultDiffStr b.default ≠ defaultDiffStr a.default then
          [⟨sd b.str a.str, tn, .setDefault a.name a.default⟩] else []))
      (some { T with cols := upd T.cols b.name.name (some { colOf a with notNull := b.notNull }) }) := by
    split
    · rename_i h
      refine step_alter ht ?_
      have := Alter.dropDefault (T := { T with cols := upd T.cols b.name.name (some { colOf b with type := a.dataType.bare }) })
        a.name { colOf b with type := a.dataType.bare } (by simp [hn])
      have hd : a.default = none := by simpa using h.2
      simpa [hn, upd_upd, colOf, hd, hv.1, hv.2] using this
    · rename_i h0
      split
      · refine step_alter ht ?_
        have := Alter.setDefault (T := { T with cols := upd T.cols b.name.name (some { colOf b with type := a.dataType.bare }) })
          a.name a.default { colOf b with type := a.dataType.bare } (by simp [hn])
        simpa [hn, upd_upd, colOf, hv.1, hv.2] using this
      · rename_i h1
        have hd : b.default.map Default.bare = a.default.map Default.bare := by
          have tb' := tb.2
          have ta' := ta.2
          rcases hbd : b.default with _ | ⟨_ | be⟩
          · rcases had : a.default with _ | ⟨_ | ae⟩
            · rfl
            · exact absurd had ta'.2
            · simp [hbd, had, defaultDiffStr] at h1
          · exact absurd hbd tb'.2
          · rcases had : a.default with _ | ⟨_ | ae⟩
            · simp [hbd, had] at h0
            · exact absurd had ta'.2
            · simp only [hbd, had, defaultDiffStr, Option.isSome_some, true_and, ne_eq, not_not,
                List.append_cancel_left_eq] at h1
              simp [Default.bare, words_inj (tb'.1 _ hbd) (ta'.1 _ had) h1]
        have : ({ colOf b with type := a.dataType.bare } : Col) = { colOf a with notNull := b.notNull } := by
          simp [colOf, hd, hv.1, hv.2]
        rw [this]
        exact .nil _
  refine (h1.append h2).append ?_
  split
  · rename_i h
    refine step_alter ht ?_
    have := Alter.dropNotNull (T := { T with cols := upd T.cols b.name.name (some { colOf a with notNull := b.notNull }) })
      a.name { colOf a with notNull := b.notNull } (by simp [hn])
    have hd : a.notNull = false := by simpa using h.2
    simpa [hn, upd_upd, colOf, hd] using this
  · rename_i h0
    split
    · rename_i h
      refine step_alter ht ?_
      have := Alter.setNotNull (T := { T with cols := upd T.cols b.name.name (some { colOf a with notNull := b.notNull }) })
        a.name { colOf a with notNull := b.notNull } (by simp [hn])
      simpa [hn, upd_upd, colOf, h.2] using this
    · rename_i h1
      have hd : b.notNull = a.notNull := by
        revert h0 h1
        cases b.notNull <;> cases a.notNull <;> simp
      rw [hd]
      exact .nil _

/-- The names of columns. -/
abbrev colKey (c : Column) : Str := c.name.name

theorem diffColumns_runs {t t' : CreateTable} (g : Good t) (g' : Good t') (hz : NoHazard t t') {T : Tbl} (ht : tn.diffStr = T.name)
    (hcols : T.cols = (tableOf t).cols)
    (hcons : ∀ c ∈ t.columns, (∀ c' ∈ t'.columns, c'.name.name ≠ c.name.name) → ∀ j p, T.cons j = some p → c.name.name ∉ p.definition.mentions) :
    Runs Step (some T) (stmts (diffColumns sd tn t.columns t'.columns)) (some { T with cols := (tableOf t').cols }) := by
  simp only [diffColumns]
  rw [show stmts (t.columns.flatMap (columnRound sd tn t'.columns) ++ (onlyLeftColumn t'.columns t.columns).map fun c => ⟨sd [] c.str, tn, .addColumn c⟩) =
    t.columns.flatMap (fun b => stmts (columnRound sd tn t'.columns b)) ++
    (onlyLeftColumn t'.columns t.columns).flatMap (fun c => stmts [⟨sd [] c.str, tn, .addColumn c⟩]) by
      simp only [stmts, List.map_append, List.map_flatMap, List.map_map, List.map_cons, List.map_nil]
      rw [← List.map_eq_flatMap]
      rfl]
  have hadd : ∀ x, x ∈ onlyLeftColumn t'.columns t.columns ↔ x ∈ t'.columns ∧ colKey x ∉ t.columns.map colKey := by
    intro x
    rw [Crdb.onlyLeftColumn_eq, List.mem_filter]
    simp [colKey]
  have hnd : ((onlyLeftColumn t'.columns t.columns).map colKey).Nodup :=
    (g'.distinct.1).sublist ((List.filter_sublist).map _)
  have r1 := runs_each (step := Step) (key := colKey) (fun b => stmts (columnRound sd tn t'.columns b))
    (fun b => (t'.columns.find? (fun y => colKey y == colKey b)).map colOf) (fun m => some { T with cols := m })
    t.columns T.cols g.distinct.1 (by
      intro b hb m' hm'
      have hm : m' b.name.name = some (colOf b) := by
        rw [hm', hcols]
        simp only [tableOf, find?_of_nodup (f := fun c : Column => c.name.name) g.distinct.1 hb, Option.map_some]
      simp only [columnRound, findColumn]
      cases hf : t'.columns.find? (fun c => c.name.name == b.name.name) with
      | none =>
        have hgone : ∀ c' ∈ t'.columns, c'.name.name ≠ b.name.name := by
          intro c' hc' e
          have := List.find?_eq_none.1 hf c' hc'
          simp [e] at this
        have hvis : ¬ (b.notVisible = true ∧ b.as_.any (fun a => a.type = some .VIRTUAL) = true) := by
          rintro ⟨h1, h2⟩
          refine hz.hidden b hb hgone ⟨h1, ?_⟩
          cases ha : b.as_ with
          | none => simp [ha] at h2
          | some x => exact ⟨x, rfl, by simpa [ha] using h2⟩
        simp only [colKey, Option.map_none, if_neg hvis]
        refine step_alter ht (Alter.dropColumn (T := { T with cols := m' }) b.name (by simp [hm]) ?_)
        intro j p hp
        exact hcons b hb hgone j p hp
      | some a =>
        simp only [colKey, Option.map_some]
        have ha := List.mem_of_find?_eq_some hf
        have he : a.name.name = b.name.name := by simpa using List.find?_some hf
        exact alterColumn_runs (g.columnsTame b hb) (g'.columnsTame a ha) he (hz.computed b hb a ha he.symm) (T := { T with cols := m' }) ht hm)
  have r2 := runs_each (step := Step) (key := colKey) (fun c => stmts [⟨sd [] c.str, tn, .addColumn c⟩])
    (fun c => some (colOf c)) (fun m => some { T with cols := m }) (onlyLeftColumn t'.columns t.columns)
    (over colKey t.columns (fun b => (t'.columns.find? (fun y => colKey y == colKey b)).map colOf) T.cols) hnd (by
      intro c hc m' hm'
      refine step_alter ht (Alter.addColumn (T := { T with cols := m' }) c ?_)
      have hk := ((hadd c).1 hc).2
      have : m' c.name.name = none := by
        rw [show m' c.name.name = m' (colKey c) from rfl, hm', over_not_mem _ _ hk, hcols]
        simp only [tableOf]
        rw [show t.columns.find? (fun x => x.name.name == colKey c) = none from find?_congr_key.2 hk]
        rfl
      exact this)
  have e := over_total (g := colOf) (b := t.columns) (a := t'.columns) (key := colKey) g'.distinct.1 hnd hadd
  rw [hcols] at r2
  rw [show (tableOf t).cols = fun k => (t.columns.find? (fun x => colKey x == k)).map colOf from rfl, e] at r2
  rw [hcols] at r1
  have r := r1.append r2
  rw [show (fun k => (t'.columns.find? (fun x => colKey x == k)).map colOf) = (tableOf t').cols from rfl] at r
  convert r using 2
  rw [← hcols]

/-! ## Constraints -/

/-- The names of constraints. -/
abbrev conKey (c : Constraint) : Str := c.name.name

/-- A constraint of the table. -/
abbrev conOf (c : Constraint) : Con := ⟨defOf c, true⟩

theorem defOf_mentions (c : Constraint) : (defOf c).mentions = c.mentions := by
  cases c <;> simp [defOf, Def.mentions, Constraint.bare, Constraint.mentions, Ident.bare, ColumnIdent.bare, Function.comp_def]

theorem rename_runs {t t' : CreateTable} (hs : t'.name.schema = none → t.name.schema = none) :
    renamedName t.name t'.name = t'.name ∧
    Runs Step (some (tableOf t)) (stmts (renameTable sd t.name t'.name)) (some { tableOf t with name := t'.name.diffStr }) := by
  have h : renamedName t.name t'.name = t'.name := by
    unfold renamedName
    split
    · rename_i h
      rw [hs h.2, ← h.2]
    · rfl
  refine ⟨h, ?_⟩
  rw [renameTable, h]
  split
  · exact step_alter rfl (Alter.renameTable _)
  · rename_i e
    simp only [ne_eq, not_not] at e
    rw [show ({ tableOf t with name := t'.name.diffStr } : Tbl) = tableOf t by rw [← e]; rfl]
    exact .nil _

/-- The statement that drops a constraint or an index. -/
abbrev dropStmt (cm cm' : Str) (tn : ObjectName) (b : Constraint) (n : Ident) : CStmt :=
  match b with
  | .index .. => .dropIndex cm false n
  | _ => .alterTable ⟨cm', tn, .dropConstraint n⟩

theorem drop_step {T : Tbl} {b k : Constraint} {cm cm' : Str} (ht : tn.diffStr = T.name) (hk : b.IsIndex ↔ k.IsIndex)
    (h : T.cons b.name.name = some (conOf b)) :
    Step (some T) (dropStmt cm cm' tn k b.name) (some { T with cons := upd T.cons b.name.name none }) := by
  cases b with
  | index n uq pre cs post =>
    cases k with
    | index => exact .dropIndex _ _ _ _ _ _ _ _ _ h
    | _ => exact (hk.1 trivial).elim
  | _ =>
    cases k with
    | index => exact (hk.2 trivial).elim
    | _ => exact .alterTable _ _ _ _ _ ht (.dropConstraint _ _ _ h)

/-- The statement that adds a constraint or an index. -/
abbrev addStmt (cm cm' : Str) (tn : ObjectName) (a : Constraint) : CStmt :=
  match a with
  | .index n uq pre cs post => indexStmt cm tn n uq pre cs post
  | a => .alterTable ⟨cm', tn, .addConstraint a false⟩

theorem add_step {T : Tbl} {a : Constraint} {cm cm' : Str} (ht : tn.diffStr = T.name) (h : T.cons a.name.name = none)
    (hc : ∀ x ∈ a.columnNames, (T.cols x).isSome) :
    Step (some T) (addStmt cm cm' tn a) (some { T with cons := upd T.cons a.name.name (some (conOf a)) }) := by
  cases a with
  | index n uq pre cs post =>
    exact Step.createIndex T ⟨cm, uq, false, n, tn, pre, cs, post⟩ ht h (fun x hx => hc _ (List.mem_map_of_mem hx))
  | _ => exact .alterTable _ _ _ _ _ ht (.addConstraint _ false (fun h => h) h hc)

theorem onlyLeft_iff {l r : List Constraint} (hl : (l.map conKey).Nodup) :
    ((onlyLeftConstraint l r).map conKey).Nodup ∧
    ∀ x, x ∈ onlyLeftConstraint l r ↔ x ∈ l ∧ conKey x ∉ r.map conKey := by
  obtain ⟨h1, h2⟩ := Crdb.onlyLeftConstraint_spec (l := l) (r := r)
  refine ⟨?_, ?_⟩
  · have : NodupNames (onlyLeftConstraint l r) := NodupNames.foldl (by simp [NodupNames]) _
    exact this
  · intro x
    constructor
    · intro hx
      exact h1 x hx
    · rintro ⟨hx, hk⟩
      obtain ⟨k, hk1, hk2⟩ := h2 x hx hk
      have : k = x := List.inj_on_of_nodup_map hl (h1 k hk1).1 hx hk2
      rwa [← this]

theorem diffTable_runs {t t' : CreateTable} (g : Good t) (g' : Good t') (hz : NoHazard t t')
    (hs : t'.name.schema = none → t.name.schema = none) :
    Runs Step (some (tableOf t)) ((renameTable sd t.name t'.name).map Stmt.alterTable ++
      dropConstraints sd (renamedName t.name t'.name) t.constraints t'.constraints ++
      (diffColumns sd (renamedName t.name t'.name) t.columns t'.columns).map Stmt.alterTable ++
      replaceConstraints sd false (renamedName t.name t'.name) t.constraints t'.constraints ++
      addConstraints sd false (renamedName t.name t'.name) t.constraints t'.constraints) (some (tableOf t')) := by
  obtain ⟨hn, r0⟩ := rename_runs (sd := sd) hs
  rw [hn]
  have kb : (t.constraints.map conKey).Nodup := g.distinct.2
  have ka : (t'.constraints.map conKey).Nodup := g'.distinct.2
  generalize htn : t'.name = tn at *
  obtain ⟨hnd, hadd⟩ := onlyLeft_iff (l := t'.constraints) (r := t.constraints) ka
  let T0 : Tbl := { tableOf t with name := tn.diffStr }
  have hT0 : T0.cons = fun k => (t.constraints.find? (fun c => conKey c == k)).map conOf := rfl
  let newD : Constraint → Option Con := fun b =>
    if conKey b ∈ t'.constraints.map conKey then some (conOf b) else none
  have r1 := runs_each (step := Step) (key := conKey) (fun b : Constraint =>
      match findConstraint b.name.name t'.constraints with
      | none =>
        match b with
        | .index .. => [(.dropIndex (sd b.diffStr []) false b.name : CStmt)]
        | _ => [.alterTable ⟨sd b.str [], tn, .dropConstraint b.name⟩]
      | some _ => []) newD (fun m => some { T0 with cons := m })
    t.constraints T0.cons kb (by
      intro b hb m' hm'
      have hm : m' (conKey b) = some (conOf b) := by
        rw [hm', hT0]
        simp only [find?_of_nodup (f := conKey) kb hb, Option.map_some]
      simp only [findConstraint, newD]
      cases hf : t'.constraints.find? (fun c => c.name.name == b.name.name) with
      | none =>
        rw [if_neg (find?_congr_key.1 hf)]
        have := Runs.one (step := Step) (drop_step (T := { T0 with cons := m' }) (b := b) (k := b) (cm := sd b.diffStr []) (cm' := sd b.str []) (tn := tn) rfl Iff.rfl hm)
        cases b <;> exact this
      | some a =>
        have : conKey b ∈ t'.constraints.map conKey :=
          List.mem_map.2 ⟨a, List.mem_of_find?_eq_some hf, by simpa using List.find?_some hf⟩
        rw [if_pos this, upd_self _ hm]
        exact .nil _)
  let T1 : Tbl := { T0 with cons := over conKey t.constraints newD T0.cons }
  have r2 := diffColumns_runs (sd := sd) (tn := tn) g g' hz (T := T1) rfl rfl (by
    intro c hc hgone j p hp
    have hj : j ∈ t.constraints.map conKey := by
      by_contra hj
      simp only [T1] at hp
      rw [over_not_mem _ _ hj, hT0] at hp
      simp only [find?_congr_key.2 hj] at hp
      cases hp
    obtain ⟨b, hb, rfl⟩ := List.mem_map.1 hj
    simp only [T1] at hp
    rw [over_mem kb _ _ hb] at hp
    simp only [newD] at hp
    split at hp
    · rename_i hmem
      cases hp
      obtain ⟨a, ha', e⟩ := List.mem_map.1 hmem
      rw [defOf_mentions]
      exact hz.dropped c hc hgone b hb a ha' e.symm
    · cases hp)
  let T2 : Tbl := { T1 with cols := (tableOf t').cols }
  let newR : Constraint → Option Con := fun b => (t'.constraints.find? (fun y => conKey y == conKey b)).map conOf
  have hfit : ∀ a ∈ t'.constraints, ∀ x ∈ a.columnNames, ((tableOf t').cols x).isSome := by
    intro a ha' x hx
    obtain ⟨c, hc, rfl⟩ := g'.columns a ha' x hx
    simp only [tableOf, find?_of_nodup (f := fun c : Column => c.name.name) g'.distinct.1 hc, Option.map_some, Option.isSome_some]
  have r3 := runs_each (step := Step) (key := conKey) (fun b : Constraint =>
      match findConstraint b.name.name t'.constraints with
      | none => []
      | some a =>
        if b.diffStr ≠ a.diffStr then
          match a with
          | .index n uq pre cs post => [(.dropIndex (sd b.str a.str) false b.name : CStmt), indexStmt [] tn n uq pre cs post]
          | _ => [.alterTable ⟨sd b.str [], tn, .dropConstraint b.name⟩, .alterTable ⟨sd [] a.str, tn, .addConstraint a false⟩]
        else []) newR (fun m => some { T2 with cons := m })
    t.constraints T2.cons kb (by
      intro b hb m' hm'
      have hm : m' (conKey b) = newD b := by
        rw [hm']
        exact over_mem kb _ _ hb
      simp only [findConstraint, newR]
      cases hf : t'.constraints.find? (fun c => c.name.name == b.name.name) with
      | none =>
        simp only [newD, if_neg (find?_congr_key.1 hf)] at hm
        rw [Option.map_none, upd_self _ hm]
        exact .nil _
      | some a =>
        have ha' := List.mem_of_find?_eq_some hf
        have he : a.name.name = b.name.name := by simpa using List.find?_some hf
        have hin : conKey b ∈ t'.constraints.map conKey := List.mem_map.2 ⟨a, ha', he⟩
        simp only [newD, if_pos hin] at hm
        simp only [Option.map_some]
        split
        · have s1 := drop_step (T := { T2 with cons := m' }) (b := b) (k := a) (cm := sd b.str a.str) (cm' := sd b.str []) (tn := tn) rfl
            (hz.kind b hb a ha' he.symm) hm
          have s2 := add_step (T := { T2 with cons := upd m' b.name.name none }) (a := a) (cm := []) (cm' := sd [] a.str) (tn := tn) rfl
            (by rw [he]; simp) (hfit a ha')
          have := (Runs.one s1).append (Runs.one s2)
          simp only [he, upd_upd] at this
          cases a <;> exact this
        · rename_i heq
          simp only [ne_eq, not_not] at heq
          have : conOf b = conOf a := by
            simp only [conOf, constraint_inj (g.constraintsTame b hb) (g'.constraintsTame a ha') he.symm heq]
          rw [upd_self _ (by rw [hm, this])]
          exact .nil _)
  let T3 : Tbl := { T2 with cons := over conKey t.constraints newR T2.cons }
  have r4 := runs_each (step := Step) (key := conKey) (fun c : Constraint => [
      match c with
      | .index n uq pre cs post => indexStmt (sd [] c.diffStr) tn n uq pre cs post
      | _ => .alterTable ⟨sd [] c.str, tn, .addConstraint c false⟩]) (fun c => some (conOf c)) (fun m => some { T3 with cons := m })
    (onlyLeftConstraint t'.constraints t.constraints) T3.cons hnd (by
      intro c hc m' hm'
      obtain ⟨hc1, hc2⟩ := (hadd c).1 hc
      have h0 : m' (conKey c) = none := by
        rw [hm']
        simp only [T3, T2, T1]
        rw [over_over, over_not_mem _ _ hc2, hT0]
        simp only [find?_congr_key.2 hc2, Option.map_none]
      have := Runs.one (add_step (T := { T3 with cons := m' }) (a := c) (cm := sd [] c.diffStr) (cm' := sd [] c.str) (tn := tn) rfl h0 (hfit c hc1))
      cases c <;> exact this)
  have e4 : over conKey (onlyLeftConstraint t'.constraints t.constraints) (fun c => some (conOf c)) T3.cons = (tableOf t').cons := by
    simp only [T3, T2, T1]
    rw [over_over, hT0]
    exact over_total ka hnd hadd
  rw [e4] at r4
  have hfin : ({ T3 with cons := (tableOf t').cons } : Tbl) = tableOf t' := by
    simp only [T3, T2, T1, T0, ← htn]
    rfl
  rw [hfin] at r4
  have := (((r0.append r1).append r2).append r3).append r4
  rw [← List.map_eq_flatMap] at this
  exact this

theorem diff_runs {b a : Option CreateTable} (hb : ∀ t, b = some t → Good t) (ha : ∀ t, a = some t → Good t)
    (hz : ∀ t t', b = some t → a = some t' → NoHazard t t' ∧ (t'.name.schema = none → t.name.schema = none)) {l : List CStmt}
    (h : diffCreateTable sd false b a = .ok l) : Runs Step (b.map tableOf) l (a.map tableOf) := by
  cases b with
  | none =>
    cases a with
    | none => cases h
    | some a => cases h; exact Runs.one (.createTable a)
  | some b =>
    cases a with
    | none => cases h; exact Runs.one (.dropTable _ _ _ _ rfl)
    | some a =>
      rw [(Crdb.diffTable_ok h).1]
      exact diffTable_runs (hb b rfl) (ha a rfl) (hz b a rfl rfl).1 (hz b a rfl rfl).2

theorem diff_same {b a : CreateTable} (hb : Good b) (ha : Good a) (hz : NoHazard b a)
    (hs : a.name.schema = none → b.name.schema = none) {e : Err} (hne : b.str ≠ a.str)
    (h : diffCreateTable sd false (some b) (some a) = .err e) : tableOf b = tableOf a := by
  have run := diffTable_runs (sd := sd) hb ha hz hs
  simp only [diffCreateTable, if_neg hne] at h
  split at h
  · rename_i hnil
    rw [List.isEmpty_iff] at hnil
    rw [hnil] at run
    generalize hx : some (tableOf b) = x at run
    generalize hy : some (tableOf a) = y at run
    cases run
    exact Option.some.inj (hx.trans hy.symm)
  · cases h

end
end Ddl.Crdb.Run
