import Verif.Lemmas.Run
import Verif.Lemmas.MySat

/-! # MySQL: executing the alterations of one table -/

namespace Ddl.My.Run
open Ddl Spec
set_option autoImplicit false

/-! ## Equal texts, equal definitions -/

theorem type_inj {t t' : DataType} (h : Pg.TameParams t.expr) (h' : Pg.TameParams t'.expr) (e : t.diffStr = t'.diffStr) :
    t.bare = t'.bare := by
  obtain ⟨e1, e2⟩ := params_inj h h' e
  simp [DataType.bare, e1, e2]

theorem column_inj {i j : ColumnIdent} (hi : Pg.IsWord i.ident.name) (hj : Pg.IsWord j.ident.name) (e : i.diffStr = j.diffStr) :
    i.bare = j.bare := by
  have e' : i.diffStr ++ [' '] = j.diffStr ++ [' '] := by rw [e]
  have key : ∀ i : ColumnIdent, i.diffStr ++ [' '] = i.ident.name ++ ' ' :: (if i.order = some true then s%"DESC " else []) := by
    intro i
    simp only [ColumnIdent.diffStr, Ident.diffStr]
    split <;> simp
  rw [key, key] at e'
  obtain ⟨e1, e2⟩ := append_sep_inj hi.not_mem.1 hj.not_mem.1 e'
  simp only [ColumnIdent.bare, Ident.bare, e1]
  congr 2
  by_cases h1 : i.order = some true <;> by_cases h2 : j.order = some true <;> simp [h1, h2] at e2 ⊢

theorem columnDiff_plain {i : ColumnIdent} (h : Pg.IsWord i.ident.name) : i.diffStr ≠ [] ∧ ',' ∉ i.diffStr ∧ ')' ∉ i.diffStr := by
  have h1 := h.1
  have h2 := h.not_mem
  simp only [ColumnIdent.diffStr, Ident.diffStr]
  refine ⟨by simp [h1], ?_, ?_⟩ <;> rw [List.mem_append, not_or] <;> refine ⟨by tauto, ?_⟩ <;> split <;> decide

theorem columns_inj {l l' : List ColumnIdent} (h : ∀ i ∈ l, Pg.IsWord i.ident.name) (h' : ∀ i ∈ l', Pg.IsWord i.ident.name)
    (e : columnsDiffStr l = columnsDiffStr l') : l.map ColumnIdent.bare = l'.map ColumnIdent.bare := by
  have m : ∀ {l : List ColumnIdent}, (∀ i ∈ l, Pg.IsWord i.ident.name) → ∀ a ∈ l.map ColumnIdent.diffStr, a ≠ [] ∧ ',' ∉ a := by
    intro l h a ha
    obtain ⟨i, hi, rfl⟩ := List.mem_map.1 ha
    exact ⟨(columnDiff_plain (h i hi)).1, (columnDiff_plain (h i hi)).2.1⟩
  have := join_comma_inj (m h) (m h') e
  clear e m
  induction l generalizing l' with
  | nil =>
    cases l' with
    | nil => rfl
    | cons => cases this
  | cons i l ih =>
    cases l' with
    | nil => cases this
    | cons j l' =>
      simp only [List.map_cons, List.cons.injEq] at this ⊢
      exact ⟨column_inj (h i (by simp)) (h' j (by simp)) this.1,
        ih (fun x hx => h x (by simp [hx])) (fun x hx => h' x (by simp [hx])) this.2⟩

theorem columns_close {l : List ColumnIdent} (h : ∀ i ∈ l, Pg.IsWord i.ident.name) : ')' ∉ columnsDiffStr l := by
  refine join_comma_close ?_
  intro a ha
  obtain ⟨i, hi, rfl⟩ := List.mem_map.1 ha
  exact (columnDiff_plain (h i hi)).2.2

theorem constraint_inj {b a : Constraint} (tb : b.Tame) (ta : a.Tame) (hn : b.name.name = a.name.name) (hact : b.action = a.action)
    (e : b.diffStr = a.diffStr) : b.bare = a.bare := by
  cases b with
  | primaryKey n cs =>
    cases a with
    | primaryKey n' cs' =>
      simp only [Constraint.name] at hn
      simp only [Constraint.diffStr, List.append_assoc, List.append_cancel_left_eq, List.append_cancel_right_eq] at e
      simp only [Constraint.bare, Ident.bare, hn, columns_inj tb ta e]
    | foreignKey n' cs' r rcs act => simp [Constraint.diffStr] at e
    | index n' uq cs' => cases uq <;> simp [Constraint.diffStr] at e
    | check n' x => simp [Constraint.diffStr] at e
  | foreignKey n cs r rcs act =>
    cases a with
    | primaryKey n' cs' => simp [Constraint.diffStr] at e
    | foreignKey n' cs' r' rcs' act' =>
      simp only [Constraint.name] at hn
      simp only [Constraint.action] at hact
      simp only [Constraint.diffStr, Ident.diffStr, hn, List.append_assoc, List.append_cancel_left_eq] at e
      simp only [List.cons_append, List.nil_append] at e
      obtain ⟨e1, e2⟩ := append_sep_inj (columns_close tb.1) (columns_close ta.1) e
      simp only [List.cons.injEq, true_and] at e2
      obtain ⟨e3, e4⟩ := append_sep_inj tb.2.1.not_mem.1 ta.2.1.not_mem.1 e2
      simp only [List.cons.injEq, true_and] at e4
      obtain ⟨e5, e6⟩ := append_sep_inj (columns_close tb.2.2) (columns_close ta.2.2) e4
      simp only [Constraint.bare, Ident.bare, hn, e3, columns_inj tb.1 ta.1 e1, columns_inj tb.2.2 ta.2.2 e5, hact]
    | index n' uq cs' => cases uq <;> simp [Constraint.diffStr] at e
    | check n' x =>
      simp only [Constraint.name] at hn
      simp [Constraint.diffStr, Ident.diffStr, hn] at e
  | index n uq cs =>
    cases a with
    | primaryKey n' cs' => cases uq <;> simp [Constraint.diffStr] at e
    | foreignKey n' cs' r rcs act => cases uq <;> simp [Constraint.diffStr] at e
    | index n' uq' cs' =>
      simp only [Constraint.name] at hn
      have hu : uq = uq' := by
        cases uq <;> cases uq' <;> simp [Constraint.diffStr] at e ⊢
      subst hu
      simp only [Constraint.diffStr, Ident.diffStr, hn, List.append_assoc, List.append_cancel_left_eq, List.append_cancel_right_eq] at e
      simp only [Constraint.bare, Ident.bare, hn, columns_inj tb ta e]
    | check n' x => cases uq <;> simp [Constraint.diffStr] at e
  | check n x =>
    cases a with
    | primaryKey n' cs' => simp [Constraint.diffStr] at e
    | foreignKey n' cs' r rcs act =>
      simp only [Constraint.name] at hn
      simp [Constraint.diffStr, Ident.diffStr, hn] at e
    | index n' uq cs' => cases uq <;> simp [Constraint.diffStr] at e
    | check n' x' =>
      simp only [Constraint.name] at hn
      simp only [Constraint.diffStr, Ident.diffStr, hn, List.append_assoc, List.append_cancel_left_eq] at e
      simp only [Constraint.bare, Ident.bare, hn]
      rw [show x.map Ident.bare = x'.map Ident.bare from words_inj tb ta e]

theorem ident_inj {i j : Option Ident} (hi : ∀ x, i = some x → x.name ≠ []) (hj : ∀ x, j = some x → x.name ≠ [])
    (e : identDiffStr i = identDiffStr j) : i.map Ident.bare = j.map Ident.bare := by
  cases i with
  | none =>
    cases j with
    | none => rfl
    | some j => exact absurd e.symm (hj j rfl)
  | some i =>
    cases j with
    | none => exact absurd e (hi i rfl)
    | some j =>
      simp only [identDiffStr, Ident.diffStr] at e
      simp [Ident.bare, e]

theorem default_inj {b a : Column} (tb : b.Tame) (ta : a.Tame) (e : defaultDiffStr b.default = defaultDiffStr a.default) :
    b.default.map Default.bare = a.default.map Default.bare := by
  obtain ⟨-, tb1, tb2, -⟩ := tb
  obtain ⟨-, ta1, ta2, -⟩ := ta
  rcases hbd : b.default with _ | ⟨_ | be⟩
  · rcases had : a.default with _ | ⟨_ | ae⟩
    · rfl
    · exact absurd had ta2
    · simp [hbd, had, defaultDiffStr] at e
  · exact absurd hbd tb2
  · rcases had : a.default with _ | ⟨_ | ae⟩
    · simp [hbd, had, defaultDiffStr] at e
    · exact absurd had ta2
    · simp only [hbd, had, defaultDiffStr, List.append_cancel_left_eq] at e
      simp [Default.bare, words_inj (tb1 _ hbd) (ta1 _ had) e]

theorem type_bare (t : DataType) : t.bare.diffStr = t.diffStr := by
  have : (Ident.diffStr ∘ Ident.bare) = Ident.diffStr := rfl
  simp [DataType.bare, DataType.diffStr, this]

theorem ident_bare (i : Option Ident) : identDiffStr (i.map Ident.bare) = identDiffStr i := by
  cases i <;> rfl

theorem default_bare (d : Option Default) : defaultDiffStr (d.map Default.bare) = defaultDiffStr d := by
  have : (Ident.diffStr ∘ Ident.bare) = Ident.diffStr := rfl
  rcases d with _ | ⟨_ | e⟩ <;> simp [defaultDiffStr, Default.bare, this]

/-! ## Columns -/

section
variable {sd : Str → Str → Str} {tn : ObjectName}

/-- The statements of `ALTER TABLE` actions. -/
abbrev stmts (l : List AlterTable) : List MStmt := l.map Stmt.alterTable

theorem step_alter {T T' : Tbl} {cm : Str} {act : Action} (hn : tn.diffStr = T.name) (h : Alter T act T') :
    Runs Step (some T) (stmts [⟨cm, tn, act⟩]) (some T') := Runs.one (.alterTable T T' cm tn act hn h)

theorem alterColumn_same {b a : Column} (e : b.bare = a.bare) : alterColumn sd tn b a = [] := by
  simp only [Column.bare, Column.mk.injEq] at e
  obtain ⟨-, e1, e2, e3, e4, e5, e6, e7, e8⟩ := e
  have h1 := congrArg DataType.diffStr e1
  have h2 := congrArg identDiffStr e2
  have h3 := congrArg identDiffStr e3
  have h4 := congrArg defaultDiffStr e4
  have h5 := congrArg Option.isSome e4
  rw [type_bare, type_bare] at h1
  rw [ident_bare, ident_bare] at h2 h3
  rw [default_bare, default_bare] at h4
  simp only [Option.isSome_map] at h5
  have hd : dropDefault b a = false := by
    simp only [dropDefault, h5]
    cases a.default <;> rfl
  simp [alterColumn, needsModify, h1, h2, h3, h4, e5, e6, e7, e8, hd]

theorem alterColumn_runs {b a : Column} (tb : b.Tame) (ta : a.Tame) (hn : a.name.name = b.name.name)
    (hv : b.bare = a.bare ∨ a.characterSet = none) {T : Tbl} (ht : tn.diffStr = T.name)
    (hc : T.cols b.name.name = some (colOf b)) :
    Runs Step (some T) (stmts (alterColumn sd tn b a)) (some { T with cols := upd T.cols b.name.name (some (colOf a)) }) := by
  rcases hv with hv | hv
  · rw [alterColumn_same hv]
    have : colOf b = colOf a := by
      simp only [Column.bare, Column.mk.injEq] at hv
      simp only [colOf, hv]
    rw [upd_self _ (by rw [hc, this])]
    exact .nil _
  simp only [alterColumn, stmts, List.map_append]
  by_cases hm : needsModify b a
  · rw [if_pos hm]
    have h1 : Runs Step (some T) (stmts [⟨sd b.str a.str, tn, .modifyColumn (modifyOf a)⟩])
        (some { T with cols := upd T.cols b.name.name (some (colOf a)) }) := by
      refine step_alter ht ?_
      have := Alter.modifyColumn (T := T) (modifyOf a) (by simp [modifyOf, hn, hc])
      simpa [modifyOf, hn, colOf, hv] using this
    refine h1.append ?_
    split
    · rename_i h
      refine step_alter ht ?_
      have := Alter.dropDefault (T := { T with cols := upd T.cols b.name.name (some (colOf a)) }) a.name (colOf a) (by simp [hn])
      have hd : a.default = none := by simpa using (Bool.and_eq_true_iff.1 h).2
      simpa [hn, upd_upd, colOf, hd] using this
    · exact .nil _
  · rw [if_neg hm]
    simp only [needsModify, not_or, not_not, not_and] at hm
    obtain ⟨h1, h2, h3, h4, h5, h6, h7, h8⟩ := hm
    have e1 := type_inj tb.1 ta.1 h1
    have e2 := ident_inj tb.2.2.2.1 ta.2.2.2.1 h2
    have e3 := ident_inj tb.2.2.2.2 ta.2.2.2.2 h3
    simp only [List.map_nil, List.nil_append]
    split
    · rename_i h
      refine step_alter ht ?_
      have := Alter.dropDefault (T := T) a.name (colOf b) (by rw [hn, hc])
      have hd : a.default = none := by simpa using (Bool.and_eq_true_iff.1 h).2
      simpa [hn, colOf, hd, e1, e2, e3, h4, h6, h7, h8] using this
    · rename_i h
      have e4 := default_inj tb ta (h5 h)
      have : colOf b = colOf a := by simp [colOf, e1, e2, e3, e4, h4, h6, h7, h8]
      rw [upd_self _ (by rw [hc, this])]
      exact .nil _

/-- The names of columns. -/
abbrev colKey (c : Column) : Str := c.name.name

theorem diffColumns_runs {t t' : CreateTable} (g : Good t) (g' : Good t') (hz : NoHazard t t') {T : Tbl} (ht : tn.diffStr = T.name)
    (hcols : T.cols = (tableOf t).cols)
    (hcons : ∀ c ∈ t.columns, (∀ c' ∈ t'.columns, c'.name.name ≠ c.name.name) → ∀ j p, T.cons j = some p → c.name.name ∉ p.definition.mentions) :
    Runs Step (some T) (stmts (diffColumns sd tn t.columns t'.columns)) (some { T with cols := (tableOf t').cols }) := by
  simp only [diffColumns]
  rw [show stmts (t.columns.flatMap (columnRound sd tn t'.columns) ++ (onlyLeftColumn t'.columns t.columns).map fun c => ⟨sd [] c.str, tn, .addColumn c⟩) =
    t.columns.flatMap (fun b => stmts (columnRound sd tn t'.columns b)) ++
    (onlyLeftColumn t'.columns t.columns).flatMap (fun c => stmts [⟨sd [] c.str, tn, .addColumn c⟩]) by
      simp only [stmts, List.map_append, List.map_flatMap, List.map_map, List.map_cons, List.map_nil]
      rw [← List.map_eq_flatMap]
      rfl]
  have hadd : ∀ x, x ∈ onlyLeftColumn t'.columns t.columns ↔ x ∈ t'.columns ∧ colKey x ∉ t.columns.map colKey := by
    intro x
    rw [My.onlyLeftColumn_eq, List.mem_filter]
    simp [colKey]
  have hnd : ((onlyLeftColumn t'.columns t.columns).map colKey).Nodup :=
    (g'.distinct.1).sublist ((List.filter_sublist).map _)
  have r1 := runs_each (step := Step) (key := colKey) (fun b => stmts (columnRound sd tn t'.columns b))
    (fun b => (t'.columns.find? (fun y => colKey y == colKey b)).map colOf) (fun m => some { T with cols := m })
    t.columns T.cols g.distinct.1 (by
      intro b hb m' hm'
      have hm : m' b.name.name = some (colOf b) := by
        rw [hm', hcols]
        simp only [tableOf, find?_of_nodup (f := fun c : Column => c.name.name) g.distinct.1 hb, Option.map_some]
      simp only [columnRound, findColumn]
      cases hf : t'.columns.find? (fun c => c.name.name == b.name.name) with
      | none =>
        have hgone : ∀ c' ∈ t'.columns, c'.name.name ≠ b.name.name := by
          intro c' hc' e
          have := List.find?_eq_none.1 hf c' hc'
          simp [e] at this
        simp only [colKey, Option.map_none]
        refine step_alter ht (Alter.dropColumn (T := { T with cols := m' }) b.name (by simp [hm]) ?_)
        intro j p hp
        exact hcons b hb hgone j p hp
      | some a =>
        simp only [colKey, Option.map_some]
        have ha := List.mem_of_find?_eq_some hf
        have he : a.name.name = b.name.name := by simpa using List.find?_some hf
        exact alterColumn_runs (g.columnsTame b hb) (g'.columnsTame a ha) he (hz.characterSet b hb a ha he.symm) (T := { T with cols := m' }) ht hm)
  have r2 := runs_each (step := Step) (key := colKey) (fun c => stmts [⟨sd [] c.str, tn, .addColumn c⟩])
    (fun c => some (colOf c)) (fun m => some { T with cols := m }) (onlyLeftColumn t'.columns t.columns)
    (over colKey t.columns (fun b => (t'.columns.find? (fun y => colKey y == colKey b)).map colOf) T.cols) hnd (by
      intro c hc m' hm'
      refine step_alter ht (Alter.addColumn (T := { T with cols := m' }) c ?_)
      have hk := ((hadd c).1 hc).2
      have : m' c.name.name = none := by
        rw [show m' c.name.name = m' (colKey c) from rfl, hm', over_not_mem _ _ hk, hcols]
        simp only [tableOf]
        rw [show t.columns.find? (fun x => x.name.name == colKey c) = none from find?_congr_key.2 hk]
        rfl
      exact this)
  have e := over_total (g := colOf) (b := t.columns) (a := t'.columns) (key := colKey) g'.distinct.1 hnd hadd
  rw [hcols] at r2
  rw [show (tableOf t).cols = fun k => (t.columns.find? (fun x => colKey x == k)).map colOf from rfl, e] at r2
  rw [hcols] at r1
  have r := r1.append r2
  rw [show (fun k => (t'.columns.find? (fun x => colKey x == k)).map colOf) = (tableOf t').cols from rfl] at r
  convert r using 2
  rw [← hcols]

/-! ## Constraints -/

/-- The names of constraints. -/
abbrev conKey (c : Constraint) : Str := c.name.name

/-- A constraint of the table. -/
abbrev conOf (c : Constraint) : Con := ⟨c.bare, true⟩

theorem bare_mentions (c : Constraint) : c.bare.mentions = c.mentions := by
  cases c <;> simp [Constraint.bare, Constraint.mentions, Ident.bare, ColumnIdent.bare, Function.comp_def]

theorem bare_index (c : Constraint) : c.bare.IsIndex ↔ c.IsIndex := by
  cases c <;> rfl

theorem rename_runs {t t' : CreateTable} (hs : t'.name.schema = none → t.name.schema = none) :
    renamedName t.name t'.name = t'.name ∧
    Runs Step (some (tableOf t)) (stmts (renameTable sd t.name t'.name)) (some { tableOf t with name := t'.name.diffStr }) := by
  have h : renamedName t.name t'.name = t'.name := by
    unfold renamedName
    split
    · rename_i h
      rw [hs h.2, ← h.2]
    · rfl
  refine ⟨h, ?_⟩
  rw [renameTable, h]
  split
  · exact step_alter rfl (Alter.renameTable _)
  · rename_i e
    simp only [ne_eq, not_not] at e
    rw [show ({ tableOf t with name := t'.name.diffStr } : Tbl) = tableOf t by rw [← e]; rfl]
    exact .nil _

/-- The statement that drops a constraint or an index. -/
abbrev dropStmt (cm cm' : Str) (bs : Option Ident) (tn : ObjectName) (b : Constraint) (n : Ident) : MStmt :=
  match b with
  | .index .. => .dropIndex cm false ⟨bs, n⟩
  | _ => .alterTable ⟨cm', tn, .dropConstraint n⟩

theorem drop_step {T : Tbl} {b k : Constraint} {cm cm' : Str} {bs : Option Ident} (ht : tn.diffStr = T.name) (hk : b.IsIndex ↔ k.IsIndex)
    (h : T.cons b.name.name = some (conOf b)) :
    Step (some T) (dropStmt cm cm' bs tn k b.name) (some { T with cons := upd T.cons b.name.name none }) := by
  cases b with
  | index n uq cs =>
    cases k with
    | index => exact .dropIndex T _ _ ⟨bs, n⟩ _ h trivial
    | _ => exact (hk.1 trivial).elim
  | _ =>
    cases k with
    | index => exact (hk.2 trivial).elim
    | _ => exact .alterTable _ _ _ _ _ ht (.dropConstraint _ _ h fun h => h)

/-- The statement that adds a constraint or an index. -/
abbrev addStmt (cm cm' : Str) (tn : ObjectName) (a : Constraint) : MStmt :=
  match a with
  | .index n uq cs => indexStmt cm tn n uq cs
  | a => .alterTable ⟨cm', tn, .addConstraint a false⟩

theorem add_step {T : Tbl} {a : Constraint} {cm cm' : Str} (ht : tn.diffStr = T.name) (h : T.cons a.name.name = none)
    (hc : ∀ x ∈ a.columnNames, (T.cols x).isSome) :
    Step (some T) (addStmt cm cm' tn a) (some { T with cons := upd T.cons a.name.name (some (conOf a)) }) := by
  cases a with
  | index n uq cs =>
    exact Step.createIndex T ⟨cm, uq, false, ⟨tn.schema, n⟩, tn, [], cs⟩ ht h (fun x hx => hc _ (List.mem_map_of_mem hx))
  | _ => exact .alterTable _ _ _ _ _ ht (.addConstraint _ false (fun h => h) h hc)

theorem onlyLeft_iff {l r : List Constraint} (hl : (l.map conKey).Nodup) :
    ((onlyLeftConstraint l r).map conKey).Nodup ∧
    ∀ x, x ∈ onlyLeftConstraint l r ↔ x ∈ l ∧ conKey x ∉ r.map conKey := by
  obtain ⟨h1, h2⟩ := My.onlyLeftConstraint_spec (l := l) (r := r)
  refine ⟨?_, ?_⟩
  · have : NodupNames (onlyLeftConstraint l r) := NodupNames.foldl (by simp [NodupNames]) _
    exact this
  · intro x
    constructor
    · intro hx
      exact h1 x hx
    · rintro ⟨hx, hk⟩
      obtain ⟨k, hk1, hk2⟩ := h2 x hx hk
      have : k = x := List.inj_on_of_nodup_map hl (h1 k hk1).1 hx hk2
      rwa [← this]

theorem options_runs {t t' : CreateTable} (g : Good t) (g' : Good t') (hz : NoHazard t t') {T : Tbl} (ht : tn.diffStr = T.name)
    (hopt : T.options = (tableOf t).options) :
    Runs Step (some T) (stmts (changeOptions sd tn t.options t'.options ++ addOptions sd tn t.options t'.options))
      (some { T with options := (tableOf t').options }) := by
  let q : TableOption → Bool := fun o => !decide o.IsCounter
  let optOf : TableOption → Expr := fun o => o.value.map Ident.bare
  have hq : ∀ {o o' : TableOption}, o.name = o'.name → q o = q o' := by
    intro o o' e
    simp only [q, TableOption.IsCounter, e]
  have hmap : ∀ t : CreateTable, (tableOf t).options = fun k => ((t.options.filter q).find? (fun o => o.name == k)).map optOf := by
    intro t
    funext k
    simp only [tableOf, List.find?_filter, optOf]
    congr 2
    funext o
    simp [q, beq_eq_decide]
  have nb : ((t.options.filter q).map TableOption.name).Nodup := g.distinct.2.2.sublist ((List.filter_sublist).map _)
  have na : ((t'.options.filter q).map TableOption.name).Nodup := g'.distinct.2.2.sublist ((List.filter_sublist).map _)
  have nd : (((onlyLeftOption t'.options t.options).filter q).map TableOption.name).Nodup :=
    g'.distinct.2.2.sublist (((List.filter_sublist).trans List.filter_sublist).map _)
  have hadd : ∀ x, x ∈ (onlyLeftOption t'.options t.options).filter q ↔
      x ∈ t'.options.filter q ∧ x.name ∉ (t.options.filter q).map TableOption.name := by
    intro x
    simp only [onlyLeftOption, findOption, List.mem_filter, Option.isNone_iff_eq_none, find?_congr_key, List.mem_map, not_exists, not_and]
    constructor
    · rintro ⟨⟨h1, h2⟩, h3⟩
      exact ⟨⟨h1, h3⟩, fun y hy => h2 y hy.1⟩
    · rintro ⟨⟨h1, h3⟩, h2⟩
      exact ⟨⟨h1, fun y hy e => h2 y ⟨hy, by rw [hq e, h3]⟩ e⟩, h3⟩
  have e1 : stmts (changeOptions sd tn t.options t'.options) = (t.options.filter q).flatMap (fun b =>
      stmts (match findOption b.name t'.options with
        | none => []
        | some a => if b.diffStr ≠ a.diffStr then [⟨sd b.str a.str, tn, .tableOption a⟩] else [])) := by
    simp only [changeOptions, stmts, List.map_flatMap]
    generalize t.options = l
    induction l with
    | nil => rfl
    | cons o l ih =>
      rw [List.flatMap_cons, ih]
      by_cases h : upper o.name = s%"AUTO_INCREMENT"
      · rw [if_pos h, List.filter_cons_of_neg (by simp [q, TableOption.IsCounter, h])]
        rfl
      · rw [if_neg h, List.filter_cons_of_pos (by simp [q, TableOption.IsCounter, h]), List.flatMap_cons]
        rfl
  have e2 : stmts (addOptions sd tn t.options t'.options) = ((onlyLeftOption t'.options t.options).filter q).flatMap (fun a =>
      stmts [⟨sd [] a.str, tn, .tableOption a⟩]) := by
    simp only [addOptions, stmts, List.map_flatMap]
    generalize onlyLeftOption t'.options t.options = l
    induction l with
    | nil => rfl
    | cons o l ih =>
      rw [List.flatMap_cons, ih]
      by_cases h : upper o.name = s%"AUTO_INCREMENT"
      · rw [if_pos h, List.filter_cons_of_neg (by simp [q, TableOption.IsCounter, h])]
        rfl
      · rw [if_neg h, List.filter_cons_of_pos (by simp [q, TableOption.IsCounter, h]), List.flatMap_cons]
  have hno : ∀ {o : TableOption}, q o = true → ¬ o.IsCounter := by
    intro o h
    simpa [q] using h
  have r1 := runs_each (step := Step) (key := TableOption.name) (fun b =>
      stmts (match findOption b.name t'.options with
        | none => []
        | some a => if b.diffStr ≠ a.diffStr then [⟨sd b.str a.str, tn, .tableOption a⟩] else []))
    (fun b => ((t'.options.filter q).find? (fun y => y.name == b.name)).map optOf) (fun m => some { T with options := m })
    (t.options.filter q) T.options nb (by
      intro b hb m' hm'
      obtain ⟨hb1, hb2⟩ := List.mem_filter.1 hb
      have hm : m' b.name = some (optOf b) := by
        rw [hm', hopt, hmap]
        simp only [find?_of_nodup (f := TableOption.name) nb hb, Option.map_some]
      obtain ⟨a, ha1, ha2⟩ := (hz.options b hb1).resolve_left (hno hb2)
      have ha3 : q a = true := by rw [hq ha2, hb2]
      have f1 : t'.options.find? (fun y => y.name == b.name) = some a := by
        rw [← ha2]
        exact find?_of_nodup (f := TableOption.name) g'.distinct.2.2 ha1
      have f2 : (t'.options.filter q).find? (fun y => y.name == b.name) = some a := by
        rw [← ha2]
        exact find?_of_nodup (f := TableOption.name) na (List.mem_filter.2 ⟨ha1, ha3⟩)
      simp only [findOption, f1, f2, Option.map_some]
      split
      · refine step_alter ht ?_
        have := Alter.tableOption (T := { T with options := m' }) a (hno ha3)
        rwa [ha2] at this
      · rename_i h
        simp only [ne_eq, not_not] at h
        have : optOf b = optOf a := by
          simp only [TableOption.diffStr, ha2, List.append_assoc, List.append_cancel_left_eq] at h
          exact words_inj (g.optionsTame b hb1) (g'.optionsTame a ha1) h
        rw [upd_self _ (by rw [hm, this])]
        exact .nil _)
  have r2 := runs_each (step := Step) (key := TableOption.name) (fun a => stmts [⟨sd [] a.str, tn, .tableOption a⟩])
    (fun a => some (optOf a)) (fun m => some { T with options := m }) ((onlyLeftOption t'.options t.options).filter q)
    (over TableOption.name (t.options.filter q) (fun b => ((t'.options.filter q).find? (fun y => y.name == b.name)).map optOf) T.options) nd (by
      intro c hc m' hm'
      exact step_alter ht (Alter.tableOption (T := { T with options := m' }) c (hno (List.mem_filter.1 hc).2)))
  have e := over_total (g := optOf) (b := t.options.filter q) (a := t'.options.filter q) (key := TableOption.name) na nd hadd
  rw [hopt, hmap t, e, ← hmap t'] at r2
  rw [hopt, hmap t] at r1
  have r := r1.append r2
  rw [← hmap t, ← hopt] at r
  rw [show stmts (changeOptions sd tn t.options t'.options ++ addOptions sd tn t.options t'.options) =
    stmts (changeOptions sd tn t.options t'.options) ++ stmts (addOptions sd tn t.options t'.options) from List.map_append, e1, e2]
  exact r

theorem diffTable_runs {t t' : CreateTable} (g : Good t) (g' : Good t') (hz : NoHazard t t')
    (hs : t'.name.schema = none → t.name.schema = none) :
    Runs Step (some (tableOf t)) ((renameTable sd t.name t'.name).map Stmt.alterTable ++
      dropConstraints sd t.name.schema (renamedName t.name t'.name) t.constraints t'.constraints ++
      (diffColumns sd (renamedName t.name t'.name) t.columns t'.columns).map Stmt.alterTable ++
      replaceConstraints sd false t.name.schema (renamedName t.name t'.name) t.constraints t'.constraints ++
      addConstraints sd false (renamedName t.name t'.name) t.constraints t'.constraints ++
      (changeOptions sd (renamedName t.name t'.name) t.options t'.options ++
        addOptions sd (renamedName t.name t'.name) t.options t'.options).map Stmt.alterTable) (some (tableOf t')) := by
  obtain ⟨hn, r0⟩ := rename_runs (sd := sd) hs
  rw [hn]
  have kb : (t.constraints.map conKey).Nodup := g.distinct.2.1
  have ka : (t'.constraints.map conKey).Nodup := g'.distinct.2.1
  generalize htn : t'.name = tn at *
  obtain ⟨hnd, hadd⟩ := onlyLeft_iff (l := t'.constraints) (r := t.constraints) ka
  let T0 : Tbl := { tableOf t with name := tn.diffStr }
  have hT0 : T0.cons = fun k => (t.constraints.find? (fun c => conKey c == k)).map conOf := rfl
  let newD : Constraint → Option Con := fun b =>
    if conKey b ∈ t'.constraints.map conKey then some (conOf b) else none
  have r1 := runs_each (step := Step) (key := conKey) (fun b : Constraint =>
      match findConstraint b.name.name t'.constraints with
      | none =>
        match b with
        | .index .. => [(.dropIndex (sd b.diffStr []) false ⟨t.name.schema, b.name⟩ : MStmt)]
        | _ => [.alterTable ⟨sd b.str [], tn, .dropConstraint b.name⟩]
      | some _ => []) newD (fun m => some { T0 with cons := m })
    t.constraints T0.cons kb (by
      intro b hb m' hm'
      have hm : m' (conKey b) = some (conOf b) := by
        rw [hm', hT0]
        simp only [find?_of_nodup (f := conKey) kb hb, Option.map_some]
      simp only [findConstraint, newD]
      cases hf : t'.constraints.find? (fun c => c.name.name == b.name.name) with
      | none =>
        rw [if_neg (find?_congr_key.1 hf)]
        have := Runs.one (step := Step) (drop_step (T := { T0 with cons := m' }) (b := b) (k := b) (cm := sd b.diffStr []) (cm' := sd b.str []) (bs := t.name.schema) (tn := tn) rfl Iff.rfl hm)
        cases b <;> exact this
      | some a =>
        have : conKey b ∈ t'.constraints.map conKey :=
          List.mem_map.2 ⟨a, List.mem_of_find?_eq_some hf, by simpa using List.find?_some hf⟩
        rw [if_pos this, upd_self _ hm]
        exact .nil _)
  let T1 : Tbl := { T0 with cons := over conKey t.constraints newD T0.cons }
  have r2 := diffColumns_runs (sd := sd) (tn := tn) g g' hz (T := T1) rfl rfl (by
    intro c hc hgone j p hp
    have hj : j ∈ t.constraints.map conKey := by
      by_contra hj
      simp only [T1] at hp
      rw [over_not_mem _ _ hj, hT0] at hp
      simp only [find?_congr_key.2 hj] at hp
      cases hp
    obtain ⟨b, hb, rfl⟩ := List.mem_map.1 hj
    simp only [T1] at hp
    rw [over_mem kb _ _ hb] at hp
    simp only [newD] at hp
    split at hp
    · rename_i hmem
      cases hp
      obtain ⟨a, ha', e⟩ := List.mem_map.1 hmem
      rw [bare_mentions]
      exact hz.dropped c hc hgone b hb a ha' e.symm
    · cases hp)
  let T2 : Tbl := { T1 with cols := (tableOf t').cols }
  let newR : Constraint → Option Con := fun b => (t'.constraints.find? (fun y => conKey y == conKey b)).map conOf
  have hfit : ∀ a ∈ t'.constraints, ∀ x ∈ a.columnNames, ((tableOf t').cols x).isSome := by
    intro a ha' x hx
    obtain ⟨c, hc, rfl⟩ := g'.columns a ha' x hx
    simp only [tableOf, find?_of_nodup (f := fun c : Column => c.name.name) g'.distinct.1 hc, Option.map_some, Option.isSome_some]
  have r3 := runs_each (step := Step) (key := conKey) (fun b : Constraint =>
      match findConstraint b.name.name t'.constraints with
      | none => []
      | some a =>
        if b.diffStr ≠ a.diffStr then
          match a with
          | .index n uq cs => [(.dropIndex [] false ⟨t.name.schema, b.name⟩ : MStmt), indexStmt [] tn n uq cs]
          | _ => [.alterTable ⟨sd b.str [], tn, .dropConstraint b.name⟩, .alterTable ⟨sd [] a.str, tn, .addConstraint a false⟩]
        else []) newR (fun m => some { T2 with cons := m })
    t.constraints T2.cons kb (by
      intro b hb m' hm'
      have hm : m' (conKey b) = newD b := by
        rw [hm']
        exact over_mem kb _ _ hb
      simp only [findConstraint, newR]
      cases hf : t'.constraints.find? (fun c => c.name.name == b.name.name) with
      | none =>
        simp only [newD, if_neg (find?_congr_key.1 hf)] at hm
        rw [Option.map_none, upd_self _ hm]
        exact .nil _
      | some a =>
        have ha' := List.mem_of_find?_eq_some hf
        have he : a.name.name = b.name.name := by simpa using List.find?_some hf
        have hin : conKey b ∈ t'.constraints.map conKey := List.mem_map.2 ⟨a, ha', he⟩
        simp only [newD, if_pos hin] at hm
        simp only [Option.map_some]
        split
        · have s1 := drop_step (T := { T2 with cons := m' }) (b := b) (k := a) (cm := []) (cm' := sd b.str []) (bs := t.name.schema) (tn := tn) rfl
            (hz.kind b hb a ha' he.symm).1 hm
          have s2 := add_step (T := { T2 with cons := upd m' b.name.name none }) (a := a) (cm := []) (cm' := sd [] a.str) (tn := tn) rfl
            (by rw [he]; simp) (hfit a ha')
          have := (Runs.one s1).append (Runs.one s2)
          simp only [he, upd_upd] at this
          cases a <;> exact this
        · rename_i heq
          simp only [ne_eq, not_not] at heq
          have : conOf b = conOf a := by
            simp only [conOf, constraint_inj (g.constraintsTame b hb) (g'.constraintsTame a ha') he.symm (hz.kind b hb a ha' he.symm).2 heq]
          rw [upd_self _ (by rw [hm, this])]
          exact .nil _)
  let T3 : Tbl := { T2 with cons := over conKey t.constraints newR T2.cons }
  have r4 := runs_each (step := Step) (key := conKey) (fun c : Constraint => [
      match c with
      | .index n uq cs => indexStmt (sd [] c.diffStr) tn n uq cs
      | _ => .alterTable ⟨sd [] c.str, tn, .addConstraint c false⟩]) (fun c => some (conOf c)) (fun m => some { T3 with cons := m })
    (onlyLeftConstraint t'.constraints t.constraints) T3.cons hnd (by
      intro c hc m' hm'
      obtain ⟨hc1, hc2⟩ := (hadd c).1 hc
      have h0 : m' (conKey c) = none := by
        rw [hm']
        simp only [T3, T2, T1]
        rw [over_over, over_not_mem _ _ hc2, hT0]
        simp only [find?_congr_key.2 hc2, Option.map_none]
      have := Runs.one (add_step (T := { T3 with cons := m' }) (a := c) (cm := sd [] c.diffStr) (cm' := sd [] c.str) (tn := tn) rfl h0 (hfit c hc1))
      cases c <;> exact this)
  have e4 : over conKey (onlyLeftConstraint t'.constraints t.constraints) (fun c => some (conOf c)) T3.cons = (tableOf t').cons := by
    simp only [T3, T2, T1]
    rw [over_over, hT0]
    exact over_total ka hnd hadd
  rw [e4] at r4
  have r5 := options_runs (sd := sd) (tn := tn) g g' hz (T := { T3 with cons := (tableOf t').cons }) rfl rfl
  have hfin : ({ ({ T3 with cons := (tableOf t').cons } : Tbl) with options := (tableOf t').options } : Tbl) = tableOf t' := by
    simp only [T3, T2, T1, T0, ← htn]
    rfl
  rw [hfin] at r5
  have := ((((r0.append r1).append r2).append r3).append r4).append r5
  rw [← List.map_eq_flatMap] at this
  exact this

theorem diff_runs {b a : Option CreateTable} (hb : ∀ t, b = some t → Good t) (ha : ∀ t, a = some t → Good t)
    (hz : ∀ t t', b = some t → a = some t' → NoHazard t t' ∧ (t'.name.schema = none → t.name.schema = none)) {l : List MStmt}
    (h : diffCreateTable sd false b a = .ok l) : Runs Step (b.map tableOf) l (a.map tableOf) := by
  cases b with
  | none =>
    cases a with
    | none => cases h
    | some a => cases h; exact Runs.one (.createTable a)
  | some b =>
    cases a with
    | none => cases h; exact Runs.one (.dropTable _ _ _ _ rfl)
    | some a =>
      rw [(My.diffTable_ok h).1]
      exact diffTable_runs (hb b rfl) (ha a rfl) (hz b a rfl rfl).1 (hz b a rfl rfl).2

theorem diff_same {b a : CreateTable} (hb : Good b) (ha : Good a) (hz : NoHazard b a)
    (hs : a.name.schema = none → b.name.schema = none) {e : Err} (hne : b.str ≠ a.str)
    (h : diffCreateTable sd false (some b) (some a) = .err e) : tableOf b = tableOf a := by
  have run := diffTable_runs (sd := sd) hb ha hz hs
  simp only [diffCreateTable, if_neg hne] at h
  split at h
  · rename_i hnil
    rw [List.isEmpty_iff] at hnil
    rw [hnil] at run
    generalize hx : some (tableOf b) = x at run
    generalize hy : some (tableOf a) = y at run
    cases run
    exact Option.some.inj (hx.trans hy.symm)
  · cases h

end
end Ddl.My.Run
