import Verif.Lemmas.Run

/-! # Spanner: executing the alterations of one table -/

namespace Ddl.Sp.Run
open Ddl Spec
set_option autoImplicit false

/-! ## Equal texts, equal definitions -/

theorem type_inj {t t' : DataType} (h : Pg.TameParams t.expr) (h' : Pg.TameParams t'.expr) (e : t.diffStr = t'.diffStr) :
    t.bare = t'.bare := by
  obtain ⟨e1, e2⟩ := params_inj h h' e
  simp [DataType.bare, e1, e2]

theorem column_inj {i j : ColumnIdent} (hi : Pg.IsWord i.ident.name) (hj : Pg.IsWord j.ident.name) (e : i.diffStr = j.diffStr) :
    i.bare = j.bare := by
  have key : ∀ i : ColumnIdent, i.diffStr = i.ident.name ++ ' ' :: (if i.order = some true then s%"DESC" else s%"ASC") := by
    intro i
    simp only [ColumnIdent.diffStr, Ident.diffStr]
    split <;> rfl
  rw [key, key] at e
  obtain ⟨e1, e2⟩ := append_sep_inj hi.not_mem.1 hj.not_mem.1 e
  simp only [ColumnIdent.bare, Ident.bare, e1]
  congr 2
  by_cases h1 : i.order = some true <;> by_cases h2 : j.order = some true <;> simp [h1, h2] at e2 ⊢

theorem columnDiff_plain {i : ColumnIdent} (h : Pg.IsWord i.ident.name) : i.diffStr ≠ [] ∧ ',' ∉ i.diffStr ∧ ')' ∉ i.diffStr := by
  have h1 := h.1
  have h2 := h.not_mem
  simp only [ColumnIdent.diffStr, Ident.diffStr]
  refine ⟨by simp [h1], ?_, ?_⟩ <;> rw [List.mem_append, not_or] <;> refine ⟨by tauto, ?_⟩ <;> split <;> decide

theorem columns_inj {l l' : List ColumnIdent} (h : ∀ i ∈ l, Pg.IsWord i.ident.name) (h' : ∀ i ∈ l', Pg.IsWord i.ident.name)
    (e : columnsDiffStr l = columnsDiffStr l') : l.map ColumnIdent.bare = l'.map ColumnIdent.bare := by
  have m : ∀ {l : List ColumnIdent}, (∀ i ∈ l, Pg.IsWord i.ident.name) → ∀ a ∈ l.map ColumnIdent.diffStr, a ≠ [] ∧ ',' ∉ a := by
    intro l h a ha
    obtain ⟨i, hi, rfl⟩ := List.mem_map.1 ha
    exact ⟨(columnDiff_plain (h i hi)).1, (columnDiff_plain (h i hi)).2.1⟩
  have := join_comma_inj (m h) (m h') e
  clear e m
  induction l generalizing l' with
  | nil =>
    cases l' with
    | nil => rfl
    | cons => cases this
  | cons i l ih =>
    cases l' with
    | nil => cases this
    | cons j l' =>
      simp only [List.map_cons, List.cons.injEq] at this ⊢
      exact ⟨column_inj (h i (by simp)) (h' j (by simp)) this.1,
        ih (fun x hx => h x (by simp [hx])) (fun x hx => h' x (by simp [hx])) this.2⟩

theorem columns_close {l : List ColumnIdent} (h : ∀ i ∈ l, Pg.IsWord i.ident.name) : ')' ∉ columnsDiffStr l := by
  refine join_comma_close ?_
  intro a ha
  obtain ⟨i, hi, rfl⟩ := List.mem_map.1 ha
  exact (columnDiff_plain (h i hi)).2.2

theorem constraint_inj {b a : Constraint} (tb : b.Tame) (ta : a.Tame) {k : Str} (hb : b.Named k) (ha : a.Named k)
    (e : b.diffStr = a.diffStr) : b.bare = a.bare := by
  cases b with
  | foreignKey n cs r rcs =>
    cases a with
    | foreignKey n' cs' r' rcs' =>
      have hn : n.name = n'.name := by
        simp only [Constraint.Named, Constraint.name, Option.map_some, Option.some.injEq] at hb ha
        rw [hb, ha]
      simp only [Constraint.diffStr, Ident.diffStr, hn, List.append_assoc, List.append_cancel_left_eq] at e
      simp only [List.cons_append, List.nil_append] at e
      obtain ⟨e1, e2⟩ := append_sep_inj (columns_close tb.1) (columns_close ta.1) e
      simp only [List.cons.injEq, true_and] at e2
      obtain ⟨e3, e4⟩ := append_sep_inj tb.2.1.not_mem.1 ta.2.1.not_mem.1 e2
      simp only [List.cons.injEq, true_and] at e4
      have e5 := List.append_cancel_right e4
      simp only [Constraint.bare, Ident.bare, hn, e3, columns_inj tb.1 ta.1 e1, columns_inj tb.2.2 ta.2.2 e5]
    | check n' x =>
      exfalso
      simp only [Constraint.Named, Constraint.name, Option.map_some, Option.some.injEq] at hb ha
      cases n' with
      | none => simp at ha
      | some n' =>
        simp only [Option.map_some, Option.some.injEq] at ha
        simp [Constraint.diffStr, Ident.diffStr, hb, ha] at e
  | check n x =>
    cases n with
    | none => simp [Constraint.Named, Constraint.name] at hb
    | some n =>
      simp only [Constraint.Named, Constraint.name, Option.map_some, Option.some.injEq] at hb
      cases a with
      | foreignKey n' cs' r' rcs' =>
        simp only [Constraint.Named, Constraint.name, Option.map_some, Option.some.injEq] at ha
        simp [Constraint.diffStr, Ident.diffStr, hb, ha] at e
      | check n' x' =>
        cases n' with
        | none => simp [Constraint.Named, Constraint.name] at ha
        | some n' =>
          simp only [Constraint.Named, Constraint.name, Option.map_some, Option.some.injEq] at ha
          have hn : n.name = n'.name := by rw [hb, ha]
          simp only [Constraint.diffStr, Ident.diffStr, hn, List.append_assoc, List.append_cancel_left_eq] at e
          simp only [Constraint.bare, Option.map_some, Ident.bare, hn]
          rw [show x.map Ident.bare = x'.map Ident.bare from words_inj tb ta e]

/-! ## Columns -/

section
variable {sd : Str → Str → Str} {tn : ObjectName}

/-- The statements of `ALTER TABLE` actions. -/
abbrev stmts (l : List AlterTable) : List SStmt := l.map Stmt.alterTable

theorem step_alter {T T' : Tbl} {cm : Str} {act : Action} (hn : tn.diffStr = T.name) (h : Alter T act T') :
    Runs Step (some T) (stmts [⟨cm, tn, act⟩]) (some T') := Runs.one (.alterTable T T' cm tn act hn h)

theorem alterColumn_runs {b a : Column} (tb : b.Tame) (ta : a.Tame) (hn : a.name.name = b.name.name) {T : Tbl} (ht : tn.diffStr = T.name)
    (hc : T.cols b.name.name = some (colOf b)) :
    Runs Step (some T) (stmts (alterColumn sd tn b a)) (some { T with cols := upd T.cols b.name.name (some (colOf a)) }) := by
  simp only [alterColumn, stmts, List.map_append]
  -- data type and nullability
  have h1 : Runs Step (some T) (stmts (if b.dataType.diffStr ≠ a.dataType.diffStr ∨ b.notNull ≠ a.notNull then
      [⟨sd b.str a.str, tn, .alterDataType a.name a.dataType a.notNull⟩] else []))
      (some { T with cols := upd T.cols b.name.name (some { colOf b with type := a.dataType.bare, notNull := a.notNull }) }) := by
    split
    · refine step_alter ht ?_
      have := Alter.alterDataType (T := T) a.name a.dataType a.notNull (colOf b) (by rw [hn, hc])
      rwa [hn] at this
    · rename_i h
      simp only [ne_eq, not_or, not_not] at h
      have : ({ colOf b with type := a.dataType.bare, notNull := a.notNull } : Col) = colOf b := by
        simp only [colOf, type_inj tb.1 ta.1 h.1, h.2]
      rw [this, upd_self _ hc]
      exact .nil _
  have h2 : Runs Step (some { T with cols := upd T.cols b.name.name (some { colOf b with type := a.dataType.bare, notNull := a.notNull }) })
      (stmts (if b.default.isSome ∧ a.default.isNone then [⟨sd b.str a.str, tn, .dropDefault a.name⟩]
        else if a.default.isSome ∧ defaultDiffStr b.default ≠ defaultDiffStr a.default then
          [⟨sd b.str a.str, tn, .setDefault a.name a.default⟩] else []))
      (some { T with cols := upd T.cols b.name.name (some { colOf a with options := b.options.map (·.map Ident.bare) }) }) := by
    split
    · rename_i h
      refine step_alter ht ?_
      have := Alter.dropDefault (T := { T with cols := upd T.cols b.name.name (some { colOf b with type := a.dataType.bare, notNull := a.notNull }) })
        a.name { colOf b with type := a.dataType.bare, notNull := a.notNull } (by simp [hn])
      have hd : a.default = none := by simpa using h.2
      simpa [hn, upd_upd, colOf, hd] using this
    · rename_i h0
      split
      · refine step_alter ht ?_
        have := Alter.setDefault (T := { T with cols := upd T.cols b.name.name (some { colOf b with type := a.dataType.bare, notNull := a.notNull }) })
          a.name a.default { colOf b with type := a.dataType.bare, notNull := a.notNull } (by simp [hn])
        simpa [hn, upd_upd, colOf] using this
      · rename_i h1
        have hd : b.default.map Default.bare = a.default.map Default.bare := by
          have tb' := tb.2
          have ta' := ta.2
          rcases hbd : b.default with _ | ⟨_ | be⟩
          · rcases had : a.default with _ | ⟨_ | ae⟩
            · rfl
            · exact absurd had ta'.2.1
            · simp [hbd, had, defaultDiffStr] at h1
          · exact absurd hbd tb'.2.1
          · rcases had : a.default with _ | ⟨_ | ae⟩
            · simp [hbd, had] at h0
            · exact absurd had ta'.2.1
            · simp only [hbd, had, defaultDiffStr, Option.isSome_some, true_and, ne_eq, not_not, List.append_assoc,
                List.append_cancel_left_eq, List.append_cancel_right_eq] at h1
              simp [Default.bare, words_inj (tb'.1 _ hbd) (ta'.1 _ had) h1]
        have : ({ colOf b with type := a.dataType.bare, notNull := a.notNull } : Col) =
            { colOf a with options := b.options.map (·.map Ident.bare) } := by
          simp [colOf, hd]
        rw [this]
        exact .nil _
  refine (h1.append h2).append ?_
  split
  · rename_i h
    refine step_alter ht ?_
    have := Alter.dropOptions (T := { T with cols := upd T.cols b.name.name (some { colOf a with options := b.options.map (·.map Ident.bare) }) })
      a.name { colOf a with options := b.options.map (·.map Ident.bare) } (by simp [hn])
    have hd : a.options = none := by simpa using h.2
    simpa [hn, upd_upd, colOf, hd] using this
  · rename_i h0
    split
    · refine step_alter ht ?_
      have := Alter.setOptions (T := { T with cols := upd T.cols b.name.name (some { colOf a with options := b.options.map (·.map Ident.bare) }) })
        a.name a.options { colOf a with options := b.options.map (·.map Ident.bare) } (by simp [hn])
      simpa [hn, upd_upd, colOf] using this
    · rename_i h1
      have hd : b.options.map (·.map Ident.bare) = a.options.map (·.map Ident.bare) := by
        rcases hbd : b.options with _ | be
        · rcases had : a.options with _ | ae
          · rfl
          · simp only [hbd, had, Option.isSome_some, true_and, ne_eq, not_not, optExprDiffStr, exprDiffStr, Option.getD_none,
              Option.getD_some] at h1
            have := words_inj (e := []) (by intro i hi; cases hi) (ta.2.2.2.1 _ had) h1
            simp only [List.map_nil] at this
            have : ae = [] := by simpa using this.symm
            exact absurd (by rw [had, this]) ta.2.2.2.2
        · rcases had : a.options with _ | ae
          · simp [hbd, had] at h0
          · simp only [hbd, had, Option.isSome_some, true_and, ne_eq, not_not, optExprDiffStr, exprDiffStr, Option.getD_some] at h1
            simp [words_inj (tb.2.2.2.1 _ hbd) (ta.2.2.2.1 _ had) h1]
      have : ({ colOf a with options := b.options.map (·.map Ident.bare) } : Col) = colOf a := by simp [colOf, hd]
      rw [this]
      exact .nil _

/-- The names of columns. -/
abbrev colKey (c : Column) : Str := c.name.name

theorem flatMap_stmts {X : Type} (f : X → List AlterTable) (l : List X) : stmts (l.flatMap f) = l.flatMap (fun x => stmts (f x)) := by
  simp [stmts, List.map_flatMap]

theorem diffColumns_runs {t t' : CreateTable} (g : Good t) (g' : Good t') {T : Tbl} (ht : tn.diffStr = T.name)
    (hcols : T.cols = (tableOf t).cols)
    (hcons : ∀ c ∈ t.columns, (∀ c' ∈ t'.columns, c'.name.name ≠ c.name.name) → ∀ j p, T.cons j = some p → c.name.name ∉ p.definition.mentions) :
    Runs Step (some T) (stmts (diffColumns sd tn t.columns t'.columns)) (some { T with cols := (tableOf t').cols }) := by
  simp only [diffColumns]
  rw [show stmts (t.columns.flatMap (columnRound sd tn t'.columns) ++ (onlyLeftColumn t'.columns t.columns).map fun c => ⟨sd [] c.str, tn, .addColumn c⟩) =
    t.columns.flatMap (fun b => stmts (columnRound sd tn t'.columns b)) ++
    (onlyLeftColumn t'.columns t.columns).flatMap (fun c => stmts [⟨sd [] c.str, tn, .addColumn c⟩]) by
      simp only [stmts, List.map_append, List.map_flatMap, List.map_map, List.map_cons, List.map_nil]
      rw [← List.map_eq_flatMap]
      rfl]
  have hadd : ∀ x, x ∈ onlyLeftColumn t'.columns t.columns ↔ x ∈ t'.columns ∧ colKey x ∉ t.columns.map colKey := by
    intro x
    rw [Sp.onlyLeftColumn_eq, List.mem_filter]
    simp [colKey]
  have hnd : ((onlyLeftColumn t'.columns t.columns).map colKey).Nodup :=
    (g'.distinct.1).sublist ((List.filter_sublist).map _)
  have r1 := runs_each (step := Step) (key := colKey) (fun b => stmts (columnRound sd tn t'.columns b))
    (fun b => (t'.columns.find? (fun y => colKey y == colKey b)).map colOf) (fun m => some { T with cols := m })
    t.columns T.cols g.distinct.1 (by
      intro b hb m' hm'
      have hm : m' b.name.name = some (colOf b) := by
        rw [hm', hcols]
        simp only [tableOf, find?_of_nodup (f := fun c : Column => c.name.name) g.distinct.1 hb, Option.map_some]
      simp only [columnRound, findColumn]
      cases hf : t'.columns.find? (fun c => c.name.name == b.name.name) with
      | none =>
        simp only [colKey, Option.map_none]
        refine step_alter ht (Alter.dropColumn (T := { T with cols := m' }) b.name (by simp [hm]) ?_)
        intro j p hp
        refine hcons b hb ?_ j p hp
        intro c' hc' e
        have := List.find?_eq_none.1 hf c' hc'
        simp [e] at this
      | some a =>
        simp only [colKey, Option.map_some]
        have ha := List.mem_of_find?_eq_some hf
        have he : a.name.name = b.name.name := by simpa using List.find?_some hf
        exact alterColumn_runs (g.tame.1 b hb) (g'.tame.1 a ha) he (T := { T with cols := m' }) ht hm)
  have r2 := runs_each (step := Step) (key := colKey) (fun c => stmts [⟨sd [] c.str, tn, .addColumn c⟩])
    (fun c => some (colOf c)) (fun m => some { T with cols := m }) (onlyLeftColumn t'.columns t.columns)
    (over colKey t.columns (fun b => (t'.columns.find? (fun y => colKey y == colKey b)).map colOf) T.cols) hnd (by
      intro c hc m' hm'
      refine step_alter ht (Alter.addColumn (T := { T with cols := m' }) c ?_)
      have hk := ((hadd c).1 hc).2
      have : m' c.name.name = none := by
        rw [show m' c.name.name = m' (colKey c) from rfl, hm', over_not_mem _ _ hk, hcols]
        simp only [tableOf]
        rw [show t.columns.find? (fun x => x.name.name == colKey c) = none from find?_congr_key.2 hk]
        rfl
      exact this)
  have e := over_total (g := colOf) (b := t.columns) (a := t'.columns) (key := colKey) g'.distinct.1 hnd hadd
  rw [hcols] at r2
  rw [show (tableOf t).cols = fun k => (t.columns.find? (fun x => colKey x == k)).map colOf from rfl, e] at r2
  rw [hcols] at r1
  have r := r1.append r2
  rw [show (fun k => (t'.columns.find? (fun x => colKey x == k)).map colOf) = (tableOf t').cols from rfl] at r
  convert r using 2
  rw [← hcols]

/-! ## Constraints -/

theorem named_key {c : Constraint} (h : c.name ≠ none) (k : Str) : c.Named k ↔ c.key = k := by
  cases hn : c.name with
  | none => exact absurd hn h
  | some n => simp [Constraint.Named, Constraint.key, hn]

theorem find_named {l : List Constraint} (h : ∀ c ∈ l, c.name ≠ none) (k : Str) :
    l.find? (fun c => c.Named k) = l.find? (fun c => c.key == k) := by
  induction l with
  | nil => rfl
  | cons c l ih =>
    have hc := named_key (h c (by simp)) k
    simp only [List.find?_cons, ih fun x hx => h x (by simp [hx])]
    have : decide (c.Named k) = (c.key == k) := by
      by_cases e : c.key = k
      · simp [e, hc.2 e]
      · simp [e, hc]
    rw [this]

theorem findConstraint_eq {l : List Constraint} (h : ∀ c ∈ l, c.name ≠ none) (k : Str) :
    findConstraint k l = .ok (l.find? (fun c => c.key == k)) := by
  induction l with
  | nil => rfl
  | cons c l ih =>
    cases hn : c.name with
    | none => exact absurd hn (h c (by simp))
    | some n =>
      have hk : c.key = n.name := by simp [Constraint.key, hn]
      simp only [findConstraint, Constraint.nameStr, hn, Res.ok_bind, ih fun x hx => h x (by simp [hx]), List.find?_cons, hk]
      by_cases e : n.name = k
      · simp [e]
      · have : (n.name == k) = false := by simpa using e
        simp [e, this]

theorem nameStr_eq {c : Constraint} (h : c.name ≠ none) : c.nameStr = .ok c.key := by
  cases hn : c.name with
  | none => exact absurd hn h
  | some n => simp [Constraint.nameStr, Constraint.key, hn]

theorem append_eq {acc : List Constraint} {c : Constraint} (h : ∀ x ∈ acc, x.name ≠ none) (hc : c.name ≠ none)
    (hk : c.key ∉ acc.map Constraint.key) : appendConstraint acc c = .ok (acc ++ [c]) := by
  induction acc with
  | nil => rfl
  | cons x acc ih =>
    simp only [List.map_cons, List.mem_cons, not_or] at hk
    simp only [appendConstraint, nameStr_eq (h x (by simp)), nameStr_eq hc, Res.ok_bind, if_neg (Ne.symm hk.1),
      ih (fun y hy => h y (by simp [hy])) hk.2, List.cons_append]

theorem onlyLeft_eq {r l : List Constraint} (hr : ∀ x ∈ r, x.name ≠ none) (hl : ∀ x ∈ l, x.name ≠ none) :
    ∀ acc : List Constraint, (∀ x ∈ acc, x.name ≠ none) → ((acc ++ l).map Constraint.key).Nodup →
    onlyLeftConstraint r acc l = .ok (acc ++ l.filter (fun c => c.key ∉ r.map Constraint.key)) := by
  induction l with
  | nil => intro acc _ _; simp [onlyLeftConstraint]
  | cons c l ih =>
    intro acc hacc hnd
    have hc := hl c (by simp)
    simp only [onlyLeftConstraint, nameStr_eq hc, Res.ok_bind, findConstraint_eq hr]
    have hnd' : ((acc ++ l).map Constraint.key).Nodup :=
      hnd.sublist (((List.Sublist.refl acc).append (List.sublist_cons_self c l)).map _)
    cases hf : r.find? (fun x => x.key == c.key) with
    | none =>
      have hk : c.key ∉ r.map Constraint.key := find?_congr_key.1 hf
      have hca : c.key ∉ acc.map Constraint.key := by
        simp only [List.map_append, List.map_cons, List.nodup_append, List.mem_cons] at hnd
        intro m
        exact hnd.2.2 _ m _ (Or.inl rfl) rfl
      simp only [append_eq hacc hc hca, Res.ok_bind]
      rw [ih (fun x hx => hl x (by simp [hx])) (acc ++ [c]) ?_ (by simpa using hnd)]
      · rw [List.filter_cons_of_pos (by simpa using hk)]
        simp
      · intro x hx
        rcases List.mem_append.1 hx with hx | hx
        · exact hacc x hx
        · simp at hx; subst hx; exact hc
    | some a =>
      have hk : c.key ∈ r.map Constraint.key :=
        List.mem_map.2 ⟨a, List.mem_of_find?_eq_some hf, by simpa using List.find?_some hf⟩
      simp only
      rw [ih (fun x hx => hl x (by simp [hx])) acc hacc hnd', List.filter_cons_of_neg (by simpa using hk)]

theorem flatMapRes_pure {X : Type} {f : X → Res (List AlterTable)} {g : X → List AlterTable} {l : List X} (h : ∀ x ∈ l, f x = .ok (g x)) :
    flatMapRes f l = .ok (l.flatMap g) := by
  induction l with
  | nil => rfl
  | cons x l ih =>
    simp only [flatMapRes, h x (by simp), Res.ok_bind, ih fun y hy => h y (by simp [hy]), List.flatMap_cons]

/-- A constraint of the table. -/
abbrev conOf (c : Constraint) : Con := ⟨c.bare, true⟩

theorem tableOf_cons {t : CreateTable} (g : Good t) :
    (tableOf t).cons = fun k => (t.constraints.find? (fun c => c.key == k)).map conOf := by
  funext k
  simp only [tableOf, find_named g.distinct.2.2]

theorem keys_nodup {t : CreateTable} (g : Good t) : (t.constraints.map Constraint.key).Nodup := by
  have h := g.distinct.2.1
  have : (t.constraints.map (fun k => k.name.map Ident.name)) = (t.constraints.map Constraint.key).map some := by
    rw [List.map_map]
    refine List.map_congr_left ?_
    intro c hc
    cases hn : c.name with
    | none => exact absurd hn (g.distinct.2.2 c hc)
    | some n => simp [Constraint.key, hn]
  rw [this] at h
  exact (List.nodup_map_iff (fun _ _ h => Option.some.inj h)).1 h

theorem bare_mentions (c : Constraint) : c.bare.mentions = c.mentions := by
  cases c <;> simp [Constraint.bare, Constraint.mentions, Ident.bare, ColumnIdent.bare, Function.comp_def]

theorem rename_runs {t t' : CreateTable} (hs : t'.name.schema = none → t.name.schema = none) :
    renamedName t.name t'.name = t'.name ∧
    Runs Step (some (tableOf t)) (stmts (renameTable sd t.name t'.name)) (some { tableOf t with name := t'.name.diffStr }) := by
  have h : renamedName t.name t'.name = t'.name := by
    unfold renamedName
    split
    · rename_i h
      rw [hs h.2, ← h.2]
    · rfl
  refine ⟨h, ?_⟩
  rw [renameTable, h]
  split
  · exact step_alter rfl (Alter.renameTable _)
  · rename_i e
    simp only [ne_eq, not_not] at e
    rw [show ({ tableOf t with name := t'.name.diffStr } : Tbl) = tableOf t by rw [← e]; rfl]
    exact .nil _

theorem policy_runs {t t' : CreateTable} (g : Good t) (g' : Good t') {T : Tbl} (ht : tn.diffStr = T.name)
    (hp : T.policy = (tableOf t).policy) :
    Runs Step (some T) (stmts (diffRowDeletionPolicy sd tn t.rowDeletionPolicy t'.rowDeletionPolicy))
      (some { T with policy := (tableOf t').policy }) := by
  simp only [tableOf] at hp ⊢
  unfold diffRowDeletionPolicy
  split
  · rename_i hne
    cases hb : t.rowDeletionPolicy with
    | none =>
      rw [hb] at hp
      cases ha : t'.rowDeletionPolicy with
      | none => simp [hb, ha] at hne
      | some a => exact step_alter ht (Alter.addRowDeletionPolicy a hp)
    | some b =>
      rw [hb] at hp
      cases ha : t'.rowDeletionPolicy with
      | none => exact step_alter ht (Alter.dropRowDeletionPolicy (by rw [hp]; rfl))
      | some a => exact step_alter ht (Alter.replaceRowDeletionPolicy a (by rw [hp]; rfl))
  · rename_i heq
    simp only [ne_eq, not_not] at heq
    have : t.rowDeletionPolicy.map TableOption.bare = t'.rowDeletionPolicy.map TableOption.bare := by
      cases hb : t.rowDeletionPolicy with
      | none =>
        cases ha : t'.rowDeletionPolicy with
        | none => rfl
        | some a => simp [hb, ha, optionDiffStr, TableOption.diffStr] at heq
      | some b =>
        cases ha : t'.rowDeletionPolicy with
        | none => simp [hb, ha, optionDiffStr, TableOption.diffStr] at heq
        | some a =>
          have tb := g.tame.2.2 b hb
          have ta := g'.tame.2.2 a ha
          simp only [hb, ha, optionDiffStr, TableOption.diffStr, tb.1, ta.1, List.append_cancel_left_eq, exprDiffStr] at heq
          simp only [Option.map_some, TableOption.bare, tb.1, ta.1, words_inj tb.2 ta.2 heq]
    rw [← this, ← hp]
    exact .nil _

theorem diffTable_runs {t t' : CreateTable} (g : Good t) (g' : Good t') (hz : NoHazard t t')
    (hs : t'.name.schema = none → t.name.schema = none) (ho : optionsDiffStr t.options = optionsDiffStr t'.options)
    {dropped replaced : List AlterTable} {added : List Constraint}
    (hd : flatMapRes (dropConstraint sd (renamedName t.name t'.name) t'.constraints) t.constraints = .ok dropped)
    (hr : flatMapRes (replaceConstraint sd false (renamedName t.name t'.name) t'.constraints) t.constraints = .ok replaced)
    (ha : onlyLeftConstraint t.constraints [] t'.constraints = .ok added) :
    Runs Step (some (tableOf t)) (stmts (renameTable sd t.name t'.name ++ dropped ++
      diffColumns sd (renamedName t.name t'.name) t.columns t'.columns ++ replaced ++
      added.map (fun c => AlterTable.mk (sd [] c.str) (renamedName t.name t'.name) (.addConstraint c false)) ++
      diffRowDeletionPolicy sd (renamedName t.name t'.name) t.rowDeletionPolicy t'.rowDeletionPolicy)) (some (tableOf t')) := by
  obtain ⟨hn, r0⟩ := rename_runs (sd := sd) hs
  rw [hn] at hd hr ⊢
  have nb := g.distinct.2.2
  have na := g'.distinct.2.2
  have kb := keys_nodup g
  have ka := keys_nodup g'
  generalize htn : t'.name = tn at *
  -- dropping
  let fD : Constraint → List AlterTable := fun b =>
    match t'.constraints.find? (fun c => c.key == b.key) with
    | none => [⟨sd b.str [], tn, .dropConstraint b.name⟩]
    | some _ => []
  have eD : dropped = t.constraints.flatMap fD := by
    rw [flatMapRes_pure (g := fD)] at hd
    · exact (Res.ok.inj hd).symm
    · intro b hb
      simp only [dropConstraint, nameStr_eq (nb b hb), Res.ok_bind, findConstraint_eq na, fD]
      cases t'.constraints.find? (fun c => c.key == b.key) <;> rfl
  let fR : Constraint → List AlterTable := fun b =>
    match t'.constraints.find? (fun c => c.key == b.key) with
    | none => []
    | some a => if b.diffStr ≠ a.diffStr then
        [⟨sd b.str [], tn, .dropConstraint b.name⟩, ⟨sd [] a.str, tn, .addConstraint a false⟩] else []
  have eR : replaced = t.constraints.flatMap fR := by
    rw [flatMapRes_pure (g := fR)] at hr
    · exact (Res.ok.inj hr).symm
    · intro b hb
      simp only [replaceConstraint, nameStr_eq (nb b hb), Res.ok_bind, findConstraint_eq na, fR]
      cases t'.constraints.find? (fun c => c.key == b.key) with
      | none => rfl
      | some a => simp only; split <;> rfl
  have eA : added = t'.constraints.filter (fun c => c.key ∉ t.constraints.map Constraint.key) := by
    rw [onlyLeft_eq nb na [] (by simp) (by simpa using ka)] at ha
    exact (Res.ok.inj ha).symm
  have hadd : ∀ x, x ∈ added ↔ x ∈ t'.constraints ∧ x.key ∉ t.constraints.map Constraint.key := by
    intro x; rw [eA, List.mem_filter]; simp
  have hnd : (added.map Constraint.key).Nodup := by rw [eA]; exact ka.sublist (List.filter_sublist.map _)
  subst eD eR
  let T0 : Tbl := { tableOf t with name := tn.diffStr }
  have hT0 : T0.cons = fun k => (t.constraints.find? (fun c => c.key == k)).map conOf := tableOf_cons g
  let newD : Constraint → Option Con := fun b =>
    if b.key ∈ t'.constraints.map Constraint.key then some (conOf b) else none
  have hdropId : ∀ {b : Constraint}, b ∈ t.constraints → ∃ i, b.name = some i ∧ i.name = b.key := by
    intro b hb
    cases h : b.name with
    | none => exact absurd h (nb b hb)
    | some i => exact ⟨i, rfl, by simp [Constraint.key, h]⟩
  have r1 := runs_each (step := Step) (key := Constraint.key) (fun b => stmts (fD b)) newD (fun m => some { T0 with cons := m })
    t.constraints T0.cons kb (by
      intro b hb m' hm'
      have hm : m' b.key = some (conOf b) := by
        rw [hm', hT0]
        simp only [find?_of_nodup (f := Constraint.key) kb hb, Option.map_some]
      simp only [fD, newD]
      cases hf : t'.constraints.find? (fun c => c.key == b.key) with
      | none =>
        rw [if_neg (find?_congr_key.1 hf)]
        obtain ⟨i, hi, he⟩ := hdropId hb
        simp only [hi, ← he]
        exact step_alter rfl (Alter.dropConstraint (T := { T0 with cons := m' }) i (by rw [he]; simp [hm]))
      | some a =>
        have : b.key ∈ t'.constraints.map Constraint.key :=
          List.mem_map.2 ⟨a, List.mem_of_find?_eq_some hf, by simpa using List.find?_some hf⟩
        rw [if_pos this, upd_self _ hm]
        exact .nil _)
  -- columns
  let T1 : Tbl := { T0 with cons := over Constraint.key t.constraints newD T0.cons }
  have r2 := diffColumns_runs (sd := sd) (tn := tn) g g' (T := T1) rfl rfl (by
    intro c hc hgone j p hp
    have hj : j ∈ t.constraints.map Constraint.key := by
      by_contra hj
      simp only [T1] at hp
      rw [over_not_mem _ _ hj, hT0] at hp
      simp only [find?_congr_key.2 hj] at hp
      cases hp
    obtain ⟨b, hb, rfl⟩ := List.mem_map.1 hj
    simp only [T1] at hp
    rw [over_mem kb _ _ hb] at hp
    simp only [newD] at hp
    split at hp
    · rename_i hmem
      cases hp
      obtain ⟨a, ha', e⟩ := List.mem_map.1 hmem
      rw [bare_mentions]
      refine hz c hc hgone b hb a ha' ?_
      obtain ⟨i, hi, he⟩ := hdropId hb
      cases hai : a.name with
      | none => exact absurd hai (na a ha')
      | some x =>
        simp only [Constraint.key, hai, hi, Option.map_some, Option.getD_some] at e
        simp [hi, e]
    · cases hp)
  let T2 : Tbl := { T1 with cols := (tableOf t').cols }
  let newR : Constraint → Option Con := fun b => (t'.constraints.find? (fun y => y.key == b.key)).map conOf
  have hfit : ∀ a ∈ t'.constraints, ∀ x ∈ a.columnNames, ((tableOf t').cols x).isSome := by
    intro a ha' x hx
    obtain ⟨c, hc, rfl⟩ := g'.columns a ha' x hx
    simp only [tableOf, find?_of_nodup (f := fun c : Column => c.name.name) g'.distinct.1 hc, Option.map_some, Option.isSome_some]
  have hname : ∀ {a : Constraint}, a ∈ t'.constraints → a.Named a.key := fun ha' => (named_key (na _ ha') _).2 rfl
  have r3 := runs_each (step := Step) (key := Constraint.key) (fun b => stmts (fR b)) newR (fun m => some { T2 with cons := m })
    t.constraints T2.cons kb (by
      intro b hb m' hm'
      have hm : m' b.key = newD b := by
        rw [hm']
        exact over_mem kb _ _ hb
      simp only [fR, newR]
      cases hf : t'.constraints.find? (fun c => c.key == b.key) with
      | none =>
        simp only [newD, if_neg (find?_congr_key.1 hf)] at hm
        rw [Option.map_none, upd_self _ hm]
        exact .nil _
      | some a =>
        have ha' := List.mem_of_find?_eq_some hf
        have he : a.key = b.key := by simpa using List.find?_some hf
        have hin : b.key ∈ t'.constraints.map Constraint.key := List.mem_map.2 ⟨a, ha', he⟩
        simp only [newD, if_pos hin] at hm
        simp only [Option.map_some]
        split
        · obtain ⟨i, hi, hie⟩ := hdropId hb
          have s1 := Alter.dropConstraint (T := { T2 with cons := m' }) i (by rw [hie]; simp [hm])
          have s2 := Alter.addConstraint (T := { T2 with cons := upd m' i.name none }) a i.name false
            ((named_key (na a ha') _).2 (by rw [he, hie])) (by simp) (hfit a ha')
          simp only [hi]
          have := (step_alter (cm := sd b.str []) (tn := tn) (by rfl) s1).append (step_alter (cm := sd [] a.str) (tn := tn) (by rfl) s2)
          simpa [upd_upd, hie] using this
        · rename_i heq
          simp only [ne_eq, not_not] at heq
          have : conOf b = conOf a := by
            simp only [conOf, constraint_inj (g.tame.2.1 b hb) (g'.tame.2.1 a ha') ((named_key (nb b hb) _).2 rfl)
              ((named_key (na a ha') _).2 he) heq]
          rw [upd_self _ (by rw [hm, this])]
          exact .nil _)
  let T3 : Tbl := { T2 with cons := over Constraint.key t.constraints newR T2.cons }
  have r4 := runs_each (step := Step) (key := Constraint.key)
    (fun c => stmts [⟨sd [] c.str, tn, .addConstraint c false⟩]) (fun c => some (conOf c)) (fun m => some { T3 with cons := m })
    added T3.cons hnd (by
      intro c hc m' hm'
      obtain ⟨hc1, hc2⟩ := (hadd c).1 hc
      refine step_alter rfl (Alter.addConstraint (T := { T3 with cons := m' }) c c.key false (hname hc1) ?_ (hfit c hc1))
      show m' c.key = none
      rw [hm']
      simp only [T3, T2, T1]
      rw [over_over, over_not_mem _ _ hc2, hT0]
      simp only [find?_congr_key.2 hc2, Option.map_none])
  have e4 : over Constraint.key added (fun c => some (conOf c)) T3.cons = (tableOf t').cons := by
    simp only [T3, T2, T1]
    rw [over_over, hT0, tableOf_cons g']
    exact over_total ka hnd hadd
  rw [e4] at r4
  have r5 := policy_runs (sd := sd) (tn := tn) g g' (T := { T3 with cons := (tableOf t').cons }) rfl rfl
  have hopt : (tableOf t).options = (tableOf t').options := ho
  have hfin : ({ ({ T3 with cons := (tableOf t').cons } : Tbl) with policy := (tableOf t').policy } : Tbl) = tableOf t' := by
    simp only [T3, T2, T1, T0, hopt, ← htn]
    rfl
  rw [hfin] at r5
  have := ((((r0.append r1).append r2).append r3).append r4).append r5
  have hl : ∀ m : List Constraint, List.map (Stmt.alterTable : AlterTable → SStmt) (m.map (fun c => (⟨sd [] c.str, tn, .addConstraint c false⟩ : AlterTable))) =
      m.flatMap (fun c => stmts [⟨sd [] c.str, tn, .addConstraint c false⟩]) := by
    intro m
    rw [List.map_map, List.map_eq_flatMap]
    rfl
  simp only [stmts, List.map_append] at this ⊢
  rw [List.map_flatMap, List.map_flatMap, hl added]
  exact this

theorem diff_runs {b a : Option CreateTable} (hb : ∀ t, b = some t → Good t) (ha : ∀ t, a = some t → Good t)
    (hz : ∀ t t', b = some t → a = some t' → NoHazard t t' ∧ (t'.name.schema = none → t.name.schema = none)) {l : List SStmt}
    (h : diffCreateTable sd false b a = .ok l) : Runs Step (b.map tableOf) l (a.map tableOf) := by
  cases b with
  | none =>
    cases a with
    | none => cases h
    | some a => cases h; exact Runs.one (.createTable a)
  | some b =>
    cases a with
    | none => cases h; exact Runs.one (.dropTable _ _ _ _ rfl)
    | some a =>
      rcases Sp.diffTable_ok h with ⟨_, rfl⟩ | ⟨ho, _, _, dropped, replaced, added, hd, hr, hadd, rfl⟩
      · exact .cons (.dropTable _ _ _ _ rfl) (Runs.one (.createTable a))
      · exact diffTable_runs (hb b rfl) (ha a rfl) (hz b a rfl rfl).1 (hz b a rfl rfl).2 ho hd hr hadd

theorem diff_same {b a : CreateTable} (hb : Good b) (ha : Good a) (hz : NoHazard b a)
    (hs : a.name.schema = none → b.name.schema = none) {e : Err} (hne : b.str ≠ a.str)
    (h : diffCreateTable sd false (some b) (some a) = .err e) : tableOf b = tableOf a := by
  simp only [diffCreateTable] at h
  split at h
  · cases h
  · rename_i ho
    simp only [ne_eq, not_not] at ho
    have nb := hb.distinct.2.2
    have na := ha.distinct.2.2
    have hd : ∃ d, flatMapRes (dropConstraint sd (renamedName b.name a.name) a.constraints) b.constraints = .ok d := by
      refine ⟨_, flatMapRes_pure (g := fun x => match a.constraints.find? (fun c => c.key == x.key) with
        | none => [⟨sd x.str [], renamedName b.name a.name, .dropConstraint x.name⟩]
        | some _ => []) ?_⟩
      intro x hx
      simp only [dropConstraint, nameStr_eq (nb x hx), Res.ok_bind, findConstraint_eq na]
      cases a.constraints.find? (fun c => c.key == x.key) <;> rfl
    have hr : ∃ d, flatMapRes (replaceConstraint sd false (renamedName b.name a.name) a.constraints) b.constraints = .ok d := by
      refine ⟨_, flatMapRes_pure (g := fun x => match a.constraints.find? (fun c => c.key == x.key) with
        | none => []
        | some y => if x.diffStr ≠ y.diffStr then [⟨sd x.str [], renamedName b.name a.name, .dropConstraint x.name⟩,
            ⟨sd [] y.str, renamedName b.name a.name, .addConstraint y false⟩] else []) ?_⟩
      intro x hx
      simp only [replaceConstraint, nameStr_eq (nb x hx), Res.ok_bind, findConstraint_eq na]
      cases a.constraints.find? (fun c => c.key == x.key) with
      | none => rfl
      | some y => simp only; split <;> rfl
    obtain ⟨dropped, hd⟩ := hd
    obtain ⟨replaced, hr⟩ := hr
    have hadd := onlyLeft_eq nb na [] (by simp) (by simpa using keys_nodup ha)
    have run := diffTable_runs hb ha hz hs ho hd hr hadd
    simp only [hd, hr, hadd, Res.ok_bind] at h
    split at h
    · rename_i hnil
      rw [List.isEmpty_iff] at hnil
      rw [hnil] at run
      generalize hx : some (tableOf b) = x at run
      generalize hy : some (tableOf a) = y at run
      cases run
      exact Option.some.inj (hx.trans hy.symm)
    · cases h

end
end Ddl.Sp.Run
