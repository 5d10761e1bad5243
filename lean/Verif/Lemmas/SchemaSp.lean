import Verif.Lemmas.Phases
import Verif.Lemmas.RunSp
import Verif.Spec.Schema

/-! # Executing the diff of two Spanner schemas -/

namespace Ddl.Sp.Run
open Ddl Spec Phases
set_option autoImplicit false

/-! ## The database of a list of statements -/

/-- The first table of that name. -/
def tab (l : List SStmt) (n : Str) : Option CreateTable :=
  l.findSome? fun | .createTable t => if t.name.diffStr = n then some t else none | _ => none

/-- The first index of that name. -/
def idx (l : List SStmt) (n : Str) : Option CreateIndex :=
  l.findSome? fun | .createIndex i => if i.name.diffStr = n then some i else none | _ => none

/-- The database with the tables and indexes of the list. -/
def st (l : List SStmt) : Db := ⟨fun n => (tab l n).map tableOf, fun n => (idx l n).map indexOf⟩

variable {sd : Str → Str → Str}

theorem tab_mem {l : List SStmt} {n : Str} {t : CreateTable} (h : tab l n = some t) : .createTable t ∈ l ∧ t.name.diffStr = n := by
  obtain ⟨s, hs, h⟩ := List.exists_of_findSome?_eq_some h
  cases s with
  | createTable u =>
    simp only [Option.ite_none_right_eq_some, Option.some.injEq] at h
    obtain ⟨h', rfl⟩ := h
    exact ⟨hs, h'⟩
  | _ => cases h

theorem idx_mem {l : List SStmt} {n : Str} {t : CreateIndex} (h : idx l n = some t) : .createIndex t ∈ l ∧ t.name.diffStr = n := by
  obtain ⟨s, hs, h⟩ := List.exists_of_findSome?_eq_some h
  cases s with
  | createIndex u =>
    simp only [Option.ite_none_right_eq_some, Option.some.injEq] at h
    obtain ⟨h', rfl⟩ := h
    exact ⟨hs, h'⟩
  | _ => cases h

theorem tab_isSome {l : List SStmt} {n : Str} : (tab l n).isSome ↔ HasTable l n := by
  constructor
  · intro h
    obtain ⟨t, ht⟩ := Option.isSome_iff_exists.1 h
    exact ⟨t, tab_mem ht⟩
  · rintro ⟨t, ht, rfl⟩
    rw [tab, List.findSome?_isSome_iff]
    exact ⟨_, ht, by simp⟩

theorem idx_isSome {l : List SStmt} {n : Str} : (idx l n).isSome ↔ HasIndex l n := by
  constructor
  · intro h
    obtain ⟨t, ht⟩ := Option.isSome_iff_exists.1 h
    exact ⟨t, idx_mem ht⟩
  · rintro ⟨t, ht, rfl⟩
    rw [idx, List.findSome?_isSome_iff]
    exact ⟨_, ht, by simp⟩

theorem tab_iff {l : List SStmt} (hd : DistinctObjects (ops sd) l) {n : Str} {t : CreateTable} :
    tab l n = some t ↔ .createTable t ∈ l ∧ t.name.diffStr = n := by
  refine ⟨tab_mem, ?_⟩
  rintro ⟨ht, rfl⟩
  obtain ⟨u, hu⟩ := Option.isSome_iff_exists.1 (tab_isSome.2 ⟨t, ht, rfl⟩)
  obtain ⟨h1, h2⟩ := tab_mem hu
  have := distinct_unique hd h1 ht (k := .table t.name.diffStr) (by simp [creates, ops, h2]) (by simp [creates, ops])
  cases this
  exact hu

theorem idx_iff {l : List SStmt} (hd : DistinctObjects (ops sd) l) {n : Str} {t : CreateIndex} :
    idx l n = some t ↔ .createIndex t ∈ l ∧ t.name.diffStr = n := by
  refine ⟨idx_mem, ?_⟩
  rintro ⟨ht, rfl⟩
  obtain ⟨u, hu⟩ := Option.isSome_iff_exists.1 (idx_isSome.2 ⟨t, ht, rfl⟩)
  obtain ⟨h1, h2⟩ := idx_mem hu
  have := distinct_unique hd h1 ht (k := .index t.name.diffStr) (by simp [creates, ops, h2]) (by simp [creates, ops])
  cases this
  exact hu

theorem st_perm {l l' : List SStmt} (h : l.Perm l') (hd : DistinctObjects (ops sd) l) : st l = st l' := by
  have hd' := distinct_perm h hd
  have e1 : tab l = tab l' := by
    funext n
    refine Option.ext fun t => ?_
    rw [tab_iff hd, tab_iff hd', h.mem_iff]
  have e2 : idx l = idx l' := by
    funext n
    refine Option.ext fun t => ?_
    rw [idx_iff hd, idx_iff hd', h.mem_iff]
  rw [st, st, e1, e2]

theorem st_nil : st [] = Db.empty := rfl

theorem st_table (t : CreateTable) (l : List SStmt) :
    st (.createTable t :: l) = { st l with tables := upd (st l).tables t.name.diffStr (some (tableOf t)) } := by
  have : (fun n => (tab (.createTable t :: l) n).map tableOf) = upd (fun n => (tab l n).map tableOf) t.name.diffStr (some (tableOf t)) := by
    funext n
    simp only [tab, List.findSome?_cons, upd]
    by_cases h : t.name.diffStr = n
    · rw [if_pos h, if_pos h.symm]
      rfl
    · rw [if_neg h, if_neg (Ne.symm h)]
  simp only [st, this]
  rfl

theorem st_index (i : CreateIndex) (l : List SStmt) :
    st (.createIndex i :: l) = { st l with indexes := upd (st l).indexes i.name.diffStr (some (indexOf i)) } := by
  have : (fun n => (idx (.createIndex i :: l) n).map indexOf) = upd (fun n => (idx l n).map indexOf) i.name.diffStr (some (indexOf i)) := by
    funext n
    simp only [idx, List.findSome?_cons, upd]
    by_cases h : i.name.diffStr = n
    · rw [if_pos h, if_pos h.symm]
      rfl
    · rw [if_neg h, if_neg (Ne.symm h)]
  simp only [st, this]
  rfl

theorem tables_isSome {l : List SStmt} {n : Str} : ((st l).tables n).isSome ↔ HasTable l n := by
  rw [← tab_isSome]
  simp [st]

theorem indexes_isSome {l : List SStmt} {n : Str} : ((st l).indexes n).isSome ↔ HasIndex l n := by
  rw [← idx_isSome]
  simp [st]

theorem tables_none {l : List SStmt} {n : Str} : (st l).tables n = none ↔ ¬ HasTable l n := by
  rw [← tables_isSome]
  simp

theorem indexes_none {l : List SStmt} {n : Str} : (st l).indexes n = none ↔ ¬ HasIndex l n := by
  rw [← indexes_isSome]
  simp

theorem tables_some {l : List SStmt} {n : Str} {T : Tbl} (h : (st l).tables n = some T) :
    ∃ t, .createTable t ∈ l ∧ t.name.diffStr = n ∧ tableOf t = T := by
  simp only [st, Option.map_eq_some_iff] at h
  obtain ⟨t, ht, rfl⟩ := h
  obtain ⟨h1, h2⟩ := tab_mem ht
  exact ⟨t, h1, h2, rfl⟩

theorem indexes_some {l : List SStmt} {n : Str} {i : Ix} (h : (st l).indexes n = some i) :
    ∃ j, .createIndex j ∈ l ∧ j.name.diffStr = n ∧ indexOf j = i := by
  simp only [st, Option.map_eq_some_iff] at h
  obtain ⟨t, ht, rfl⟩ := h
  obtain ⟨h1, h2⟩ := idx_mem ht
  exact ⟨t, h1, h2, rfl⟩

theorem tables_of_mem {l : List SStmt} (hd : DistinctObjects (ops sd) l) {t : CreateTable} (h : .createTable t ∈ l) :
    (st l).tables t.name.diffStr = some (tableOf t) := by
  simp only [st, (tab_iff hd).2 ⟨h, rfl⟩, Option.map_some]

theorem tableOf_cols {t : CreateTable} {k : Str} : ((tableOf t).cols k).isSome ↔ HasColumn t k := by
  simp [tableOf, HasColumn]

theorem indexOf_on {i : CreateIndex} {n k : Str} : (indexOf i).On n k ↔ i.tableName.diffStr = n ∧ k ∈ i.columns.map (·.ident.name) := by
  simp [Ix.On, indexOf, ColumnIdent.bare, Ident.bare]

theorem hasTable_iff {l : List SStmt} {n : Str} : HasTable l n ↔ Defines (ops sd) l (.table n) := by
  constructor
  · rintro ⟨t, ht, rfl⟩
    exact ⟨_, ht, rfl⟩
  · rintro ⟨s, hs, h⟩
    cases s with
    | createTable t =>
      simp only [creates, Option.some.injEq, Obj.table.injEq] at h
      exact ⟨t, hs, h⟩
    | createIndex i => simp [creates] at h
    | _ => simp [creates] at h

theorem hasIndex_iff {l : List SStmt} {n : Str} : HasIndex l n ↔ Defines (ops sd) l (.index n) := by
  constructor
  · rintro ⟨t, ht, rfl⟩
    exact ⟨_, ht, rfl⟩
  · rintro ⟨s, hs, h⟩
    cases s with
    | createIndex t =>
      simp only [creates, Option.some.injEq, Obj.index.injEq] at h
      exact ⟨t, hs, h⟩
    | createTable i => simp [creates] at h
    | _ => simp [creates] at h

/-! ## Executing CREATE statements on an empty database -/

/-- What a CREATE statement needs, when the statements of `p` have been executed. -/
def OkAfter (p : List SStmt) : SStmt → Prop
  | .createTable t => DistinctNames t ∧ (∀ c ∈ t.constraints, ∀ k ∈ c.columnNames, ∃ x ∈ t.columns, x.name.name = k) ∧
      ∀ r, (tableOf t).Refers r → r = t.name.diffStr ∨ HasTable p r
  | .createIndex i => ∃ t, .createTable t ∈ p ∧ t.name.diffStr = i.tableName.diffStr ∧ ∀ x ∈ i.columns, HasColumn t x.ident.name
  | _ => False

theorem exec_create {X : List SStmt} {s : SStmt} (hd : DistinctObjects (ops sd) (X ++ [s])) (h : OkAfter X s) : Exec (st X) s (st (X ++ [s])) := by
  have hp : (X ++ [s]).Perm (s :: X) := by simpa using List.perm_append_comm (l₁ := X) (l₂ := [s])
  rw [st_perm hp hd]
  have hd' := distinct_perm hp hd
  cases s with
  | createTable t =>
    rw [st_table]
    refine .createTable t (tables_none.2 ?_) h.1 h.2.1 fun r hr => (h.2.2 r hr).imp_right tables_isSome.2
    rintro ⟨u, hu, hn⟩
    rw [DistinctObjects, List.filterMap_cons_some (show creates (ops sd) (.createTable t) = some (.table t.name.diffStr) from rfl), List.nodup_cons] at hd'
    exact hd'.1 (List.mem_filterMap.2 ⟨_, hu, by simp [creates, ops, hn]⟩)
  | createIndex i =>
    rw [st_index]
    obtain ⟨t, ht, hn, hc⟩ := h
    have hX : DistinctObjects (ops sd) X := distinct_sublist (List.sublist_append_left _ _) hd
    refine .createIndex i (tableOf t) (indexes_none.2 ?_) (by rw [← hn]; exact tables_of_mem hX ht) fun x hx => tableOf_cols.2 (hc x hx)
    rintro ⟨u, hu, hn⟩
    rw [DistinctObjects, List.filterMap_cons_some (show creates (ops sd) (.createIndex i) = some (.index i.name.diffStr) from rfl), List.nodup_cons] at hd'
    exact hd'.1 (List.mem_filterMap.2 ⟨_, hu, by simp [creates, ops, hn]⟩)
  | _ => exact h.elim

theorem exec_created {X : List SStmt} {s : SStmt} {D : Db} (hd : DistinctObjects (ops sd) (X ++ [s])) (hs : (creates (ops sd) s).isSome)
    (h : Exec (st X) s D) : OkAfter X s := by
  have hp : (X ++ [s]).Perm (s :: X) := by simpa using List.perm_append_comm (l₁ := X) (l₂ := [s])
  have hd' := distinct_perm hp hd
  cases h with
  | createTable t h1 h2 h3 h4 => exact ⟨h2, h3, fun r hr => (h4 r hr).imp_right tables_isSome.1⟩
  | createTableExists t h1 _ =>
    obtain ⟨u, hu, hn⟩ := tables_isSome.1 h1
    rw [DistinctObjects, List.filterMap_cons_some (show creates (ops sd) (.createTable t) = some (.table t.name.diffStr) from rfl), List.nodup_cons] at hd'
    exact absurd (List.mem_filterMap.2 ⟨_, hu, by simp [creates, ops, hn]⟩) hd'.1
  | createIndex i T h1 h2 h3 =>
    obtain ⟨t, ht, hn, rfl⟩ := tables_some h2
    exact ⟨t, ht, hn, fun x hx => tableOf_cols.1 (h3 x hx)⟩
  | createIndexExists i h1 _ =>
    obtain ⟨u, hu, hn⟩ := indexes_isSome.1 h1
    rw [DistinctObjects, List.filterMap_cons_some (show creates (ops sd) (.createIndex i) = some (.index i.name.diffStr) from rfl), List.nodup_cons] at hd'
    exact absurd (List.mem_filterMap.2 ⟨_, hu, by simp [creates, ops, hn]⟩) hd'.1
  | _ => simp [creates] at hs

theorem exec_unique {d d₁ d₂ : Db} {s : SStmt} (hs : (creates (ops sd) s).isSome) (h₁ : Exec d s d₁) (h₂ : Exec d s d₂) : d₁ = d₂ := by
  cases h₁ with
  | createTable t a => cases h₂ with
    | createTable => rfl
    | createTableExists _ b => rw [a] at b; cases b
  | createTableExists t a => cases h₂ with
    | createTable _ b => rw [b] at a; cases a
    | createTableExists => rfl
  | createIndex t T a => cases h₂ with
    | createIndex => rfl
    | createIndexExists _ b => rw [a] at b; cases b
  | createIndexExists t a => cases h₂ with
    | createIndex _ _ b => rw [b] at a; cases a
    | createIndexExists => rfl
  | _ => simp [creates] at hs

theorem created {p q : List SStmt} {D : Db} (hc : CreateOnly (ops sd) q) (hd : DistinctObjects (ops sd) (p ++ q)) (h : Runs Exec (st p) q D) :
    D = st (p ++ q) ∧ ∀ q₁ s q₂, q = q₁ ++ s :: q₂ → OkAfter (p ++ q₁) s := by
  induction q generalizing p with
  | nil =>
    rw [List.append_nil]
    generalize hx : st p = x at h ⊢
    cases h
    exact ⟨rfl, fun q₁ s q₂ e => by simp at e⟩
  | cons s q ih =>
    have e : p ++ s :: q = (p ++ [s]) ++ q := by simp
    have hd1 : DistinctObjects (ops sd) (p ++ [s]) := by
      rw [e] at hd
      exact distinct_sublist (List.sublist_append_left _ _) hd
    have hs := hc s List.mem_cons_self
    obtain ⟨D', h1, h2⟩ : ∃ D', Exec (st p) s D' ∧ Runs Exec D' q D := by
      generalize st p = x at h
      cases h with
      | cons h1 h2 => exact ⟨_, h1, h2⟩
    have hok := exec_created hd1 hs h1
    rw [exec_unique hs h1 (exec_create hd1 hok)] at h2
    obtain ⟨i1, i2⟩ := ih (fun x hx => hc x (List.mem_cons_of_mem _ hx)) (by rw [← e]; exact hd) h2
    refine ⟨by rw [e]; exact i1, ?_⟩
    intro q₁ x q₂ eq
    cases q₁ with
    | nil =>
      simp only [List.nil_append, List.cons.injEq] at eq
      obtain ⟨rfl, rfl⟩ := eq
      rw [List.append_nil]
      exact hok
    | cons y q₁ =>
      simp only [List.cons_append, List.cons.injEq] at eq
      obtain ⟨rfl, eq⟩ := eq
      have := i2 q₁ x q₂ eq
      simpa using this

/-! ## The alterations of a table -/

theorem alter_name {T T' : Tbl} {act : Action} (h : Alter T act T') (hr : ∀ n, act ≠ .renameTable n) : T'.name = T.name := by
  cases h with
  | renameTable n => exact absurd rfl (hr n)
  | _ => rfl

theorem lift {l : List SStmt} {T : Tbl} {X : Option Tbl} {d : Db} {n : Str} (hrun : Runs Step (some T) l X) (hT : T.name = n)
    (hl : ∀ s ∈ l, ∃ cm tn act, s = .alterTable ⟨cm, tn, act⟩ ∧ ∀ U, Allowed { d with tables := upd d.tables n (some U) } n act) :
    ∃ T', X = some T' ∧ Runs Exec { d with tables := upd d.tables n (some T) } l { d with tables := upd d.tables n (some T') } := by
  induction l generalizing T with
  | nil =>
    have hx : X = some T := by
      generalize some T = x at hrun
      cases hrun
      rfl
    exact ⟨T, hx, .nil _⟩
  | cons s l ih =>
    obtain ⟨cm, tn, act, rfl, hal⟩ := hl s List.mem_cons_self
    obtain ⟨Y, h1, h2⟩ : ∃ Y, Step (some T) (.alterTable ⟨cm, tn, act⟩) Y ∧ Runs Step Y l X := by
      generalize some T = x at hrun
      cases hrun with
      | cons h1 h2 => exact ⟨_, h1, h2⟩
    cases h1 with
    | alterTable _ T' _ _ _ hn ha =>
      have hnr : ∀ m, act ≠ .renameTable m := by
        rintro m rfl
        exact hal T
      obtain ⟨T'', hX, hr⟩ := ih h2 ((alter_name ha hnr).trans hT) fun s hs => hl s (List.mem_cons_of_mem _ hs)
      refine ⟨T'', hX, .cons ?_ hr⟩
      rw [hT] at hn
      have := Exec.alterTable (d := { d with tables := upd d.tables n (some T) }) cm tn act T T' (by simp [hn]) (by rw [hn]; exact hal T) ha
      simpa [hn, upd_upd] using this

/-- The alterations of `t` into `t'` drop columns of `t` that are not in `t'` and add constraints of `t'`. -/
def ActOf (t t' : CreateTable) : Action → Prop
  | .dropColumn k => HasColumn t k.name ∧ ¬ HasColumn t' k.name
  | .addConstraint c _ => c ∈ t'.constraints
  | .renameTable _ => False
  | _ => True

theorem flatMapRes_mem {α β : Type} {f : α → Res (List β)} {l : List α} {r : List β} (h : flatMapRes f l = .ok r) {y : β} (hy : y ∈ r) :
    ∃ x ∈ l, ∃ m, f x = .ok m ∧ y ∈ m := by
  obtain ⟨rs, h1, rfl⟩ := flatMapRes_ok.1 h
  obtain ⟨m, hm, hy⟩ := List.mem_flatten.1 hy
  obtain ⟨x, hx, hxm⟩ := forall₂_mem_right h1 m hm
  exact ⟨x, hx, m, hxm, hy⟩

theorem diff_acts {t t' : CreateTable} (hn : t.name.diffStr = t'.name.diffStr) (g : Good t) (g' : Good t') {l : List SStmt}
    (h : diffCreateTable sd false (some t) (some t') = .ok l) :
    (optionsDiffStr t.options ≠ optionsDiffStr t'.options ∧
      l = [.dropTable (sd (optionsStr t.options) (optionsStr t'.options)) false t.name, .createTable t']) ∨
    (optionsDiffStr t.options = optionsDiffStr t'.options ∧
      ∀ s ∈ l, ∃ cm tn act, s = .alterTable ⟨cm, tn, act⟩ ∧ ActOf t t' act) := by
  rcases Sp.diffTable_ok h with ⟨h1, rfl⟩ | ⟨ho, _, _, dropped, replaced, added, hd, hr, hadd, rfl⟩
  · exact Or.inl ⟨h1, rfl⟩
  · refine Or.inr ⟨ho, ?_⟩
    rw [onlyLeft_eq g.distinct.2.2 g'.distinct.2.2 [] (by simp) (by simpa using keys_nodup g')] at hadd
    cases hadd
    have key : ∀ x ∈ renameTable sd t.name t'.name ++ dropped ++ diffColumns sd (renamedName t.name t'.name) t.columns t'.columns ++ replaced ++
        (([] : List Constraint) ++ t'.constraints.filter (fun c => c.key ∉ t.constraints.map Constraint.key)).map
          (fun c => AlterTable.mk (sd [] c.str) (renamedName t.name t'.name) (.addConstraint c false)) ++
        diffRowDeletionPolicy sd (renamedName t.name t'.name) t.rowDeletionPolicy t'.rowDeletionPolicy, ActOf t t' x.action := by
      intro x hx
      simp only [List.mem_append] at hx
      rcases hx with ((((hx | hx) | hx) | hx) | hx) | hx
      · simp [renameTable, hn] at hx
      · obtain ⟨c, _, m, hm, hx⟩ := flatMapRes_mem hd hx
        simp only [dropConstraint, bind_eq_ok] at hm
        obtain ⟨nm, _, f, _, hm⟩ := hm
        cases f with
        | none => cases hm; simp at hx; subst hx; exact trivial
        | some _ => cases hm; cases hx
      · simp only [diffColumns, List.mem_append, List.mem_flatMap, List.mem_map] at hx
        rcases hx with ⟨c, hc, hx⟩ | ⟨c, hc, rfl⟩
        · simp only [columnRound] at hx
          split at hx
          · rename_i hf
            simp only [List.mem_singleton] at hx
            subst hx
            refine ⟨⟨c, hc, rfl⟩, ?_⟩
            rintro ⟨c', hc', e⟩
            have := List.find?_eq_none.1 hf c' hc'
            simp [e] at this
          · simp only [alterColumn, List.mem_append] at hx
            rcases hx with (hx | hx) | hx
            · split at hx
              · simp at hx; subst hx; exact trivial
              · cases hx
            · split at hx
              · simp at hx; subst hx; exact trivial
              · split at hx
                · simp at hx; subst hx; exact trivial
                · cases hx
            · split at hx
              · simp at hx; subst hx; exact trivial
              · split at hx
                · simp at hx; subst hx; exact trivial
                · cases hx
        · exact trivial
      · obtain ⟨c, _, m, hm, hx⟩ := flatMapRes_mem hr hx
        simp only [replaceConstraint, bind_eq_ok] at hm
        obtain ⟨nm, _, f, hf, hm⟩ := hm
        rw [findConstraint_eq g'.distinct.2.2] at hf
        cases hf
        split at hm
        · cases hm; cases hx
        · rename_i a hfa
          split at hm
          · cases hm
            simp only [List.mem_cons, List.not_mem_nil, or_false] at hx
            rcases hx with rfl | rfl
            · exact trivial
            · exact List.mem_of_find?_eq_some hfa
          · cases hm; cases hx
      · simp only [List.nil_append, List.mem_map, List.mem_filter] at hx
        obtain ⟨c, hc, rfl⟩ := hx
        exact hc.1
      · unfold diffRowDeletionPolicy at hx
        split at hx
        · split at hx
          all_goals first
            | (simp at hx; subst hx; exact trivial)
            | cases hx
        · cases hx
    intro s hs
    obtain ⟨x, hx, rfl⟩ := List.mem_map.1 hs
    exact ⟨x.comment, x.name, x.action, rfl, key x hx⟩

theorem diff_total {b a : CreateTable} (hb : Good b) (ha : Good a) :
    (∃ l, diffCreateTable sd false (some b) (some a) = .ok l) ∨ diffCreateTable sd false (some b) (some a) = .err .noDifference := by
  simp only [diffCreateTable]
  split
  · exact Or.inl ⟨_, rfl⟩
  · have nb := hb.distinct.2.2
    have na := ha.distinct.2.2
    have hd : ∃ d, flatMapRes (dropConstraint sd (renamedName b.name a.name) a.constraints) b.constraints = .ok d := by
      refine ⟨_, flatMapRes_pure (g := fun x => match a.constraints.find? (fun c => c.key == x.key) with
        | none => [⟨sd x.str [], renamedName b.name a.name, .dropConstraint x.name⟩]
        | some _ => []) ?_⟩
      intro x hx
      simp only [dropConstraint, nameStr_eq (nb x hx), Res.ok_bind, findConstraint_eq na]
      cases a.constraints.find? (fun c => c.key == x.key) <;> rfl
    have hr : ∃ d, flatMapRes (replaceConstraint sd false (renamedName b.name a.name) a.constraints) b.constraints = .ok d := by
      refine ⟨_, flatMapRes_pure (g := fun x => match a.constraints.find? (fun c => c.key == x.key) with
        | none => []
        | some y => if x.diffStr ≠ y.diffStr then [⟨sd x.str [], renamedName b.name a.name, .dropConstraint x.name⟩,
            ⟨sd [] y.str, renamedName b.name a.name, .addConstraint y false⟩] else []) ?_⟩
      intro x hx
      simp only [replaceConstraint, nameStr_eq (nb x hx), Res.ok_bind, findConstraint_eq na]
      cases a.constraints.find? (fun c => c.key == x.key) with
      | none => rfl
      | some y => simp only; split <;> rfl
    obtain ⟨dropped, hd⟩ := hd
    obtain ⟨replaced, hr⟩ := hr
    split
    · exact Or.inr rfl
    · rw [hd, hr, onlyLeft_eq nb na [] (by simp) (by simpa using keys_nodup ha)]
      simp only [Res.ok_bind]
      split
      · exact Or.inr rfl
      · exact Or.inl ⟨_, rfl⟩

/-! ## Indexes -/

theorem index_inj {i i' : CreateIndex} (h : IndexTame i) (h' : IndexTame i') (hn : i.name.diffStr = i'.name.diffStr)
    (ht : i.tableName.diffStr = i'.tableName.diffStr) (e : i.diffStr = i'.diffStr) : indexOf i = indexOf i' := by
  simp only [CreateIndex.diffStr, hn, ht, List.append_assoc] at e
  have e := List.append_cancel_left e
  have hu : i.isUnique = i'.isUnique := by
    cases h1 : i.isUnique <;> cases h2 : i'.isUnique <;> rw [h1, h2] at e
    · cases e
    · cases e
  rw [hu] at e
  have e := List.append_cancel_left (List.append_cancel_left e)
  have e := List.append_cancel_left (List.append_cancel_left (List.append_cancel_left (List.append_cancel_left e)))
  have e := List.append_cancel_right e
  simp only [indexOf, hu, ht, columns_inj h h' e]

/-! ## The diff of two schemas -/

theorem optionText_eq (o : TableOption) : o.diffStr = optionText o := rfl

theorem options_eq (t : CreateTable) : (tableOf t).options = optionsDiffStr t.options := rfl

theorem not_in_rest {X Y : List SStmt} {s : SStmt} {k : Obj} (hd : DistinctObjects (ops sd) (X ++ s :: Y)) (hk : creates (ops sd) s = some k) :
    ¬ Defines (ops sd) (X ++ Y) k := by
  rintro ⟨u, hu, huk⟩
  have := distinct_perm List.perm_middle hd
  rw [DistinctObjects, List.filterMap_cons_some hk, List.nodup_cons] at this
  exact this.1 (List.mem_filterMap.2 ⟨u, hu, huk⟩)

theorem exec_dropTable {X Y : List SStmt} {t : CreateTable} (hd : DistinctObjects (ops sd) (X ++ .createTable t :: Y)) {cm : Str}
    (h1 : ∀ i, .createIndex i ∈ X ++ Y → i.tableName.diffStr ≠ t.name.diffStr)
    (h2 : ∀ u, .createTable u ∈ X ++ Y → u.name.diffStr ≠ t.name.diffStr → ¬ (tableOf u).Refers t.name.diffStr) :
    Exec (st (X ++ .createTable t :: Y)) (.dropTable cm false t.name) (st (X ++ Y)) := by
  have hno : (st (X ++ Y)).tables t.name.diffStr = none :=
    tables_none.2 fun h => not_in_rest (k := .table t.name.diffStr) hd rfl (hasTable_iff.1 h)
  have mem : ∀ {x : SStmt}, x ∈ X ++ .createTable t :: Y → x = .createTable t ∨ x ∈ X ++ Y := by
    intro x hx
    rw [List.mem_append, List.mem_cons] at hx
    rw [List.mem_append]
    tauto
  have := Exec.dropTable (d := st (X ++ .createTable t :: Y)) cm false t.name (tables_isSome.2 ⟨t, by simp, rfl⟩) ?_ ?_
  · rw [st_perm List.perm_middle hd] at this ⊢
    rw [st_table] at this ⊢
    simp only [upd_upd, upd_self _ hno] at this
    exact this
  · intro j i hi
    obtain ⟨i', hi', _, rfl⟩ := indexes_some hi
    rcases mem hi' with e | hi'
    · cases e
    · exact h1 i' hi'
  · intro m U hm hU
    obtain ⟨u, hu, rfl, rfl⟩ := tables_some hU
    rcases mem hu with e | hu
    · cases e
      exact absurd rfl hm
    · exact h2 u hu hm

theorem exec_dropIndex {X Y : List SStmt} {i : CreateIndex} (hd : DistinctObjects (ops sd) (X ++ .createIndex i :: Y)) {cm : Str} :
    Exec (st (X ++ .createIndex i :: Y)) (.dropIndex cm false i.name) (st (X ++ Y)) := by
  have hno : (st (X ++ Y)).indexes i.name.diffStr = none :=
    indexes_none.2 fun h => not_in_rest (k := .index i.name.diffStr) hd rfl (hasIndex_iff.1 h)
  have := Exec.dropIndex (d := st (X ++ .createIndex i :: Y)) cm false i.name (indexes_isSome.2 ⟨i, by simp, rfl⟩)
  rw [st_perm List.perm_middle hd] at this ⊢
  rw [st_index] at this ⊢
  simp only [upd_upd, upd_self _ hno] at this
  exact this

theorem distinct_swap {X Y : List SStmt} {s s' : SStmt} (e : creates (ops sd) s' = creates (ops sd) s) (hd : DistinctObjects (ops sd) (X ++ s :: Y)) :
    DistinctObjects (ops sd) (X ++ s' :: Y) := by
  unfold DistinctObjects at hd ⊢
  simp only [List.filterMap_append, List.filterMap_cons, e] at hd ⊢
  exact hd

theorem refers_of_constraint {t : CreateTable} (g : Good t) {c : Constraint} (hc : c ∈ t.constraints) {r : Str} (h : c.target = some r) :
    (tableOf t).Refers r := by
  obtain ⟨n, hn⟩ := Option.ne_none_iff_exists'.1 (g.distinct.2.2 c hc)
  refine Or.inr ⟨n.name, ⟨c.bare, true⟩, ?_, ?_⟩
  · simp only [tableOf]
    have hN : c.Named n.name := by simp [Constraint.Named, hn]
    obtain ⟨d, hd⟩ := Option.isSome_iff_exists.1 (List.find?_isSome.2 ⟨c, hc, by simpa using hN⟩ : (t.constraints.find? (fun c => c.Named n.name)).isSome)
    have hdN : d.Named n.name := by simpa using List.find?_some hd
    have hdm := List.mem_of_find?_eq_some hd
    have : d = c := List.inj_on_of_nodup_map g.distinct.2.1 hdm hc (hdN.trans hN.symm)
    rw [hd, this]
    rfl
  · cases c with
    | foreignKey => exact h
    | check => cases h

/-- What is known of the two schemas. -/
structure Given (sd : Str → Str → Str) (b a : List SStmt) : Prop where
  cb : CreateOnly (ops sd) b
  ca : CreateOnly (ops sd) a
  db : DistinctObjects (ops sd) b
  da : DistinctObjects (ops sd) a
  okb : ∀ p s q, b = p ++ s :: q → OkAfter p s
  oka : ∀ p s q, a = p ++ s :: q → OkAfter p s
  tb : TameSchema b
  ta : TameSchema a
  ss : SameSchemas (ops sd) b a
  hz : NoSchemaHazard b a
  str : ∀ t t', .createTable t ∈ b → .createTable t' ∈ a → t.str = t'.str → t = t'

theorem Given.goodb {b a : List SStmt} (G : Given sd b a) {t : CreateTable} (h : .createTable t ∈ b) : Good t := by
  obtain ⟨p, q, e⟩ := List.append_of_mem h
  have := G.okb p _ q e
  exact ⟨this.1, G.tb.1 t h, this.2.1⟩

theorem Given.gooda {b a : List SStmt} (G : Given sd b a) {t : CreateTable} (h : .createTable t ∈ a) : Good t := by
  obtain ⟨p, q, e⟩ := List.append_of_mem h
  have := G.oka p _ q e
  exact ⟨this.1, G.ta.1 t h, this.2.1⟩

theorem table_eq {l : List SStmt} (hd : DistinctObjects (ops sd) l) {t u : CreateTable} (ht : .createTable t ∈ l) (hu : .createTable u ∈ l)
    (e : t.name.diffStr = u.name.diffStr) : t = u := by
  have := distinct_unique hd ht hu (k := .table u.name.diffStr) (by simp [creates, ops, e]) (by simp [creates, ops])
  cases this
  rfl

theorem Given.drop {b a : List SStmt} (G : Given sd b a) {s d : SStmt} {X Y : List SStmt} (h : IsDropFor (ops sd) s d)
    (c : DropCtx (ops sd) b a s X Y) : Exec (st (X ++ s :: Y)) d (st (X ++ Y)) := by
  cases h with
  | table t =>
    have hg : ¬ HasTable a t.name.diffStr := fun h => c.gone _ rfl (hasTable_iff.1 h)
    exact exec_dropTable c.distinct (fun i hi => G.hz.droppedTableIndex t i c.mem hg (c.sub _ hi))
      fun u hu hn => G.hz.droppedTableReferred t u c.mem hg (c.sub _ hu) hn
  | index i => exact exec_dropIndex c.distinct

theorem Given.create {b a : List SStmt} (G : Given sd b a) {s : SStmt} {X : List SStmt} (c : CreateCtx (ops sd) b a s X) :
    Exec (st X) s (st (X ++ [s])) := by
  refine exec_create c.distinct ?_
  obtain ⟨p, q, e⟩ := List.append_of_mem c.mem
  have ok := G.oka p s q e
  have hbef : ∀ n, HasTable p n → HasTable X n := by
    rintro n ⟨t, ht, rfl⟩
    exact hasTable_iff.2 (c.before p q e _ ht _ rfl)
  cases s with
  | createTable t => exact ⟨ok.1, ok.2.1, fun r hr => (ok.2.2 r hr).imp_right (hbef r)⟩
  | createIndex i =>
    obtain ⟨t, ht, hn, hc⟩ := ok
    have hta : .createTable t ∈ a := by rw [e]; exact List.mem_append_left _ ht
    by_cases hb : HasTable b t.name.diffStr
    · obtain ⟨t₀, ht₀, hn₀⟩ := hb
      refine ⟨t₀, c.kept _ ht₀ _ rfl ⟨_, hta, ?_⟩, hn₀.trans hn, fun x hx => ?_⟩
      · simp only [creates, ops, hn₀]
      · exact G.hz.newIndexColumn t₀ t i x ⟨ht₀, hta, hn₀⟩ c.mem (fun h => c.new _ rfl (hasIndex_iff.1 h)) (hn.symm.trans hn₀.symm) hx
    · obtain ⟨u, hu, hun⟩ := hbef _ ⟨t, ht, rfl⟩
      refine ⟨t, ?_, hn, hc⟩
      rcases c.sub _ hu with ⟨h1, _⟩ | ⟨h1, _⟩
      · exact absurd ⟨u, h1, hun⟩ hb
      · rw [table_eq G.da hta h1 hun.symm]
        exact hu
  | _ => exact ok.elim

theorem findStmt_eq {a : List SStmt} (da : DistinctObjects (ops sd) a) {s s' : SStmt} {k : Obj} (hk : creates (ops sd) s = some k) (hs : s' ∈ a)
    (hk' : creates (ops sd) s' = some k) : findStmt (ops sd) s a = some s' := by
  cases h : findStmt (ops sd) s a with
  | none =>
    have := (findStmt_none_iff hk).1 (by rw [h]; rfl : (findStmt (ops sd) s a).isNone = true)
    exact absurd ⟨s', hs, hk'⟩ this
  | some x =>
    obtain ⟨h1, h2⟩ := findStmt_creates hk h
    rw [distinct_unique da h1 hs h2 hk']

theorem Given.total {b a : List SStmt} (G : Given sd b a) {s : SStmt} (hs : s ∈ b) : ∃ l, alterOf (ops sd) a s = .ok l := by
  cases s with
  | createTable t =>
    simp only [alterOf]
    split
    · rename_i t' hf
      have hm := (findStmt_some hf).1
      rcases diff_total (sd := sd) (G.goodb hs) (G.gooda hm) with ⟨l, h⟩ | h
      · exact ⟨l, by simp only [ops, h]⟩
      · exact ⟨[], by simp only [ops, h]⟩
    · exact ⟨_, rfl⟩
  | createIndex i =>
    simp only [alterOf]
    split
    · split <;> exact ⟨_, rfl⟩
    · exact ⟨_, rfl⟩
  | _ => exact ⟨_, rfl⟩

theorem Given.alterT {b a : List SStmt} (G : Given sd b a) {t t' : CreateTable} {X Y l : List SStmt}
    (c : AlterCtx (ops sd) b a (.createTable t) (.createTable t') X Y) (hn : t.name.diffStr = t'.name.diffStr)
    (h : diffCreateTable sd false (some t) (some t') = .ok l) : Runs Exec (st (X ++ .createTable t :: Y)) l (st (X ++ .createTable t' :: Y)) := by
  have gb := G.goodb c.mem
  have ga := G.gooda c.mem'
  have stays : Stays b a t t' := ⟨c.mem, c.mem', hn⟩
  have hsch : t'.name.schema = none → t.name.schema = none := by
    intro h
    have := G.ss t t' c.mem c.mem' hn
    simp only [ops, h, Option.map_none, Option.map_eq_none_iff] at this
    exact this
  have hd' := distinct_swap c.same c.distinct
  obtain ⟨p, q, e⟩ := List.append_of_mem c.mem'
  have ok := G.oka p _ q e
  -- the tables `t'` refers to
  have hrefs : ∀ r, (tableOf t').Refers r → r = t'.name.diffStr ∨ HasTable (X ++ Y) r := by
    intro r hr
    refine (ok.2.2 r hr).imp_right ?_
    rintro ⟨u, hu, rfl⟩
    have hall := c.all (.table u.name.diffStr) ⟨_, by rw [e]; exact List.mem_append_left _ hu, rfl⟩
    obtain ⟨v, hv, hvn⟩ := hasTable_iff.2 hall
    rw [List.mem_append, List.mem_cons] at hv
    by_cases hvt : (Stmt.createTable v : SStmt) = .createTable t
    · cases hvt
      -- then `u` is `t'` again
      have : u = t' := table_eq G.da (by rw [e]; exact List.mem_append_left _ hu) c.mem' (hvn.symm.trans hn)
      subst this
      have hnd := distinct_nodup G.da G.ca
      rw [e, List.nodup_append] at hnd
      exact absurd rfl (hnd.2.2 _ hu _ List.mem_cons_self)
    · exact ⟨v, by rw [List.mem_append]; tauto, hvn⟩
  rcases diff_acts hn gb ga h with ⟨ho, rfl⟩ | ⟨ho, hacts⟩
  · have hopt : (tableOf t).options ≠ (tableOf t').options := ho
    refine .cons (exec_dropTable c.distinct (fun i hi => ?_) fun u hu hun => ?_) (Runs.one ?_)
    · refine G.hz.recreatedIndex t t' i stays hopt ?_
      exact (c.sub _ hi).imp_left fun h => ⟨h.1, hasIndex_iff.2 (h.2 _ rfl)⟩
    · refine G.hz.recreatedReferred t t' u stays hopt ?_ hun
      exact (c.sub _ hu).imp_left fun h => ⟨h.1, hasTable_iff.2 (h.2 _ rfl)⟩
    · have hp : (X ++ .createTable t' :: Y).Perm (X ++ Y ++ [.createTable t']) :=
        List.perm_middle.trans (by simpa using List.perm_append_comm (l₁ := [(Stmt.createTable t' : SStmt)]) (l₂ := X ++ Y))
      rw [st_perm hp hd']
      exact exec_create (distinct_perm hp hd') ⟨ok.1, ok.2.1, hrefs⟩
  · have run := diff_runs (sd := sd) (b := some t) (a := some t') (by rintro _ ⟨⟩; exact gb) (by rintro _ ⟨⟩; exact ga)
      (by rintro _ _ ⟨⟩ ⟨⟩; exact ⟨G.hz.table t t' stays, hsch⟩) h
    rw [st_perm List.perm_middle c.distinct, st_perm List.perm_middle hd', st_table, st_table, ← hn]
    obtain ⟨T', hT', hr⟩ := lift (d := st (X ++ Y)) (n := t.name.diffStr) run rfl fun s hs => by
      obtain ⟨cm, tn, act, rfl, hact⟩ := hacts s hs
      refine ⟨cm, tn, act, rfl, fun U => ?_⟩
      cases act with
      | dropColumn k =>
        intro j i hi hon
        obtain ⟨i', hi', _, rfl⟩ := indexes_some hi
        rw [indexOf_on] at hon
        rcases c.sub _ hi' with ⟨h1, h2⟩ | h1
        · exact G.hz.droppedColumnIndex t t' k.name i' stays hact.1 hact.2 h1 (hasIndex_iff.2 (h2 _ rfl)) hon.1 hon.2
        · obtain ⟨p₁, q₁, e₁⟩ := List.append_of_mem h1
          obtain ⟨u, hu, hun, huc⟩ := G.oka p₁ _ q₁ e₁
          have : u = t' := table_eq G.da (by rw [e₁]; exact List.mem_append_left _ hu) c.mem' (hun.trans (hon.1.trans hn))
          subst this
          obtain ⟨x, hx, hxk⟩ := List.mem_map.1 hon.2
          exact hact.2 (hxk ▸ huc x hx)
      | addConstraint con nv =>
        intro r hr
        rcases hrefs r (refers_of_constraint ga hact hr) with rfl | h
        · simp [hn]
        · simp only [upd]
          split
          · rfl
          · exact tables_isSome.2 h
      | renameTable => exact hact
      | _ => exact trivial
    cases hT'
    exact hr

theorem Given.alter {b a : List SStmt} (G : Given sd b a) {s s' : SStmt} {X Y l : List SStmt} (c : AlterCtx (ops sd) b a s s' X Y)
    (h : alterOf (ops sd) a s = .ok l) : Runs Exec (st (X ++ s :: Y)) l (st (X ++ s' :: Y)) := by
  have hd' := distinct_swap c.same c.distinct
  obtain ⟨k, hk⟩ := Option.isSome_iff_exists.1 (G.cb s c.mem)
  have hf := findStmt_eq G.da hk c.mem' (c.same.trans hk)
  cases s with
  | createTable t =>
    obtain ⟨t', rfl, hn⟩ : ∃ t', s' = .createTable t' ∧ t.name.diffStr = t'.name.diffStr := by
      have := c.same
      cases s' <;> simp only [creates, ops, Option.some.injEq, Obj.table.injEq, reduceCtorEq] at this
      exact ⟨_, rfl, this.symm⟩
    simp only [alterOf, hf] at h
    rcases diff_total (sd := sd) (G.goodb c.mem) (G.gooda c.mem') with ⟨l', hl⟩ | hl
    · simp only [ops, hl, Res.ok.injEq] at h
      subst h
      exact G.alterT c hn hl
    · simp only [ops, hl, Res.ok.injEq] at h
      subst h
      have e : tableOf t = tableOf t' := by
        by_cases hs : t.str = t'.str
        · rw [G.str t t' c.mem c.mem' hs]
        · refine diff_same (sd := sd) (G.goodb c.mem) (G.gooda c.mem') (G.hz.table t t' ⟨c.mem, c.mem', hn⟩) ?_ hs hl
          intro h
          have := G.ss t t' c.mem c.mem' hn
          simp only [ops, h, Option.map_none, Option.map_eq_none_iff] at this
          exact this
      rw [st_perm List.perm_middle c.distinct, st_perm List.perm_middle hd', st_table, st_table, hn, e]
      exact .nil _
  | createIndex i =>
    obtain ⟨i', rfl, hn⟩ : ∃ i', s' = .createIndex i' ∧ i.name.diffStr = i'.name.diffStr := by
      have := c.same
      cases s' <;> simp only [creates, ops, Option.some.injEq, Obj.index.injEq, reduceCtorEq] at this
      exact ⟨_, rfl, this.symm⟩
    simp only [alterOf, hf] at h
    have ht := G.hz.keptIndex i i' c.mem c.mem' hn
    split at h
    · cases h
      refine .cons (exec_dropIndex c.distinct) (Runs.one ?_)
      have hp : (X ++ .createIndex i' :: Y).Perm (X ++ Y ++ [.createIndex i']) :=
        List.perm_middle.trans (by simpa using List.perm_append_comm (l₁ := [(Stmt.createIndex i' : SStmt)]) (l₂ := X ++ Y))
      rw [st_perm hp hd']
      refine exec_create (distinct_perm hp hd') ?_
      obtain ⟨p, q, e⟩ := List.append_of_mem c.mem'
      obtain ⟨t, htm, htn, hcols⟩ := G.oka p _ q e
      obtain ⟨p₀, q₀, e₀⟩ := List.append_of_mem c.mem
      obtain ⟨t₀, htm₀, htn₀, _⟩ := G.okb p₀ _ q₀ e₀
      refine ⟨t, List.mem_append_left _ ?_, htn, hcols⟩
      refine c.before p₀ q₀ e₀ _ htm₀ _ (by rw [e]; exact List.mem_append_left _ htm) (.table t.name.diffStr) ?_ rfl
      simp only [creates, ops, htn₀, ht, htn]
    · rename_i hne
      cases h
      simp only [ops, ne_eq, not_not] at hne
      rw [st_perm List.perm_middle c.distinct, st_perm List.perm_middle hd', st_index, st_index, hn,
        index_inj (G.tb.2 i c.mem) (G.ta.2 i' c.mem') hn ht hne]
      exact .nil _
  | _ => simp [creates] at hk

theorem migrate {b a : List SStmt} {B A : Db} (cb : CreateOnly (ops sd) b) (ca : CreateOnly (ops sd) a) (db : DistinctObjects (ops sd) b)
    (da : DistinctObjects (ops sd) a) (tb : TameSchema b) (ta : TameSchema a) (ss : SameSchemas (ops sd) b a) (hz : NoSchemaHazard b a)
    (str : ∀ t t', .createTable t ∈ b → .createTable t' ∈ a → t.str = t'.str → t = t')
    (all : ddlStr (ops sd) b = ddlStr (ops sd) a → b = a)
    (hB : Runs Exec Db.empty b B) (hA : Runs Exec Db.empty a A) :
    (∃ l, diff (ops sd) (some b) (some a) = .ok l ∧ Runs Exec B l A) ∨ (diff (ops sd) (some b) (some a) = .err .noDifference ∧ B = A) := by
  rw [← st_nil] at hB hA
  obtain ⟨rfl, okb⟩ := created (sd := sd) (p := []) cb db hB
  obtain ⟨rfl, oka⟩ := created (sd := sd) (p := []) ca da hA
  simp only [List.nil_append] at okb oka ⊢
  have G : Given sd b a := ⟨cb, ca, db, da, okb, oka, tb, ta, ss, hz, str⟩
  exact diff_run cb ca db da (fun l l' h hd => st_perm h hd) (fun e => by rw [all e]) (fun s d X Y => G.drop)
    (fun s X => G.create) (fun s hs => G.total hs) fun s s' X Y l => G.alter

end Ddl.Sp.Run
