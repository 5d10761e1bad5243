import Verif.Lemmas.DiffObjects
import Verif.Pg.Diff
import Verif.Crdb.Diff
import Verif.My.Diff
import Verif.Sp.Diff
import Verif.Spec.Inline

/-! # What the table diffs of the four dialects are about -/

namespace Ddl
open Spec

variable {sd : Str → Str → Str}

section pg
open Pg

theorem Pg.diffTable_ok {nv : Bool} {t t' : Pg.CreateTable} {l : List PStmt}
    (h : Pg.diffCreateTable sd nv (some t) (some t') = .ok l) :
    l = (Pg.renameTable sd t.name t'.name ++ Pg.dropConstraints sd (Pg.renamedName t.name t'.name) t.constraints t'.constraints ++
      Pg.diffColumns sd (Pg.renamedName t.name t'.name) t.columns t'.columns ++
      Pg.replaceConstraints sd nv (Pg.renamedName t.name t'.name) t.constraints t'.constraints ++
      Pg.addConstraints sd nv (Pg.renamedName t.name t'.name) t.constraints t'.constraints).map Stmt.alterTable ∧
    t.str ≠ t'.str ∧ l ≠ [] := by
  simp only [Pg.diffCreateTable] at h
  split at h
  · cases h
  · split at h
    · cases h
    · rename_i h1 h2
      cases h
      refine ⟨rfl, h1, ?_⟩
      simpa using h2

theorem Pg.alterColumn_name {tn : ObjectName} {b a : Pg.Column} : ∀ x ∈ Pg.alterColumn sd tn b a, x.name = tn := by
  intro x hx
  simp only [Pg.alterColumn, List.mem_append] at hx
  rcases hx with (hx | hx) | hx <;> split at hx <;> try split at hx
  all_goals simp at hx
  all_goals subst hx; rfl

theorem Pg.diffColumns_name {tn : ObjectName} {b a : List Pg.Column} : ∀ x ∈ Pg.diffColumns sd tn b a, x.name = tn := by
  intro x hx
  simp only [Pg.diffColumns, List.mem_append, List.mem_flatMap, List.mem_map] at hx
  rcases hx with ⟨c, _, hx⟩ | ⟨c, _, rfl⟩
  · simp only [Pg.columnRound] at hx
    split at hx
    · simp at hx; subst hx; rfl
    · exact Pg.alterColumn_name x hx
  · rfl

theorem Pg.diffTable_about {nv : Bool} {t t' : Pg.CreateTable} {l : List PStmt} (hn : t.name.diffStr = t'.name.diffStr)
    (h : Pg.diffCreateTable sd nv (some t) (some t') = .ok l) :
    ∀ x ∈ l, ∃ a : Pg.AlterTable, x = .alterTable a ∧ a.name.diffStr = t.name.diffStr := by
  obtain ⟨rfl, _, _⟩ := Pg.diffTable_ok h
  have hr : Pg.renamedName t.name t'.name = t'.name := by simp [Pg.renamedName, hn]
  rw [hr]
  intro x hx
  obtain ⟨a, ha, rfl⟩ := List.mem_map.1 hx
  refine ⟨a, rfl, ?_⟩
  simp only [List.mem_append] at ha
  rcases ha with (((ha | ha) | ha) | ha) | ha
  · simp [Pg.renameTable, hn] at ha
  · simp only [Pg.dropConstraints, List.mem_flatMap] at ha
    obtain ⟨c, _, hc⟩ := ha
    split at hc <;> simp at hc
    subst hc; exact hn.symm
  · rw [Pg.diffColumns_name a ha, hn]
  · simp only [Pg.replaceConstraints, List.mem_flatMap] at ha
    obtain ⟨c, _, hc⟩ := ha
    split at hc
    · simp at hc
    · split at hc <;> simp at hc
      rcases hc with rfl | rfl <;> exact hn.symm
  · simp only [Pg.addConstraints, List.mem_map] at ha
    obtain ⟨c, _, rfl⟩ := ha
    exact hn.symm

theorem Pg.tableDiffAbout {t t' : Pg.CreateTable} {l : List PStmt} (hn : t.name.diffStr = t'.name.diffStr)
    (h : (Pg.ops sd).diffTable t t' = .ok l) : ∀ x ∈ l, TableDiffAbout (Pg.ops sd) (fun _ => []) t t' x := by
  intro x hx
  obtain ⟨a, rfl, ha⟩ := Pg.diffTable_about hn h x hx
  exact .inl (by simp [about, creates, drops, alters, Pg.ops, ha])

theorem Pg.no_drops {t t' : Pg.CreateTable} {l : List PStmt} (h : (Pg.ops sd).diffTable t t' = .ok l) :
    ∀ x ∈ l, ∀ k, drops (Pg.ops sd) x ≠ some (.table k) := by
  obtain ⟨rfl, _⟩ := Pg.diffTable_ok h
  intro x hx k
  obtain ⟨a, _, rfl⟩ := List.mem_map.1 hx
  simp [drops]

end pg

section crdb
open Crdb

theorem Crdb.diffTable_ok {nv : Bool} {t t' : Crdb.CreateTable} {l : List CStmt}
    (h : Crdb.diffCreateTable sd nv (some t) (some t') = .ok l) :
    l = (Crdb.renameTable sd t.name t'.name).map Stmt.alterTable ++
      Crdb.dropConstraints sd (Crdb.renamedName t.name t'.name) t.constraints t'.constraints ++
      (Crdb.diffColumns sd (Crdb.renamedName t.name t'.name) t.columns t'.columns).map Stmt.alterTable ++
      Crdb.replaceConstraints sd nv (Crdb.renamedName t.name t'.name) t.constraints t'.constraints ++
      Crdb.addConstraints sd nv (Crdb.renamedName t.name t'.name) t.constraints t'.constraints ∧
    t.str ≠ t'.str ∧ l ≠ [] := by
  simp only [Crdb.diffCreateTable] at h
  split at h
  · cases h
  · split at h
    · cases h
    · rename_i h1 h2
      cases h
      refine ⟨rfl, h1, ?_⟩
      simpa using h2

theorem Crdb.alterColumn_name {tn : ObjectName} {b a : Crdb.Column} : ∀ x ∈ Crdb.alterColumn sd tn b a, x.name = tn := by
  intro x hx
  simp only [Crdb.alterColumn, List.mem_append] at hx
  rcases hx with (hx | hx) | hx <;> split at hx <;> try split at hx
  all_goals simp at hx
  all_goals subst hx; rfl

theorem Crdb.diffColumns_name {tn : ObjectName} {b a : List Crdb.Column} :
    ∀ x ∈ Crdb.diffColumns sd tn b a, x.name = tn := by
  intro x hx
  simp only [Crdb.diffColumns, List.mem_append, List.mem_flatMap, List.mem_map] at hx
  rcases hx with ⟨c, _, hx⟩ | ⟨c, _, rfl⟩
  · simp only [Crdb.columnRound] at hx
    split at hx
    · split at hx
      · simp at hx
      · simp at hx; subst hx; rfl
    · exact Crdb.alterColumn_name x hx
  · rfl

theorem Crdb.replaceConstraint_mem {l : List Crdb.Constraint} {c : Crdb.Constraint} {l' : List Crdb.Constraint}
    (h : Crdb.replaceConstraint l c = some l') : ∀ x ∈ l', x ∈ l ∨ x = c := by
  induction l generalizing l' with
  | nil => simp [Crdb.replaceConstraint] at h
  | cons y l ih =>
    simp only [Crdb.replaceConstraint] at h
    split at h
    · cases h
      intro x hx
      rcases List.mem_cons.1 hx with rfl | hx
      · exact .inr rfl
      · exact .inl (List.mem_cons_of_mem _ hx)
    · obtain ⟨l'', hl, rfl⟩ := Option.map_eq_some_iff.1 h
      intro x hx
      rcases List.mem_cons.1 hx with rfl | hx
      · exact .inl List.mem_cons_self
      · rcases ih hl x hx with h | h
        · exact .inl (List.mem_cons_of_mem _ h)
        · exact .inr h

theorem Crdb.mem_sortPrimaryKey {l : List Crdb.Constraint} {x : Crdb.Constraint} : x ∈ Crdb.sortPrimaryKey l ↔ x ∈ l := by
  have : ∀ acc : List Crdb.Constraint,
      x ∈ l.foldl (fun acc c => if c.isPrimaryKey then c :: acc else acc ++ [c]) acc ↔ x ∈ acc ∨ x ∈ l := by
    induction l with
    | nil => simp
    | cons c l ih =>
      intro acc
      rw [List.foldl_cons, ih]
      split <;> simp <;> tauto
  simpa [Crdb.sortPrimaryKey] using this []

theorem Crdb.appendConstraint_mem {l : List Crdb.Constraint} {c : Crdb.Constraint} :
    ∀ x ∈ Crdb.appendConstraint l c, x ∈ l ∨ x = c := by
  intro x hx
  simp only [Crdb.appendConstraint] at hx
  split at hx
  · exact Crdb.replaceConstraint_mem (by assumption) x hx
  · rw [Crdb.mem_sortPrimaryKey] at hx
    simpa using hx

theorem Crdb.foldl_append_mem {m l : List Crdb.Constraint} :
    ∀ x ∈ m.foldl Crdb.appendConstraint l, x ∈ l ∨ x ∈ m := by
  induction m generalizing l with
  | nil => simp
  | cons c m ih =>
    intro x hx
    rw [List.foldl_cons] at hx
    rcases ih x hx with h | h
    · rcases Crdb.appendConstraint_mem x h with h | rfl
      · exact .inl h
      · exact .inr List.mem_cons_self
    · exact .inr (List.mem_cons_of_mem _ h)

theorem Crdb.onlyLeftConstraint_mem {l r : List Crdb.Constraint} {x : Crdb.Constraint}
    (h : x ∈ Crdb.onlyLeftConstraint l r) : x ∈ l := by
  rcases Crdb.foldl_append_mem x h with h | h
  · simp at h
  · exact (List.mem_filter.1 h).1

theorem Crdb.tableDiffAbout {t t' : Crdb.CreateTable} {l : List CStmt} (hn : t.name.diffStr = t'.name.diffStr)
    (h : (Crdb.ops sd).diffTable t t' = .ok l) :
    ∀ x ∈ l, TableDiffAbout (Crdb.ops sd) Crdb.inlineIndexes t t' x := by
  obtain ⟨rfl, _, _⟩ := Crdb.diffTable_ok h
  have hr : Crdb.renamedName t.name t'.name = t'.name := by simp [Crdb.renamedName, hn]
  rw [hr]
  have halter : ∀ a : Crdb.AlterTable, a.name = t'.name →
      TableDiffAbout (Crdb.ops sd) Crdb.inlineIndexes t t' (.alterTable a) := by
    intro a ha
    exact .inl (by simp [about, creates, drops, alters, Crdb.ops, ha, hn])
  intro x hx
  simp only [List.mem_append] at hx
  rcases hx with (((ha | ha) | ha) | ha) | ha
  · simp [Crdb.renameTable, hn] at ha
  · simp only [Crdb.dropConstraints, List.mem_flatMap] at ha
    obtain ⟨c, hcm, hc⟩ := ha
    split at hc
    · split at hc
      · simp at hc; subst hc
        refine .inr ⟨_, rfl, .inl ?_⟩
        exact List.mem_filterMap.2 ⟨_, hcm, rfl⟩
      · simp at hc; subst hc; exact halter _ rfl
    · simp at hc
  · obtain ⟨a, ha', rfl⟩ := List.mem_map.1 ha
    exact halter a (Crdb.diffColumns_name a ha')
  · simp only [Crdb.replaceConstraints, List.mem_flatMap] at ha
    obtain ⟨c, hcm, hc⟩ := ha
    split at hc
    · simp at hc
    · rename_i a hf
      have ham := List.mem_of_find?_eq_some hf
      have han := List.find?_some hf
      simp only [beq_iff_eq] at han
      split at hc
      · split at hc
        · rename_i n uq pre cs post _
          have hin : n.name ∈ Crdb.inlineIndexes t' := List.mem_filterMap.2 ⟨_, ham, rfl⟩
          simp only [List.mem_cons, List.not_mem_nil, or_false] at hc
          rcases hc with rfl | rfl
          · refine .inr ⟨n.name, ?_, .inr hin⟩
            simp only [about, creates, drops, Crdb.ops, Option.some.injEq, Obj.index.injEq]
            exact han.symm
          · exact .inr ⟨n.name, rfl, .inr hin⟩
        · simp only [List.mem_cons, List.not_mem_nil, or_false] at hc
          rcases hc with rfl | rfl <;> exact halter _ rfl
      · simp at hc
  · simp only [Crdb.addConstraints, List.mem_map] at ha
    obtain ⟨c, hc, rfl⟩ := ha
    have hcm := Crdb.onlyLeftConstraint_mem hc
    split
    · exact .inr ⟨_, rfl, .inr (List.mem_filterMap.2 ⟨_, hcm, rfl⟩)⟩
    · exact halter _ rfl

theorem Crdb.no_drops {t t' : Crdb.CreateTable} {l : List CStmt} (h : (Crdb.ops sd).diffTable t t' = .ok l) :
    ∀ x ∈ l, ∀ k, drops (Crdb.ops sd) x ≠ some (.table k) := by
  obtain ⟨rfl, _⟩ := Crdb.diffTable_ok h
  intro x hx k
  simp only [List.mem_append, List.mem_map, Crdb.dropConstraints, Crdb.replaceConstraints, Crdb.addConstraints,
    List.mem_flatMap] at hx
  rcases hx with (((⟨_, _, rfl⟩ | ⟨c, _, hc⟩) | ⟨_, _, rfl⟩) | ⟨c, _, hc⟩) | ⟨c, _, rfl⟩
  · simp [drops]
  · split at hc
    · split at hc <;> simp at hc <;> subst hc <;> simp [drops]
    · simp at hc
  · simp [drops]
  · split at hc
    · simp at hc
    · split at hc
      · split at hc <;> simp at hc <;> rcases hc with rfl | rfl <;> simp [drops, Crdb.indexStmt]
      · simp at hc
  · split <;> simp [drops, Crdb.indexStmt]

end crdb

section mysql
open My

theorem My.diffTable_ok {nv : Bool} {t t' : My.CreateTable} {l : List MStmt}
    (h : My.diffCreateTable sd nv (some t) (some t') = .ok l) :
    l = (My.renameTable sd t.name t'.name).map Stmt.alterTable ++
      My.dropConstraints sd t.name.schema (My.renamedName t.name t'.name) t.constraints t'.constraints ++
      (My.diffColumns sd (My.renamedName t.name t'.name) t.columns t'.columns).map Stmt.alterTable ++
      My.replaceConstraints sd nv t.name.schema (My.renamedName t.name t'.name) t.constraints t'.constraints ++
      My.addConstraints sd nv (My.renamedName t.name t'.name) t.constraints t'.constraints ++
      (My.changeOptions sd (My.renamedName t.name t'.name) t.options t'.options ++
        My.addOptions sd (My.renamedName t.name t'.name) t.options t'.options).map Stmt.alterTable ∧
    t.str ≠ t'.str ∧ l ≠ [] := by
  simp only [My.diffCreateTable] at h
  split at h
  · cases h
  · split at h
    · cases h
    · rename_i h1 h2
      cases h
      refine ⟨rfl, h1, ?_⟩
      simpa using h2

theorem My.alterColumn_name {tn : ObjectName} {b a : My.Column} : ∀ x ∈ My.alterColumn sd tn b a, x.name = tn := by
  intro x hx
  simp only [My.alterColumn, List.mem_append] at hx
  rcases hx with hx | hx <;> split at hx
  all_goals simp at hx
  all_goals subst hx; rfl

theorem My.diffColumns_name {tn : ObjectName} {b a : List My.Column} :
    ∀ x ∈ My.diffColumns sd tn b a, x.name = tn := by
  intro x hx
  simp only [My.diffColumns, List.mem_append, List.mem_flatMap, List.mem_map] at hx
  rcases hx with ⟨c, _, hx⟩ | ⟨c, _, rfl⟩
  · simp only [My.columnRound] at hx
    split at hx
    · simp at hx; subst hx; rfl
    · exact My.alterColumn_name x hx
  · rfl

theorem My.replaceConstraint_mem {l : List My.Constraint} {c : My.Constraint} {l' : List My.Constraint}
    (h : My.replaceConstraint l c = some l') : ∀ x ∈ l', x ∈ l ∨ x = c := by
  induction l generalizing l' with
  | nil => simp [My.replaceConstraint] at h
  | cons y l ih =>
    simp only [My.replaceConstraint] at h
    split at h
    · cases h
      intro x hx
      rcases List.mem_cons.1 hx with rfl | hx
      · exact .inr rfl
      · exact .inl (List.mem_cons_of_mem _ hx)
    · obtain ⟨l'', hl, rfl⟩ := Option.map_eq_some_iff.1 h
      intro x hx
      rcases List.mem_cons.1 hx with rfl | hx
      · exact .inl List.mem_cons_self
      · rcases ih hl x hx with h | h
        · exact .inl (List.mem_cons_of_mem _ h)
        · exact .inr h

theorem My.mem_sortPrimaryKey {l : List My.Constraint} {x : My.Constraint} : x ∈ My.sortPrimaryKey l ↔ x ∈ l := by
  have : ∀ acc : List My.Constraint,
      x ∈ l.foldl (fun acc c => if c.isPrimaryKey then c :: acc else acc ++ [c]) acc ↔ x ∈ acc ∨ x ∈ l := by
    induction l with
    | nil => simp
    | cons c l ih =>
      intro acc
      rw [List.foldl_cons, ih]
      split <;> simp <;> tauto
  simpa [My.sortPrimaryKey] using this []

theorem My.appendConstraint_mem {l : List My.Constraint} {c : My.Constraint} :
    ∀ x ∈ My.appendConstraint l c, x ∈ l ∨ x = c := by
  intro x hx
  simp only [My.appendConstraint] at hx
  split at hx
  · exact My.replaceConstraint_mem (by assumption) x hx
  · rw [My.mem_sortPrimaryKey] at hx
    simpa using hx

theorem My.foldl_append_mem {m l : List My.Constraint} :
    ∀ x ∈ m.foldl My.appendConstraint l, x ∈ l ∨ x ∈ m := by
  induction m generalizing l with
  | nil => simp
  | cons c m ih =>
    intro x hx
    rw [List.foldl_cons] at hx
    rcases ih x hx with h | h
    · rcases My.appendConstraint_mem x h with h | rfl
      · exact .inl h
      · exact .inr List.mem_cons_self
    · exact .inr (List.mem_cons_of_mem _ h)

theorem My.onlyLeftConstraint_mem {l r : List My.Constraint} {x : My.Constraint}
    (h : x ∈ My.onlyLeftConstraint l r) : x ∈ l := by
  rcases My.foldl_append_mem x h with h | h
  · simp at h
  · exact (List.mem_filter.1 h).1

theorem My.tableDiffAbout {t t' : My.CreateTable} {l : List MStmt} (hn : t.name.diffStr = t'.name.diffStr)
    (hs : t.name.schema.map Ident.name = t'.name.schema.map Ident.name)
    (h : (My.ops sd).diffTable t t' = .ok l) :
    ∀ x ∈ l, TableDiffAbout (My.ops sd) My.inlineIndexes t t' x := by
  obtain ⟨rfl, _, _⟩ := My.diffTable_ok h
  have hr : My.renamedName t.name t'.name = t'.name := by simp [My.renamedName, hn]
  rw [hr]
  have halter : ∀ a : My.AlterTable, a.name = t'.name →
      TableDiffAbout (My.ops sd) My.inlineIndexes t t' (.alterTable a) := by
    intro a ha
    exact .inl (by simp [about, creates, drops, alters, My.ops, ha, hn])
  have hq : ∀ i j : Ident, i.name = j.name →
      (ObjectName.mk t.name.schema i).diffStr = (ObjectName.mk t'.name.schema j).diffStr := by
    intro i j hij
    cases h1 : t.name.schema <;> cases h2 : t'.name.schema <;> simp [h1, h2] at hs <;>
      simp [ObjectName.diffStr, Ident.diffStr, hij, hs]
  intro x hx
  simp only [List.mem_append] at hx
  rcases hx with ((((ha | ha) | ha) | ha) | ha) | ha
  · simp [My.renameTable, hn] at ha
  · simp only [My.dropConstraints, List.mem_flatMap] at ha
    obtain ⟨c, hcm, hc⟩ := ha
    split at hc
    · split at hc
      · simp at hc; subst hc
        refine .inr ⟨_, rfl, .inl ?_⟩
        exact List.mem_filterMap.2 ⟨_, hcm, rfl⟩
      · simp at hc; subst hc; exact halter _ rfl
    · simp at hc
  · obtain ⟨a, ha', rfl⟩ := List.mem_map.1 ha
    exact halter a (My.diffColumns_name a ha')
  · simp only [My.replaceConstraints, List.mem_flatMap] at ha
    obtain ⟨c, hcm, hc⟩ := ha
    split at hc
    · simp at hc
    · rename_i a hf
      have ham := List.mem_of_find?_eq_some hf
      have han := List.find?_some hf
      simp only [beq_iff_eq] at han
      split at hc
      · split at hc
        · rename_i n uq cs _
          have hin : (ObjectName.mk t'.name.schema n).diffStr ∈ My.inlineIndexes t' :=
            List.mem_filterMap.2 ⟨_, ham, rfl⟩
          simp only [List.mem_cons, List.not_mem_nil, or_false] at hc
          rcases hc with rfl | rfl
          · refine .inr ⟨_, ?_, .inr hin⟩
            simp only [about, creates, drops, My.ops, Option.some.injEq, Obj.index.injEq]
            exact hq _ _ han.symm
          · exact .inr ⟨_, rfl, .inr hin⟩
        · simp only [List.mem_cons, List.not_mem_nil, or_false] at hc
          rcases hc with rfl | rfl <;> exact halter _ rfl
      · simp at hc
  · simp only [My.addConstraints, List.mem_map] at ha
    obtain ⟨c, hc, rfl⟩ := ha
    have hcm := My.onlyLeftConstraint_mem hc
    split
    · exact .inr ⟨_, rfl, .inr (List.mem_filterMap.2 ⟨_, hcm, rfl⟩)⟩
    · exact halter _ rfl
  · obtain ⟨a, ha', rfl⟩ := List.mem_map.1 ha
    refine halter a ?_
    simp only [List.mem_append, My.changeOptions, My.addOptions, List.mem_flatMap] at ha'
    rcases ha' with ⟨c, _, hc⟩ | ⟨c, _, hc⟩
    · split at hc
      · simp at hc
      · split at hc
        · simp at hc
        · split at hc <;> simp at hc
          subst hc; rfl
    · split at hc <;> simp at hc
      subst hc; rfl

theorem My.no_drops {t t' : My.CreateTable} {l : List MStmt} (h : (My.ops sd).diffTable t t' = .ok l) :
    ∀ x ∈ l, ∀ k, drops (My.ops sd) x ≠ some (.table k) := by
  obtain ⟨rfl, _⟩ := My.diffTable_ok h
  intro x hx k
  simp only [List.mem_append, List.mem_map, My.dropConstraints, My.replaceConstraints, My.addConstraints,
    List.mem_flatMap] at hx
  rcases hx with ((((⟨_, _, rfl⟩ | ⟨c, _, hc⟩) | ⟨_, _, rfl⟩) | ⟨c, _, hc⟩) | ⟨c, _, rfl⟩) | ⟨_, _, rfl⟩
  · simp [drops]
  · split at hc
    · split at hc <;> simp at hc <;> subst hc <;> simp [drops]
    · simp at hc
  · simp [drops]
  · split at hc
    · simp at hc
    · split at hc
      · split at hc <;> simp at hc <;> rcases hc with rfl | rfl <;> simp [drops, My.indexStmt]
      · simp at hc
  · split <;> simp [drops, My.indexStmt]
  · simp [drops]

end mysql

section spanner
open Sp

theorem Sp.diffTable_ok {nv : Bool} {t t' : Sp.CreateTable} {l : List SStmt}
    (h : Sp.diffCreateTable sd nv (some t) (some t') = .ok l) :
    (optionsDiffStr t.options ≠ optionsDiffStr t'.options ∧
      l = [.dropTable (sd (optionsStr t.options) (optionsStr t'.options)) false t.name, .createTable t']) ∨
    (optionsDiffStr t.options = optionsDiffStr t'.options ∧ t.str ≠ t'.str ∧ l ≠ [] ∧
      ∃ dropped replaced added,
        flatMapRes (Sp.dropConstraint sd (Sp.renamedName t.name t'.name) t'.constraints) t.constraints = .ok dropped ∧
        flatMapRes (Sp.replaceConstraint sd nv (Sp.renamedName t.name t'.name) t'.constraints) t.constraints = .ok replaced ∧
        Sp.onlyLeftConstraint t.constraints [] t'.constraints = .ok added ∧
        l = (Sp.renameTable sd t.name t'.name ++ dropped ++
          Sp.diffColumns sd (Sp.renamedName t.name t'.name) t.columns t'.columns ++ replaced ++
          added.map (fun c => Sp.AlterTable.mk (sd [] c.str) (Sp.renamedName t.name t'.name) (.addConstraint c nv)) ++
          Sp.diffRowDeletionPolicy sd (Sp.renamedName t.name t'.name) t.rowDeletionPolicy t'.rowDeletionPolicy).map
            Stmt.alterTable) := by
  simp only [Sp.diffCreateTable] at h
  split at h
  · rename_i h1
    cases h
    exact .inl ⟨h1, rfl⟩
  · rename_i h1
    split at h
    · cases h
    · rename_i h2
      simp only [bind_eq_ok] at h
      obtain ⟨dropped, hd, replaced, hr, added, ha, h⟩ := h
      split at h
      · cases h
      · rename_i h3
        cases h
        refine .inr ⟨by simpa using h1, h2, by simpa using h3, dropped, replaced, added, hd, hr, ha, rfl⟩

theorem Sp.alterColumn_name {tn : ObjectName} {b a : Sp.Column} : ∀ x ∈ Sp.alterColumn sd tn b a, x.name = tn := by
  intro x hx
  simp only [Sp.alterColumn, List.mem_append] at hx
  rcases hx with (hx | hx) | hx <;> split at hx <;> try split at hx
  all_goals simp at hx
  all_goals subst hx; rfl

theorem Sp.diffColumns_name {tn : ObjectName} {b a : List Sp.Column} :
    ∀ x ∈ Sp.diffColumns sd tn b a, x.name = tn := by
  intro x hx
  simp only [Sp.diffColumns, List.mem_append, List.mem_flatMap, List.mem_map] at hx
  rcases hx with ⟨c, _, hx⟩ | ⟨c, _, rfl⟩
  · simp only [Sp.columnRound] at hx
    split at hx
    · simp at hx; subst hx; rfl
    · exact Sp.alterColumn_name x hx
  · rfl

theorem Sp.diffTable_alters {nv : Bool} {t t' : Sp.CreateTable} {l : List SStmt} (hn : t.name.diffStr = t'.name.diffStr)
    (ho : optionsDiffStr t.options = optionsDiffStr t'.options)
    (h : Sp.diffCreateTable sd nv (some t) (some t') = .ok l) :
    ∀ x ∈ l, ∃ a : Sp.AlterTable, x = .alterTable a ∧ a.name.diffStr = t.name.diffStr := by
  rcases Sp.diffTable_ok h with ⟨h1, _⟩ | ⟨_, _, _, dropped, replaced, added, hd, hrp, ha, rfl⟩
  · exact absurd ho h1
  have hr : Sp.renamedName t.name t'.name = t'.name := by simp [Sp.renamedName, hn]
  rw [hr] at hd hrp ⊢
  intro x hx
  obtain ⟨a, ha', rfl⟩ := List.mem_map.1 hx
  refine ⟨a, rfl, ?_⟩
  simp only [List.mem_append] at ha'
  rcases ha' with ((((hx | hx) | hx) | hx) | hx) | hx
  · simp [Sp.renameTable, hn] at hx
  · obtain ⟨rs, hf, rfl⟩ := flatMapRes_ok.1 hd
    obtain ⟨l', hl', hx⟩ := List.mem_flatten.1 hx
    obtain ⟨c, _, hc⟩ := forall₂_mem_right hf l' hl'
    simp only [Sp.dropConstraint, bind_eq_ok] at hc
    obtain ⟨_, _, f, _, hc⟩ := hc
    split at hc <;> cases hc <;> simp at hx
    subst hx; exact hn.symm
  · rw [Sp.diffColumns_name a hx, hn]
  · obtain ⟨rs, hf, rfl⟩ := flatMapRes_ok.1 hrp
    obtain ⟨l', hl', hx⟩ := List.mem_flatten.1 hx
    obtain ⟨c, _, hc⟩ := forall₂_mem_right hf l' hl'
    simp only [Sp.replaceConstraint, bind_eq_ok] at hc
    obtain ⟨_, _, f, _, hc⟩ := hc
    split at hc
    · cases hc; simp at hx
    · split at hc <;> cases hc <;> simp at hx
      rcases hx with rfl | rfl <;> exact hn.symm
  · obtain ⟨c, _, rfl⟩ := List.mem_map.1 hx
    exact hn.symm
  · simp only [Sp.diffRowDeletionPolicy] at hx
    split at hx
    · split at hx <;> simp at hx <;> subst hx <;> exact hn.symm
    · simp at hx

theorem Sp.not_recreated {nv : Bool} {t t' : Sp.CreateTable} {l : List SStmt}
    (h : Sp.diffCreateTable sd nv (some t) (some t') = .ok l) (hn : ∀ s ∈ l, drops (Sp.ops sd) s = none) :
    optionsDiffStr t.options = optionsDiffStr t'.options := by
  rcases Sp.diffTable_ok h with ⟨_, rfl⟩ | ⟨h1, _⟩
  · have := hn _ List.mem_cons_self
    simp [drops] at this
  · exact h1

theorem Sp.tableDiffAbout {t t' : Sp.CreateTable} {l : List SStmt} (hn : t.name.diffStr = t'.name.diffStr)
    (h : (Sp.ops sd).diffTable t t' = .ok l) :
    ∀ x ∈ l, TableDiffAbout (Sp.ops sd) (fun _ => []) t t' x := by
  intro x hx
  by_cases ho : optionsDiffStr t.options = optionsDiffStr t'.options
  · obtain ⟨a, rfl, ha⟩ := Sp.diffTable_alters hn ho h x hx
    exact .inl (by simp [about, creates, drops, alters, Sp.ops, ha])
  · rcases Sp.diffTable_ok h with ⟨_, rfl⟩ | ⟨h1, _⟩
    · simp only [List.mem_cons, List.not_mem_nil, or_false] at hx
      rcases hx with rfl | rfl
      · exact .inl (by simp [about, creates, drops, Sp.ops])
      · exact .inl (by simp [about, creates, Sp.ops, hn])
    · exact absurd h1 ho

end spanner
end Ddl
