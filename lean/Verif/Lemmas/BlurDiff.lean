import Verif.Lemmas.Content
import Verif.Spec.Variants

/-! # Definitions that are equal up to quoting have no difference -/

namespace Ddl
open Spec
set_option autoImplicit false

theorem Ident.blur_exact : Ident.blur .exact = Ident.bare := rfl

section
variable {T I A N : Type}

theorem Spec.Pointwise.sameSchema {ft : T → T} {fi : I → I} {b a : List (Stmt T I A N)} {sameT : T → T → Prop} {sameI : I → I → Prop}
    (h : Pointwise (StmtEq ft fi) b a)
    (hT : ∀ t t', .createTable t ∈ b → .createTable t' ∈ a → ft t = ft t' → sameT t t')
    (hI : ∀ i i', .createIndex i ∈ b → .createIndex i' ∈ a → fi i = fi i' → sameI i i') : SameSchema sameT sameI b a := by
  induction h with
  | nil => exact ⟨by simp, by simp⟩
  | @cons x y l r hxy _ ih =>
    have hxy' : SameStmt sameT sameI x y := by
      cases hxy with
      | table h => exact .table (hT _ _ (by simp) (by simp) h)
      | index h => exact .index (hI _ _ (by simp) (by simp) h)
    have ih' := ih (fun t t' h1 h2 => hT t t' (List.mem_cons_of_mem _ h1) (List.mem_cons_of_mem _ h2))
      (fun t t' h1 h2 => hI t t' (List.mem_cons_of_mem _ h1) (List.mem_cons_of_mem _ h2))
    refine ⟨fun s hs => ?_, fun s hs => ?_⟩
    · rcases List.mem_cons.1 hs with rfl | hs
      · exact ⟨y, by simp, hxy'⟩
      · obtain ⟨s', h1, h2⟩ := ih'.1 s hs
        exact ⟨s', by simp [h1], h2⟩
    · rcases List.mem_cons.1 hs with rfl | hs
      · exact ⟨x, by simp, hxy'⟩
      · obtain ⟨s', h1, h2⟩ := ih'.2 s hs
        exact ⟨s', by simp [h1], h2⟩

end

variable {sd : Str → Str → Str} {B : Blur}

theorem sameElems_of_eq {α : Type} {l r : List α} (h : l = r) : SameElems l r := fun _ => by rw [h]

namespace Pg

theorem Column.blur_exact : Column.blur .exact = Column.bare := rfl
theorem Constraint.blur_exact : Constraint.blur .exact = Constraint.bare := by
  funext c
  cases c <;> first | rfl | simp only [Constraint.blur, Constraint.bare, Blur.exact, List.map_id]

theorem sameTable_of_blur {t t' : CreateTable} (h : t.blur .exact = t'.blur .exact) : SameTable t t' := by
  simp only [CreateTable.blur, CreateTable.mk.injEq, Column.blur_exact, Constraint.blur_exact] at h
  exact ⟨h.2.2.1, (sameElems_of_eq h.2.2.2.1), (sameElems_of_eq h.2.2.2.2.1)⟩

theorem index_of_blur {i i' : CreateIndex} (h : i.blur B = i'.blur B) :
    i.name.diffStr = i'.name.diffStr ∧ i.diffStr = i'.diffStr := by
  have h' : ({ i with using_ := [] } : CreateIndex).bare = ({ i' with using_ := [] } : CreateIndex).bare := by
    simp only [CreateIndex.blur, CreateIndex.mk.injEq] at h
    simp only [CreateIndex.bare, CreateIndex.mk.injEq]
    simp [h]
  have := index_same (i := { i with using_ := [] }) (i' := { i' with using_ := [] }) h'
  simpa only [CreateIndex.diffStr] using this

theorem diff_blur {b a : List PStmt} (hd : DistinctObjects (ops sd) a) (hn : ∀ t, .createTable t ∈ a → DistinctNames t)
    (h : Pointwise (StmtEq (CreateTable.blur .exact) (CreateIndex.blur B)) b a) :
    diff (ops sd) (some b) (some a) = .err .noDifference :=
  diff_same (sameI := fun i i' => i.blur B = i'.blur B)
    (fun _ _ ht => ⟨ObjectName.diffStr_of_bare ht.1, fun hm => diffTable_same (hn _ hm) ht⟩)
    (fun _ _ hi => index_of_blur hi) hd
    (h.sameSchema (fun _ _ _ _ ht => sameTable_of_blur ht) (fun _ _ _ _ hi => hi))

end Pg

namespace Crdb

theorem Column.blur_exact : Column.blur .exact = Column.bare := rfl

theorem columns_of_blur {l r : List ColumnIdent} (h : l.map ColumnIdent.blur = r.map ColumnIdent.blur) :
    l.map ColumnIdent.bare = r.map ColumnIdent.bare := by
  have : ∀ l : List ColumnIdent, l.map ColumnIdent.bare = (l.map ColumnIdent.blur).map ColumnIdent.bare := by
    intro l; rw [List.map_map]; rfl
  rw [this l, this r, h]

theorem bare_of_blur {c c' : Constraint} (h : c.blur .exact = c'.blur .exact)
    (hu : ∀ n uq pre cs post, c = .index n uq pre cs post → pre = none ∧ post = none) : c.bare = c'.bare := by
  cases c <;> cases c' <;> simp only [Constraint.blur, Constraint.primaryKey.injEq, Constraint.foreignKey.injEq,
    Constraint.index.injEq, Constraint.check.injEq, reduceCtorEq] at h
  · simp only [Constraint.bare, h.1, columns_of_blur h.2]
  · obtain ⟨h1, h2, h3, h4, h5⟩ := h
    simp only [Blur.exact, List.map_id] at h5
    simp only [Constraint.bare, h1, columns_of_blur h2, h3, columns_of_blur h4, h5]
  · obtain ⟨rfl, rfl⟩ := hu _ _ _ _ _ rfl
    obtain ⟨h1, h2, h3, h4, h5⟩ := h
    simp only [Option.map_none] at h3 h5
    simp only [Constraint.bare, h1, columns_of_blur h4, h2, Option.map_eq_none_iff.1 h3.symm, Option.map_eq_none_iff.1 h5.symm]
  · simp only [Constraint.bare, h.1]
    exact congrArg _ h.2

theorem map_bare_of_blur {l r : List Constraint} (h : l.map (Constraint.blur .exact) = r.map (Constraint.blur .exact))
    (hu : ∀ n uq pre cs post, .index n uq pre cs post ∈ l → pre = none ∧ post = none) :
    l.map Constraint.bare = r.map Constraint.bare := by
  induction l generalizing r with
  | nil => cases r <;> simp_all
  | cons c l ih =>
    cases r with
    | nil => simp at h
    | cons c' r =>
      simp only [List.map_cons, List.cons.injEq] at h
      simp only [List.map_cons]
      rw [ih h.2 (fun n uq pre cs post hm => hu n uq pre cs post (List.mem_cons_of_mem _ hm)),
        bare_of_blur h.1 (fun n uq pre cs post he => hu n uq pre cs post (by simp [he]))]

theorem sameTable_of_blur {t t' : CreateTable} (h : t.blur .exact = t'.blur .exact) (hu : t.NoUsing) : SameTable t t' := by
  simp only [CreateTable.blur, CreateTable.mk.injEq, Column.blur_exact] at h
  exact ⟨h.2.2.1, (sameElems_of_eq h.2.2.2.1), (sameElems_of_eq (map_bare_of_blur h.2.2.2.2.1 hu))⟩

theorem index_of_blur {i i' : CreateIndex} (h : i.blur B = i'.blur B) (hu : i.usingPre = none ∧ i.usingPost = none) :
    SameIndex i i' := by
  simp only [CreateIndex.blur, CreateIndex.mk.injEq, hu, Option.map_none] at h
  obtain ⟨_, h1, _, h2, h3, h4, h5, h6⟩ := h
  simp only [SameIndex, CreateIndex.bare, h1, h2, h3, columns_of_blur h5, hu, Option.map_eq_none_iff.1 h4.symm,
    Option.map_eq_none_iff.1 h6.symm]

theorem diff_blur {b a : List CStmt} (hd : DistinctObjects (ops sd) a) (hn : ∀ t, .createTable t ∈ a → DistinctNames t)
    (hu : NoUsing b) (h : Pointwise (StmtEq (CreateTable.blur .exact) (CreateIndex.blur B)) b a) :
    diff (ops sd) (some b) (some a) = .err .noDifference :=
  diff_sameSchema hd hn (h.sameSchema (fun _ _ hm _ ht => sameTable_of_blur ht (hu.1 _ hm))
    (fun _ _ hm _ hi => index_of_blur hi (hu.2 _ hm)))

end Crdb

namespace My

theorem Column.blur_exact : Column.blur .exact = Column.bare := by
  funext c
  simp [Column.blur, Column.bare, Blur.exact]
  exact ⟨rfl, rfl, rfl, rfl⟩

theorem columns_of_blur {l r : List ColumnIdent} (h : l.map ColumnIdent.blur = r.map ColumnIdent.blur) :
    l.map ColumnIdent.bare = r.map ColumnIdent.bare := by
  have : ∀ l : List ColumnIdent, l.map ColumnIdent.bare = (l.map ColumnIdent.blur).map ColumnIdent.bare := by
    intro l; rw [List.map_map]; rfl
  rw [this l, this r, h]

theorem bare_of_blur {c c' : Constraint} (h : c.blur .exact = c'.blur .exact) : c.bare = c'.bare := by
  cases c <;> cases c' <;> simp only [Constraint.blur, Constraint.primaryKey.injEq, Constraint.foreignKey.injEq,
    Constraint.index.injEq, Constraint.check.injEq, reduceCtorEq] at h
  · simp only [Constraint.bare, h.1, columns_of_blur h.2]
  · obtain ⟨h1, h2, h3, h4, h5⟩ := h
    simp only [Blur.exact, List.map_id] at h5
    simp only [Constraint.bare, h1, columns_of_blur h2, h3, columns_of_blur h4, h5]
  · simp only [Constraint.bare, h, columns_of_blur h.2.2]
  · simp only [Constraint.bare, h.1]
    exact congrArg _ h.2

theorem map_bare_of_blur {l r : List Constraint} (h : l.map (Constraint.blur .exact) = r.map (Constraint.blur .exact)) :
    l.map Constraint.bare = r.map Constraint.bare := by
  induction l generalizing r with
  | nil => cases r <;> simp_all
  | cons c l ih =>
    cases r with
    | nil => simp at h
    | cons c' r =>
      simp only [List.map_cons, List.cons.injEq] at h
      simp only [List.map_cons]
      rw [ih h.2, bare_of_blur h.1]

theorem sameTable_of_blur {t t' : CreateTable} (h : t.blur .exact = t'.blur .exact) : SameTable t t' := by
  simp only [CreateTable.blur, CreateTable.mk.injEq, Column.blur_exact] at h
  exact ⟨h.2.2.1, (sameElems_of_eq h.2.2.2.1), (sameElems_of_eq (map_bare_of_blur h.2.2.2.2.1)), (sameElems_of_eq h.2.2.2.2.2)⟩

theorem index_of_blur {i i' : CreateIndex} (h : i.blur B = i'.blur B) :
    i.name.diffStr = i'.name.diffStr ∧ i.diffStr = i'.diffStr := by
  have h' : ({ i with using_ := [] } : CreateIndex).bare = ({ i' with using_ := [] } : CreateIndex).bare := by
    simp only [CreateIndex.blur, CreateIndex.mk.injEq] at h
    simp only [CreateIndex.bare, CreateIndex.mk.injEq]
    simp [h, columns_of_blur h.2.2.2.2.2.2]
  have := index_same (i := { i with using_ := [] }) (i' := { i' with using_ := [] }) h'
  simpa only [CreateIndex.diffStr] using this

theorem diff_blur {b a : List MStmt} (hd : DistinctObjects (ops sd) a) (hn : ∀ t, .createTable t ∈ a → DistinctNames t)
    (h : Pointwise (StmtEq (CreateTable.blur .exact) (CreateIndex.blur B)) b a) :
    diff (ops sd) (some b) (some a) = .err .noDifference :=
  diff_same (sameI := fun i i' => i.blur B = i'.blur B)
    (fun _ _ ht => ⟨ObjectName.diffStr_of_bare ht.1, fun hm => diffTable_same (hn _ hm) ht⟩)
    (fun _ _ hi => index_of_blur hi) hd
    (h.sameSchema (fun _ _ _ _ ht => sameTable_of_blur ht) (fun _ _ _ _ hi => hi))

end My

namespace Sp

theorem Column.blur_exact : Column.blur .exact = Column.bare := rfl
theorem TableOption.blur_exact : TableOption.blur .exact = TableOption.bare := rfl

theorem columns_of_blur {l r : List ColumnIdent} (h : l.map ColumnIdent.blur = r.map ColumnIdent.blur) :
    l.map ColumnIdent.bare = r.map ColumnIdent.bare := by
  have : ∀ l : List ColumnIdent, l.map ColumnIdent.bare = (l.map ColumnIdent.blur).map ColumnIdent.bare := by
    intro l; rw [List.map_map]; rfl
  rw [this l, this r, h]

theorem bare_of_blur {c c' : Constraint} (h : c.blur .exact = c'.blur .exact) : c.bare = c'.bare := by
  cases c <;> cases c' <;> simp only [Constraint.blur, Constraint.foreignKey.injEq, Constraint.check.injEq, reduceCtorEq] at h
  · obtain ⟨h1, h2, h3, h4⟩ := h
    simp only [Constraint.bare, h1, columns_of_blur h2, h3, columns_of_blur h4]
  · simp only [Constraint.bare, h.1]
    exact congrArg _ h.2

theorem map_bare_of_blur {l r : List Constraint} (h : l.map (Constraint.blur .exact) = r.map (Constraint.blur .exact)) :
    l.map Constraint.bare = r.map Constraint.bare := by
  induction l generalizing r with
  | nil => cases r <;> simp_all
  | cons c l ih =>
    cases r with
    | nil => simp at h
    | cons c' r =>
      simp only [List.map_cons, List.cons.injEq] at h
      simp only [List.map_cons]
      rw [ih h.2, bare_of_blur h.1]

theorem sameTable_of_blur {t t' : CreateTable} (h : t.blur .exact = t'.blur .exact) : SameTable t t' := by
  simp only [CreateTable.blur, CreateTable.mk.injEq, Column.blur_exact, TableOption.blur_exact] at h
  exact ⟨h.2.2.1, (sameElems_of_eq h.2.2.2.1), (sameElems_of_eq (map_bare_of_blur h.2.2.2.2.1)), h.2.2.2.2.2⟩

theorem index_of_blur {i i' : CreateIndex} (h : i.blur B = i'.blur B) :
    i.name.diffStr = i'.name.diffStr ∧ i.diffStr = i'.diffStr := by
  have h' : ({ i with using_ := [] } : CreateIndex).bare = ({ i' with using_ := [] } : CreateIndex).bare := by
    simp only [CreateIndex.blur, CreateIndex.mk.injEq] at h
    simp only [CreateIndex.bare, CreateIndex.mk.injEq]
    simp [h, columns_of_blur h.2.2.2.2.2.2]
  have := index_same (i := { i with using_ := [] }) (i' := { i' with using_ := [] }) h'
  simpa only [CreateIndex.diffStr] using this

theorem diff_blur {b a : List SStmt} (hd : DistinctObjects (ops sd) a) (hn : ∀ t, .createTable t ∈ a → DistinctNames t)
    (h : Pointwise (StmtEq (CreateTable.blur .exact) (CreateIndex.blur B)) b a) :
    diff (ops sd) (some b) (some a) = .err .noDifference :=
  diff_same (sameI := fun i i' => i.blur B = i'.blur B)
    (fun _ _ ht => ⟨ObjectName.diffStr_of_bare ht.1, fun hm => diffTable_same (hn _ hm) ht⟩)
    (fun _ _ hi => index_of_blur hi) hd
    (h.sameSchema (fun _ _ _ _ ht => sameTable_of_blur ht) (fun _ _ _ _ hi => hi))

end Sp

end Ddl
