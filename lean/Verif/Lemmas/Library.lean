import Verif.Spec.Library
import Verif.Lemmas.DiffTotal
import Mathlib.Data.List.Basic

/-! # The comparison of two tables as a function of the library -/

namespace Ddl
open Spec
set_option autoImplicit false

theorem map_id_of {α : Type} {f : α → α} {l : List α} (h : ∀ x ∈ l, f x = x) : l.map f = l := by
  rw [List.map_congr_left h, List.map_id']

theorem map_flatMap_of {α β γ : Type} {f : β → γ} {g : α → List β} {h : α → List γ} {l : List α} (e : ∀ x ∈ l, (g x).map f = h x) :
    (l.flatMap g).map f = l.flatMap h := by
  rw [List.map_flatMap]
  induction l with
  | nil => rfl
  | cons x l ih => rw [List.flatMap_cons, List.flatMap_cons, e x (by simp), ih fun y hy => e y (by simp [hy])]

/-! ## PostgreSQL -/

namespace Pg
variable {sd : Str → Str → Str}

/-- What is done behind the renaming. -/
def restOf (nv : Bool) (tn : ObjectName) (t t' : CreateTable) : List AlterTable :=
  dropConstraints sd tn t.constraints t'.constraints ++ diffColumns sd tn t.columns t'.columns ++
    replaceConstraints sd nv tn t.constraints t'.constraints ++ addConstraints sd nv tn t.constraints t'.constraints

theorem renamedName_moved {n n' : ObjectName} (h : n.diffStr ≠ n'.diffStr) : renamedName n n' = movedName n n' := by
  obtain ⟨s', m'⟩ := n'
  unfold renamedName movedName
  cases s' with
  | none => rw [if_pos ⟨h, rfl⟩]; rfl
  | some s' => rw [if_neg (by simp)]; rfl

theorem diff_eq {nv : Bool} {t t' : CreateTable} : diffCreateTable sd nv (some t) (some t') =
    if t.str = t'.str then .err .noDifference
    else if (renameTable sd t.name t'.name ++ restOf (sd := sd) nv (renamedName t.name t'.name) t t').isEmpty then .err .noDifference
    else .ok ((renameTable sd t.name t'.name ++ restOf (sd := sd) nv (renamedName t.name t'.name) t t').map Stmt.alterTable) := by
  simp only [diffCreateTable, restOf, List.append_assoc]

theorem notValid_rename {nv : Bool} {n n' : ObjectName} :
    ((renameTable sd n n').map Stmt.alterTable).map (notValid nv) = (renameTable sd n n').map Stmt.alterTable := by
  unfold renameTable
  split <;> rfl

theorem notValid_drop {nv : Bool} {tn : ObjectName} {l l' : List Constraint} :
    ((dropConstraints sd tn l l').map Stmt.alterTable).map (notValid nv) = (dropConstraints sd tn l l').map Stmt.alterTable := by
  refine map_id_of fun x hx => ?_
  obtain ⟨y, hy, rfl⟩ := List.mem_map.1 hx
  obtain ⟨b, -, hy⟩ := List.mem_flatMap.1 hy
  split at hy <;> simp at hy
  subst hy
  rfl

theorem notValid_columns {nv : Bool} {tn : ObjectName} {l l' : List Column} :
    ((diffColumns sd tn l l').map Stmt.alterTable).map (notValid nv) = (diffColumns sd tn l l').map Stmt.alterTable := by
  refine map_id_of fun x hx => ?_
  obtain ⟨y, hy, rfl⟩ := List.mem_map.1 hx
  rcases List.mem_append.1 hy with hy | hy
  · obtain ⟨b, -, hy⟩ := List.mem_flatMap.1 hy
    unfold columnRound alterColumn at hy
    split at hy
    · simp at hy
      subst hy
      rfl
    · simp only [List.mem_append] at hy
      rcases hy with (hy | hy) | hy
      · split at hy <;> simp at hy
        subst hy; rfl
      · split at hy
        · simp at hy; subst hy; rfl
        · split at hy <;> simp at hy
          subst hy; rfl
      · split at hy
        · simp at hy; subst hy; rfl
        · split at hy <;> simp at hy
          subst hy; rfl
  · obtain ⟨c, -, rfl⟩ := List.mem_map.1 hy
    rfl

theorem notValid_replace {nv : Bool} {tn : ObjectName} {l l' : List Constraint} :
    ((replaceConstraints sd false tn l l').map Stmt.alterTable).map (notValid nv) = (replaceConstraints sd nv tn l l').map Stmt.alterTable := by
  unfold replaceConstraints
  rw [List.map_map, List.map_flatMap (f := Stmt.alterTable)]
  refine map_flatMap_of fun b _ => ?_
  cases findConstraint b.name.name l' with
  | none => rfl
  | some a => simp only; split <;> rfl

theorem notValid_add {nv : Bool} {tn : ObjectName} {l l' : List Constraint} :
    ((addConstraints sd false tn l l').map Stmt.alterTable).map (notValid nv) = (addConstraints sd nv tn l l').map Stmt.alterTable := by
  simp only [addConstraints, List.map_map]
  rfl

theorem diff_notValid {nv : Bool} {b a : Option CreateTable} :
    diffCreateTable sd nv b a = diffCreateTable sd false b a >>= fun l => .ok (l.map (notValid nv)) := by
  cases b with
  | none => cases a <;> rfl
  | some t =>
    cases a with
    | none => rfl
    | some t' =>
      have h : (renameTable sd t.name t'.name ++ restOf (sd := sd) nv (renamedName t.name t'.name) t t').map Stmt.alterTable =
          ((renameTable sd t.name t'.name ++ restOf (sd := sd) false (renamedName t.name t'.name) t t').map Stmt.alterTable).map (notValid nv) := by
        simp only [restOf, List.map_append, notValid_rename, notValid_drop, notValid_columns, notValid_replace, notValid_add]
      have he := congrArg List.isEmpty h
      simp only [List.isEmpty_map] at he
      rw [diff_eq, diff_eq, h, he]
      split
      · rfl
      · split <;> rfl

theorem diff_rename {nv : Bool} {t t' : CreateTable} (hn : t.name.diffStr ≠ t'.name.diffStr) (hs : t.str ≠ t'.str) :
    ∃ rest, diffCreateTable sd nv (some t) (some t') =
        .ok (.alterTable ⟨sd t.name.diffStr (movedName t.name t'.name).diffStr, t.name, .renameTable (movedName t.name t'.name)⟩ :: rest) ∧
      (({ t with name := movedName t.name t'.name } : CreateTable).str ≠ ({ t' with name := movedName t.name t'.name } : CreateTable).str →
        diffCreateTable sd nv (some { t with name := movedName t.name t'.name }) (some { t' with name := movedName t.name t'.name }) =
          if rest.isEmpty then .err .noDifference else .ok rest) := by
  refine ⟨(restOf (sd := sd) nv (movedName t.name t'.name) t t').map Stmt.alterTable, ?_, fun h => ?_⟩
  · rw [diff_eq, if_neg hs, renamedName_moved hn]
    simp [renameTable, hn, renamedName_moved hn]
  · rw [diff_eq, if_neg h]
    simp [renameTable, renamedName, restOf]

end Pg

/-! ## CockroachDB -/

namespace Crdb
variable {sd : Str → Str → Str}

/-- What is done behind the renaming. -/
def restOf (nv : Bool) (tn : ObjectName) (t t' : CreateTable) : List CStmt :=
  dropConstraints sd tn t.constraints t'.constraints ++ (diffColumns sd tn t.columns t'.columns).map Stmt.alterTable ++
    replaceConstraints sd nv tn t.constraints t'.constraints ++ addConstraints sd nv tn t.constraints t'.constraints

theorem renamedName_moved {n n' : ObjectName} (h : n.diffStr ≠ n'.diffStr) : renamedName n n' = movedName n n' := by
  obtain ⟨s', m'⟩ := n'
  unfold renamedName movedName
  cases s' with
  | none => rw [if_pos ⟨h, rfl⟩]; rfl
  | some s' => rw [if_neg (by simp)]; rfl

theorem diff_eq {nv : Bool} {t t' : CreateTable} : diffCreateTable sd nv (some t) (some t') =
    if t.str = t'.str then .err .noDifference
    else if ((renameTable sd t.name t'.name).map Stmt.alterTable ++ restOf (sd := sd) nv (renamedName t.name t'.name) t t').isEmpty then
      .err .noDifference
    else .ok ((renameTable sd t.name t'.name).map Stmt.alterTable ++ restOf (sd := sd) nv (renamedName t.name t'.name) t t') := by
  simp only [diffCreateTable, restOf, List.append_assoc]

theorem notValid_rename {nv : Bool} {n n' : ObjectName} :
    ((renameTable sd n n').map Stmt.alterTable).map (notValid nv) = (renameTable sd n n').map Stmt.alterTable := by
  unfold renameTable
  split <;> rfl

theorem notValid_drop {nv : Bool} {tn : ObjectName} {l l' : List Constraint} :
    (dropConstraints sd tn l l').map (notValid nv) = dropConstraints sd tn l l' := by
  refine map_flatMap_of fun b _ => ?_
  cases findConstraint b.name.name l' with
  | none => cases b <;> rfl
  | some a => rfl

theorem notValid_columns {nv : Bool} {tn : ObjectName} {l l' : List Column} :
    ((diffColumns sd tn l l').map Stmt.alterTable).map (notValid nv) = (diffColumns sd tn l l').map Stmt.alterTable := by
  refine map_id_of fun x hx => ?_
  obtain ⟨y, hy, rfl⟩ := List.mem_map.1 hx
  rcases List.mem_append.1 hy with hy | hy
  · obtain ⟨b, -, hy⟩ := List.mem_flatMap.1 hy
    unfold columnRound alterColumn at hy
    split at hy
    · split at hy <;> simp at hy
      subst hy
      rfl
    · simp only [List.mem_append] at hy
      rcases hy with (hy | hy) | hy
      · split at hy <;> simp at hy
        subst hy; rfl
      · split at hy
        · simp at hy; subst hy; rfl
        · split at hy <;> simp at hy
          subst hy; rfl
      · split at hy
        · simp at hy; subst hy; rfl
        · split at hy <;> simp at hy
          subst hy; rfl
  · obtain ⟨c, -, rfl⟩ := List.mem_map.1 hy
    rfl

theorem notValid_replace {nv : Bool} {tn : ObjectName} {l l' : List Constraint} :
    (replaceConstraints sd false tn l l').map (notValid nv) = replaceConstraints sd nv tn l l' := by
  refine map_flatMap_of fun b _ => ?_
  cases findConstraint b.name.name l' with
  | none => rfl
  | some a =>
    simp only
    split
    · cases a <;> rfl
    · rfl

theorem notValid_add {nv : Bool} {tn : ObjectName} {l l' : List Constraint} :
    (addConstraints sd false tn l l').map (notValid nv) = addConstraints sd nv tn l l' := by
  simp only [addConstraints, List.map_map]
  refine List.map_congr_left fun c _ => ?_
  cases c <;> rfl

theorem diff_notValid {nv : Bool} {b a : Option CreateTable} :
    diffCreateTable sd nv b a = diffCreateTable sd false b a >>= fun l => .ok (l.map (notValid nv)) := by
  cases b with
  | none => cases a <;> rfl
  | some t =>
    cases a with
    | none => rfl
    | some t' =>
      have h : (renameTable sd t.name t'.name).map Stmt.alterTable ++ restOf (sd := sd) nv (renamedName t.name t'.name) t t' =
          ((renameTable sd t.name t'.name).map Stmt.alterTable ++ restOf (sd := sd) false (renamedName t.name t'.name) t t').map (notValid nv) := by
        simp only [restOf, List.map_append (f := notValid nv), notValid_rename, notValid_drop, notValid_columns, notValid_replace, notValid_add]
      have he := congrArg List.isEmpty h
      simp only [List.isEmpty_map] at he
      rw [diff_eq, diff_eq, he]
      split
      · rfl
      · split
        · rfl
        · rw [h]
          rfl

theorem diff_rename {nv : Bool} {t t' : CreateTable} (hn : t.name.diffStr ≠ t'.name.diffStr) (hs : t.str ≠ t'.str) :
    ∃ rest, diffCreateTable sd nv (some t) (some t') =
        .ok (.alterTable ⟨sd t.name.diffStr (movedName t.name t'.name).diffStr, t.name, .renameTable (movedName t.name t'.name)⟩ :: rest) ∧
      (({ t with name := movedName t.name t'.name } : CreateTable).str ≠ ({ t' with name := movedName t.name t'.name } : CreateTable).str →
        diffCreateTable sd nv (some { t with name := movedName t.name t'.name }) (some { t' with name := movedName t.name t'.name }) =
          if rest.isEmpty then .err .noDifference else .ok rest) := by
  refine ⟨restOf (sd := sd) nv (movedName t.name t'.name) t t', ?_, fun h => ?_⟩
  · rw [diff_eq, if_neg hs, renamedName_moved hn]
    simp [renameTable, hn, renamedName_moved hn]
  · rw [diff_eq, if_neg h]
    simp [renameTable, renamedName, restOf]

end Crdb

/-! ## MySQL -/

namespace My
variable {sd : Str → Str → Str}

/-- What is done behind the renaming. -/
def restOf (nv : Bool) (bs : Option Ident) (tn : ObjectName) (t t' : CreateTable) : List MStmt :=
  dropConstraints sd bs tn t.constraints t'.constraints ++ (diffColumns sd tn t.columns t'.columns).map Stmt.alterTable ++
    replaceConstraints sd nv bs tn t.constraints t'.constraints ++ addConstraints sd nv tn t.constraints t'.constraints ++
    (changeOptions sd tn t.options t'.options ++ addOptions sd tn t.options t'.options).map Stmt.alterTable

theorem renamedName_moved {n n' : ObjectName} (h : n.diffStr ≠ n'.diffStr) : renamedName n n' = movedName n n' := by
  obtain ⟨s', m'⟩ := n'
  unfold renamedName movedName
  cases s' with
  | none => rw [if_pos ⟨h, rfl⟩]; rfl
  | some s' => rw [if_neg (by simp)]; rfl

theorem diff_eq {nv : Bool} {t t' : CreateTable} : diffCreateTable sd nv (some t) (some t') =
    if t.str = t'.str then .err .noDifference
    else if ((renameTable sd t.name t'.name).map Stmt.alterTable ++ restOf (sd := sd) nv t.name.schema (renamedName t.name t'.name) t t').isEmpty then
      .err .noDifference
    else .ok ((renameTable sd t.name t'.name).map Stmt.alterTable ++ restOf (sd := sd) nv t.name.schema (renamedName t.name t'.name) t t') := by
  simp only [diffCreateTable, restOf, List.append_assoc]

theorem notValid_rename {nv : Bool} {n n' : ObjectName} :
    ((renameTable sd n n').map Stmt.alterTable).map (notValid nv) = (renameTable sd n n').map Stmt.alterTable := by
  unfold renameTable
  split <;> rfl

theorem notValid_drop {nv : Bool} {bs : Option Ident} {tn : ObjectName} {l l' : List Constraint} :
    (dropConstraints sd bs tn l l').map (notValid nv) = dropConstraints sd bs tn l l' := by
  refine map_flatMap_of fun b _ => ?_
  cases findConstraint b.name.name l' with
  | none => cases b <;> rfl
  | some a => rfl

theorem notValid_columns {nv : Bool} {tn : ObjectName} {l l' : List Column} :
    ((diffColumns sd tn l l').map Stmt.alterTable).map (notValid nv) = (diffColumns sd tn l l').map Stmt.alterTable := by
  refine map_id_of fun x hx => ?_
  obtain ⟨y, hy, rfl⟩ := List.mem_map.1 hx
  rcases List.mem_append.1 hy with hy | hy
  · obtain ⟨b, -, hy⟩ := List.mem_flatMap.1 hy
    unfold columnRound alterColumn at hy
    split at hy
    · simp at hy
      subst hy
      rfl
    · rcases List.mem_append.1 hy with hy | hy
      · split at hy <;> simp at hy
        subst hy; rfl
      · split at hy <;> simp at hy
        subst hy; rfl
  · obtain ⟨c, -, rfl⟩ := List.mem_map.1 hy
    rfl

theorem notValid_options {nv : Bool} {tn : ObjectName} {l l' : List TableOption} :
    ((changeOptions sd tn l l' ++ addOptions sd tn l l').map Stmt.alterTable).map (notValid nv) =
      (changeOptions sd tn l l' ++ addOptions sd tn l l').map Stmt.alterTable := by
  refine map_id_of fun x hx => ?_
  obtain ⟨y, hy, rfl⟩ := List.mem_map.1 hx
  rcases List.mem_append.1 hy with hy | hy
  · obtain ⟨b, -, hy⟩ := List.mem_flatMap.1 hy
    split at hy
    · simp at hy
    · split at hy
      · simp at hy
      · split at hy <;> simp at hy
        subst hy; rfl
  · obtain ⟨b, -, hy⟩ := List.mem_flatMap.1 hy
    split at hy <;> simp at hy
    subst hy; rfl

theorem notValid_replace {nv : Bool} {bs : Option Ident} {tn : ObjectName} {l l' : List Constraint} :
    (replaceConstraints sd false bs tn l l').map (notValid nv) = replaceConstraints sd nv bs tn l l' := by
  refine map_flatMap_of fun b _ => ?_
  cases findConstraint b.name.name l' with
  | none => rfl
  | some a =>
    simp only
    split
    · cases a <;> rfl
    · rfl

theorem notValid_add {nv : Bool} {tn : ObjectName} {l l' : List Constraint} :
    (addConstraints sd false tn l l').map (notValid nv) = addConstraints sd nv tn l l' := by
  simp only [addConstraints, List.map_map]
  refine List.map_congr_left fun c _ => ?_
  cases c <;> rfl

theorem diff_notValid {nv : Bool} {b a : Option CreateTable} :
    diffCreateTable sd nv b a = diffCreateTable sd false b a >>= fun l => .ok (l.map (notValid nv)) := by
  cases b with
  | none => cases a <;> rfl
  | some t =>
    cases a with
    | none => rfl
    | some t' =>
      have h : (renameTable sd t.name t'.name).map Stmt.alterTable ++ restOf (sd := sd) nv t.name.schema (renamedName t.name t'.name) t t' =
          ((renameTable sd t.name t'.name).map Stmt.alterTable ++ restOf (sd := sd) false t.name.schema (renamedName t.name t'.name) t t').map (notValid nv) := by
        simp only [restOf, List.map_append (f := notValid nv), notValid_rename, notValid_drop, notValid_columns, notValid_replace, notValid_add, notValid_options]
      have he := congrArg List.isEmpty h
      simp only [List.isEmpty_map] at he
      rw [diff_eq, diff_eq, he]
      split
      · rfl
      · split
        · rfl
        · rw [h]
          rfl

theorem diff_rename {nv : Bool} {t t' : CreateTable} (hn : t.name.diffStr ≠ t'.name.diffStr) (hs : t.str ≠ t'.str) :
    ∃ rest, diffCreateTable sd nv (some t) (some t') =
        .ok (.alterTable ⟨sd t.name.diffStr (movedName t.name t'.name).diffStr, t.name, .renameTable (movedName t.name t'.name)⟩ :: rest) ∧
      ((movedName t.name t'.name).schema = t.name.schema → ({ t with name := movedName t.name t'.name } : CreateTable).str ≠ ({ t' with name := movedName t.name t'.name } : CreateTable).str →
        diffCreateTable sd nv (some { t with name := movedName t.name t'.name }) (some { t' with name := movedName t.name t'.name }) =
          if rest.isEmpty then .err .noDifference else .ok rest) := by
  refine ⟨restOf (sd := sd) nv t.name.schema (movedName t.name t'.name) t t', ?_, fun hb h => ?_⟩
  · rw [diff_eq, if_neg hs, renamedName_moved hn]
    simp [renameTable, hn, renamedName_moved hn]
  · rw [diff_eq, if_neg h]
    simp [renameTable, renamedName, restOf, hb]

end My

/-! ## Spanner -/

namespace Sp
variable {sd : Str → Str → Str}

theorem renamedName_moved {n n' : ObjectName} (h : n.diffStr ≠ n'.diffStr) : renamedName n n' = movedName n n' := by
  obtain ⟨s', m'⟩ := n'
  unfold renamedName movedName
  cases s' with
  | none => rw [if_pos ⟨h, rfl⟩]; rfl
  | some s' => rw [if_neg (by simp)]; rfl

/-- What is done behind the renaming. -/
def restOf (nv : Bool) (tn : ObjectName) (t t' : CreateTable) : Res (List AlterTable) := do
  let dropped ← flatMapRes (dropConstraint sd tn t'.constraints) t.constraints
  let replaced ← flatMapRes (replaceConstraint sd nv tn t'.constraints) t.constraints
  let added ← onlyLeftConstraint t.constraints [] t'.constraints
  .ok (dropped ++ diffColumns sd tn t.columns t'.columns ++ replaced ++
    added.map (fun c => ⟨sd [] c.str, tn, .addConstraint c nv⟩) ++
    diffRowDeletionPolicy sd tn t.rowDeletionPolicy t'.rowDeletionPolicy)

theorem diff_eq {nv : Bool} {t t' : CreateTable} (h : optionsDiffStr t.options = optionsDiffStr t'.options) :
    diffCreateTable sd nv (some t) (some t') =
      if t.str = t'.str then .err .noDifference
      else restOf (sd := sd) nv (renamedName t.name t'.name) t t' >>= fun r =>
        if (renameTable sd t.name t'.name ++ r).isEmpty then .err .noDifference
        else .ok ((renameTable sd t.name t'.name ++ r).map Stmt.alterTable) := by
  simp only [diffCreateTable, restOf, if_neg (not_not.2 h)]
  split
  · rfl
  · cases flatMapRes (dropConstraint sd (renamedName t.name t'.name) t'.constraints) t.constraints <;> try rfl
    cases flatMapRes (replaceConstraint sd nv (renamedName t.name t'.name) t'.constraints) t.constraints <;> try rfl
    cases onlyLeftConstraint t.constraints [] t'.constraints <;> try rfl
    simp only [Res.ok_bind, List.append_assoc]

/-- `notValid` on an alteration. -/
def nvAlter (nv : Bool) : AlterTable → AlterTable
  | ⟨c, n, .addConstraint k _⟩ => ⟨c, n, .addConstraint k nv⟩
  | s => s

theorem notValid_alter {nv : Bool} {l : List AlterTable} : (l.map Stmt.alterTable).map (notValid nv) = (l.map (nvAlter nv)).map Stmt.alterTable := by
  rw [List.map_map, List.map_map]
  refine List.map_congr_left fun x _ => ?_
  obtain ⟨c, n, a⟩ := x
  cases a <;> rfl

theorem notValid_rename {nv : Bool} {n n' : ObjectName} : (renameTable sd n n').map (nvAlter nv) = renameTable sd n n' := by
  unfold renameTable
  split <;> rfl

theorem notValid_policy {nv : Bool} {tn : ObjectName} {o o' : Option TableOption} :
    (diffRowDeletionPolicy sd tn o o').map (nvAlter nv) = diffRowDeletionPolicy sd tn o o' := by
  unfold diffRowDeletionPolicy
  split
  · cases o <;> cases o' <;> rfl
  · rfl

theorem notValid_columns {nv : Bool} {tn : ObjectName} {l l' : List Column} :
    (diffColumns sd tn l l').map (nvAlter nv) = diffColumns sd tn l l' := by
  refine map_id_of fun y hy => ?_
  rcases List.mem_append.1 hy with hy | hy
  · obtain ⟨b, -, hy⟩ := List.mem_flatMap.1 hy
    unfold columnRound alterColumn at hy
    split at hy
    · simp at hy
      subst hy
      rfl
    · simp only [List.mem_append] at hy
      rcases hy with (hy | hy) | hy
      · split at hy <;> simp at hy
        subst hy; rfl
      · split at hy
        · simp at hy; subst hy; rfl
        · split at hy <;> simp at hy
          subst hy; rfl
      · split at hy
        · simp at hy; subst hy; rfl
        · split at hy <;> simp at hy
          subst hy; rfl
  · obtain ⟨c, -, rfl⟩ := List.mem_map.1 hy
    rfl

theorem notValid_drop {nv : Bool} {tn : ObjectName} {l' l : List Constraint} :
    (flatMapRes (dropConstraint sd tn l') l >>= fun r => .ok (r.map (nvAlter nv))) = flatMapRes (dropConstraint sd tn l') l := by
  induction l with
  | nil => rfl
  | cons b l ih =>
    simp only [flatMapRes, dropConstraint]
    cases b.nameStr <;> try rfl
    rename_i n
    simp only [Res.ok_bind]
    cases findConstraint n l' <;> try rfl
    rename_i f
    cases hl : flatMapRes (dropConstraint sd tn l') l with
    | ok r =>
      rw [hl] at ih
      simp only [Res.ok_bind, Res.ok.injEq] at ih
      cases f <;> simp [ih, nvAlter]
    | _ => cases f <;> rfl

theorem notValid_replace {nv : Bool} {tn : ObjectName} {l' l : List Constraint} :
    (flatMapRes (replaceConstraint sd false tn l') l >>= fun r => .ok (r.map (nvAlter nv))) = flatMapRes (replaceConstraint sd nv tn l') l := by
  induction l with
  | nil => rfl
  | cons b l ih =>
    simp only [flatMapRes, replaceConstraint]
    cases b.nameStr <;> try rfl
    rename_i n
    simp only [Res.ok_bind]
    cases findConstraint n l' <;> try rfl
    rename_i f
    rw [← ih]
    cases hl : flatMapRes (replaceConstraint sd false tn l') l with
    | ok r =>
      cases f with
      | none => simp
      | some a => simp only [Res.ok_bind]; split <;> simp [nvAlter]
    | _ =>
      cases f with
      | none => rfl
      | some a => simp only [Res.ok_bind]; split <;> rfl

theorem restOf_notValid {nv : Bool} {tn : ObjectName} {t t' : CreateTable} :
    restOf (sd := sd) nv tn t t' = restOf (sd := sd) false tn t t' >>= fun r => .ok (r.map (nvAlter nv)) := by
  have hd := notValid_drop (sd := sd) (nv := nv) (tn := tn) (l' := t'.constraints) (l := t.constraints)
  unfold restOf
  rw [← notValid_replace]
  cases h1 : flatMapRes (dropConstraint sd tn t'.constraints) t.constraints <;> try rfl
  rw [h1] at hd
  simp only [Res.ok_bind, Res.ok.injEq] at hd
  cases flatMapRes (replaceConstraint sd false tn t'.constraints) t.constraints <;> try rfl
  cases onlyLeftConstraint t.constraints [] t'.constraints <;> try rfl
  simp [hd, notValid_columns, notValid_policy, nvAlter]

theorem diff_notValid {nv : Bool} {b a : Option CreateTable} :
    diffCreateTable sd nv b a = diffCreateTable sd false b a >>= fun l => .ok (l.map (notValid nv)) := by
  cases b with
  | none => cases a <;> rfl
  | some t =>
    cases a with
    | none => rfl
    | some t' =>
      by_cases ho : optionsDiffStr t.options = optionsDiffStr t'.options
      · rw [diff_eq ho, diff_eq ho, restOf_notValid]
        split
        · rfl
        · cases restOf (sd := sd) false (renamedName t.name t'.name) t t' <;> try rfl
          rename_i r
          simp only [Res.ok_bind]
          have h : renameTable sd t.name t'.name ++ r.map (nvAlter nv) = (renameTable sd t.name t'.name ++ r).map (nvAlter nv) := by
            rw [List.map_append, notValid_rename]
          rw [h, List.isEmpty_map]
          split
          · rfl
          · rw [← notValid_alter]; rfl
      · simp only [diffCreateTable, if_pos ho]
        rfl

theorem restOf_total {nv : Bool} {tn : ObjectName} {t t' : CreateTable} (hb : ∀ c ∈ t.constraints, c.name ≠ none)
    (ha : ∀ c ∈ t'.constraints, c.name ≠ none) : ∃ r, restOf (sd := sd) nv tn t t' = .ok r := by
  obtain ⟨d, hd⟩ := flatMapRes_total (f := dropConstraint sd tn t'.constraints) (l := t.constraints) fun x hx => by
    simp only [dropConstraint, Run.nameStr_eq (hb x hx), Res.ok_bind, Run.findConstraint_eq ha]
    split <;> exact ⟨_, rfl⟩
  obtain ⟨r, hr⟩ := flatMapRes_total (f := replaceConstraint sd nv tn t'.constraints) (l := t.constraints) fun x hx => by
    simp only [replaceConstraint, Run.nameStr_eq (hb x hx), Res.ok_bind, Run.findConstraint_eq ha]
    split
    · exact ⟨_, rfl⟩
    · split <;> exact ⟨_, rfl⟩
  obtain ⟨n, hn⟩ := onlyLeftConstraint_named hb ha (acc := []) (by simp)
  unfold restOf
  rw [hd, hr, hn]
  exact ⟨_, rfl⟩

theorem diff_rename {nv : Bool} {t t' : CreateTable} (hb : ∀ c ∈ t.constraints, c.name ≠ none)
    (ha : ∀ c ∈ t'.constraints, c.name ≠ none) (ho : optionsDiffStr t.options = optionsDiffStr t'.options)
    (hn : t.name.diffStr ≠ t'.name.diffStr) (hs : t.str ≠ t'.str) :
    ∃ rest, diffCreateTable sd nv (some t) (some t') =
        .ok (.alterTable ⟨sd t.name.diffStr (movedName t.name t'.name).diffStr, t.name, .renameTable (movedName t.name t'.name)⟩ :: rest) ∧
      (({ t with name := movedName t.name t'.name } : CreateTable).str ≠ ({ t' with name := movedName t.name t'.name } : CreateTable).str →
        diffCreateTable sd nv (some { t with name := movedName t.name t'.name }) (some { t' with name := movedName t.name t'.name }) =
          if rest.isEmpty then .err .noDifference else .ok rest) := by
  obtain ⟨r, hr⟩ := restOf_total (sd := sd) (nv := nv) (tn := movedName t.name t'.name) hb ha
  have hr' : restOf (sd := sd) nv (movedName t.name t'.name) { t with name := movedName t.name t'.name }
      { t' with name := movedName t.name t'.name } = .ok r := hr
  refine ⟨r.map Stmt.alterTable, ?_, fun h => ?_⟩
  · rw [diff_eq ho, if_neg hs, renamedName_moved hn, hr]
    simp [renameTable, hn, renamedName_moved hn]
  · rw [diff_eq (by exact ho), if_neg h]
    simp only [renamedName, ne_eq, not_true_eq_false, false_and, if_false, hr']
    simp [renameTable]

end Sp

end Ddl
