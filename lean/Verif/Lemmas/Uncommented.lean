import Verif.Spec.Uncommented
import Verif.Lemmas.Diff
import Verif.Lemmas.Comment
import Verif.Pg.Diff
import Verif.Crdb.Diff
import Verif.My.Diff
import Verif.Sp.Diff

/-! # The text of a difference has no influence on the migration -/

namespace Ddl
open Spec
set_option autoImplicit false

/-- The same result up to `f`. -/
def SameUpTo {α β : Type} (f : α → β) (r r' : Res (List α)) : Prop := (∃ l l', r = .ok l ∧ r' = .ok l' ∧ l.map f = l'.map f) ∨ r = r'

theorem SameUpTo.eq {α β : Type} {f : α → β} {r r' : Res (List α)} (h : SameUpTo f r r') :
    (r >>= fun l => .ok (l.map f)) = (r' >>= fun l => .ok (l.map f)) := by
  rcases h with ⟨l, l', rfl, rfl, h⟩ | rfl
  · simp [h]
  · exact Eq.refl _

theorem SameUpTo.bind {α β γ δ : Type} {f : α → β} {g : γ → δ} {r r' : Res (List α)} (h : SameUpTo f r r') {k k' : List α → Res (List γ)}
    (hk : ∀ l l', l.map f = l'.map f → SameUpTo g (k l) (k' l')) : SameUpTo g (r >>= k) (r' >>= k') := by
  rcases h with ⟨l, l', rfl, rfl, h⟩ | rfl
  · simpa using hk l l' h
  · cases r with
    | ok l => simpa using hk l l (Eq.refl _)
    | _ => exact .inr (Eq.refl _)

theorem flatMapRes_upto {α β γ : Type} {f : β → γ} {g g' : α → Res (List β)} {l : List α} (h : ∀ x ∈ l, SameUpTo f (g x) (g' x)) :
    SameUpTo f (flatMapRes g l) (flatMapRes g' l) := by
  induction l with
  | nil => exact .inr (Eq.refl _)
  | cons x l ih =>
    refine (h x (by simp)).bind fun a a' ha => (ih fun y hy => h y (by simp [hy])).bind fun c c' hc => ?_
    exact .inl ⟨_, _, Eq.refl _, Eq.refl _, by simp [ha, hc]⟩

theorem flatMap_upto {α β γ : Type} {f : β → γ} {g g' : α → List β} {l : List α} (h : ∀ x, (g x).map f = (g' x).map f) :
    (l.flatMap g).map f = (l.flatMap g').map f := by
  simp only [List.map_flatMap, h]

theorem isEmpty_upto {α β : Type} {f : α → β} {l l' : List α} (h : l.map f = l'.map f) : l.isEmpty = l'.isEmpty := by
  cases l <;> cases l' <;> simp_all

theorem commentStr_lines (c : Str) : ∃ ls : List Str, (∀ l ∈ ls, '\n' ∉ l) ∧ commentStr c = lineComments ls := by
  have h : ∀ ls : List Str, Ddl.commentLines ls = lineComments (ls.filter fun l => !decide (l = [])) := by
    intro ls
    induction ls with
    | nil => rfl
    | cons l ls ih =>
      unfold Ddl.commentLines
      by_cases hl : l = []
      · simp [hl, ih]
      · simp [hl, ih, lineComments]
  unfold commentStr
  split
  · exact ⟨[], by simp, rfl⟩
  · exact ⟨_, fun l hl => (splitC_line '\n' c l (List.mem_of_mem_filter hl)).1, h _⟩

theorem SameUpTo.list {α β γ δ : Type} {f : α → β} {f' : γ → δ} {g : α → γ} {l l' : List α} {e : Err} (h : l.map f = l'.map f)
    (hg : ∀ l l' : List α, l.map f = l'.map f → (l.map g).map f' = (l'.map g).map f') :
    SameUpTo f' (if l.isEmpty = true then .err e else .ok (l.map g)) (if l'.isEmpty = true then .err e else .ok (l'.map g)) := by
  rw [isEmpty_upto h]
  split
  · exact .inr (Eq.refl _)
  · exact .inl ⟨_, _, Eq.refl _, Eq.refl _, hg l l' h⟩

theorem SameUpTo.list0 {α β : Type} {f : α → β} {l l' : List α} {e : Err} (h : l.map f = l'.map f) :
    SameUpTo f (if l.isEmpty = true then .err e else .ok l) (if l'.isEmpty = true then .err e else .ok l') := by
  rw [isEmpty_upto h]
  split
  · exact .inr (Eq.refl _)
  · exact .inl ⟨_, _, Eq.refl _, Eq.refl _, h⟩

section
variable {T I A N : Type}

theorem findStmt_sd (o : Ops T I A N) (dt : T → T → Res (List (Stmt T I A N))) (sd : Str → Str → Str) (s : Stmt T I A N) (l : List (Stmt T I A N)) :
    findStmt { o with diffTable := dt, sd := sd } s l = findStmt o s l := by
  have h : nameForDiff { o with diffTable := dt, sd := sd } = nameForDiff o := by
    funext x
    cases x <;> rfl
  unfold findStmt
  rw [h]

theorem dropOf_sd (o : Ops T I A N) (dt : T → T → Res (List (Stmt T I A N))) (sd : Str → Str → Str) :
    dropOf { o with diffTable := dt, sd := sd } = dropOf o := by
  funext x
  cases x <;> rfl

theorem stmtStr_sd (o : Ops T I A N) (dt : T → T → Res (List (Stmt T I A N))) (sd : Str → Str → Str) :
    stmtStr { o with diffTable := dt, sd := sd } = stmtStr o := by
  funext x
  cases x <;> rfl

theorem alterOf_upto {o : Ops T I A N} {dt : T → T → Res (List (Stmt T I A N))} {sd : Str → Str → Str} {fi : I → I} {fa : A → A}
    (h : ∀ t t', SameUpTo (uncommented fi fa) (o.diffTable t t') (dt t t')) (a : List (Stmt T I A N)) (s : Stmt T I A N) :
    SameUpTo (uncommented fi fa) (alterOf o a s) (alterOf { o with diffTable := dt, sd := sd } a s) := by
  cases s with
  | createTable t =>
    simp only [alterOf, findStmt_sd]
    split
    · rename_i t' _
      rcases h t t' with ⟨l, l', h1, h2, h3⟩ | h1
      · simp only [h1, h2]
        exact .inl ⟨_, _, Eq.refl _, Eq.refl _, h3⟩
      · simp only [h1]
        exact .inr (Eq.refl _)
    · exact .inr (Eq.refl _)
  | createIndex i =>
    simp only [alterOf, findStmt_sd]
    split
    · split
      · exact .inl ⟨_, _, Eq.refl _, Eq.refl _, Eq.refl _⟩
      · exact .inr (Eq.refl _)
    · exact .inr (Eq.refl _)
  | _ => exact .inr (Eq.refl _)

theorem diff_upto {o : Ops T I A N} {dt : T → T → Res (List (Stmt T I A N))} {sd : Str → Str → Str} {fi : I → I} {fa : A → A}
    (h : ∀ t t', SameUpTo (uncommented fi fa) (o.diffTable t t') (dt t t')) (b a : Option (List (Stmt T I A N))) :
    SameUpTo (uncommented fi fa) (diff o b a) (diff { o with diffTable := dt, sd := sd } b a) := by
  have hl : ∀ x y : List (Stmt T I A N), onlyLeftStmt { o with diffTable := dt, sd := sd } x y = onlyLeftStmt o x y := by
    intro x y
    simp only [onlyLeftStmt, findStmt_sd]
  cases b with
  | none => cases a <;> exact .inr (Eq.refl _)
  | some b =>
    cases a with
    | none =>
      simp only [diff, dropOf_sd]
      exact .inr (Eq.refl _)
    | some a =>
      have hd : ∀ x, ddlStr { o with diffTable := dt, sd := sd } x = ddlStr o x := fun x => by unfold ddlStr; rw [stmtStr_sd]
      simp only [diff, dropOf_sd, hl, hd]
      by_cases hs : ddlStr o b = ddlStr o a
      · simp only [if_pos hs]
        exact .inr (Eq.refl _)
      · simp only [if_neg hs]
        refine SameUpTo.bind (f := uncommented fi fa) (.inr (Eq.refl _)) fun d d' hd => ?_
        refine SameUpTo.bind (f := uncommented fi fa) (.inr (Eq.refl _)) fun c c' hc => ?_
        refine (flatMapRes_upto fun s _ => alterOf_upto h a s).bind fun e e' he => ?_
        have hm : (d ++ c ++ e).map (uncommented fi fa) = (d' ++ c' ++ e').map (uncommented fi fa) := by simp only [List.map_append, hd, hc, he]
        simp only [isEmpty_upto hm]
        split
        · exact .inr (Eq.refl _)
        · exact .inl ⟨_, _, Eq.refl _, Eq.refl _, hm⟩

end

/-! ## PostgreSQL -/

namespace Pg
variable (sd sd' : Str → Str → Str)

theorem alter_map (l l' : List AlterTable) (h : l.map uncommentedAlter = l'.map uncommentedAlter) :
    (l.map Stmt.alterTable).map Pg.uncommented = (l'.map Stmt.alterTable).map Pg.uncommented := by
  have e : ∀ l : List AlterTable, (l.map Stmt.alterTable).map Pg.uncommented = (l.map uncommentedAlter).map Stmt.alterTable := by
    intro l
    simp only [List.map_map]
    rfl
  rw [e, e, h]

theorem alterColumn_upto (tn : ObjectName) (b a : Column) :
    (alterColumn sd tn b a).map uncommentedAlter = (alterColumn sd' tn b a).map uncommentedAlter := by
  unfold alterColumn
  split_ifs <;> rfl

theorem diffColumns_upto (tn : ObjectName) (b a : List Column) :
    (diffColumns sd tn b a).map uncommentedAlter = (diffColumns sd' tn b a).map uncommentedAlter := by
  simp only [diffColumns, List.map_append, List.map_map]
  congr 1
  refine flatMap_upto fun x => ?_
  unfold columnRound
  split
  · rfl
  · exact alterColumn_upto sd sd' tn _ _

theorem renameTable_upto (b a : ObjectName) : (renameTable sd b a).map uncommentedAlter = (renameTable sd' b a).map uncommentedAlter := by
  unfold renameTable
  split <;> rfl

theorem dropConstraints_upto (tn : ObjectName) (b a : List Constraint) :
    (dropConstraints sd tn b a).map uncommentedAlter = (dropConstraints sd' tn b a).map uncommentedAlter :=
  flatMap_upto fun x => by split <;> rfl

theorem replaceConstraints_upto (nv : Bool) (tn : ObjectName) (b a : List Constraint) :
    (replaceConstraints sd nv tn b a).map uncommentedAlter = (replaceConstraints sd' nv tn b a).map uncommentedAlter :=
  flatMap_upto fun x => by
    split
    · rfl
    · split <;> rfl

theorem addConstraints_upto (nv : Bool) (tn : ObjectName) (b a : List Constraint) :
    (addConstraints sd nv tn b a).map uncommentedAlter = (addConstraints sd' nv tn b a).map uncommentedAlter := by
  simp only [addConstraints, List.map_map]
  rfl

theorem table_upto (nv : Bool) (b a : Option CreateTable) :
    SameUpTo Pg.uncommented (diffCreateTable sd nv b a) (diffCreateTable sd' nv b a) := by
  cases b with
  | none => cases a <;> exact .inr rfl
  | some b =>
    cases a with
    | none => exact .inr rfl
    | some a =>
      simp only [diffCreateTable]
      split
      · exact .inr rfl
      · refine SameUpTo.list (f := uncommentedAlter) ?_ fun l l' h => alter_map l l' h
        simp only [List.map_append, renameTable_upto sd sd', dropConstraints_upto sd sd', diffColumns_upto sd sd', replaceConstraints_upto sd sd',
          addConstraints_upto sd sd']

theorem str_uncommented (s : PStmt) : ∃ ls : List Str, (∀ l ∈ ls, '\n' ∉ l) ∧ stmtStr (ops sd) s = lineComments ls ++ stmtStr (ops sd) (Pg.uncommented s) := by
  have key : ∃ c, stmtStr (ops sd) s = commentStr c ++ stmtStr (ops sd) (Pg.uncommented s) := by
    cases s with
    | createTable t => exact ⟨[], rfl⟩
    | createIndex i => exact ⟨i.comment, by simp [stmtStr, ops, CreateIndex.str, Pg.uncommented, Spec.uncommented, commentStr]⟩
    | alterTable a => exact ⟨a.comment, by simp [stmtStr, ops, AlterTable.str, Pg.uncommented, Spec.uncommented, uncommentedAlter, commentStr]⟩
    | dropTable c e n => exact ⟨c, by simp [stmtStr, Pg.uncommented, Spec.uncommented, commentStr]⟩
    | dropIndex c e n => exact ⟨c, by simp [stmtStr, Pg.uncommented, Spec.uncommented, commentStr]⟩
  obtain ⟨c, hc⟩ := key
  obtain ⟨ls, h1, h2⟩ := commentStr_lines c
  exact ⟨ls, h1, h2 ▸ hc⟩

end Pg

/-! ## CockroachDB -/

namespace Crdb
variable (sd sd' : Str → Str → Str)

theorem alter_map (l l' : List AlterTable) (h : l.map uncommentedAlter = l'.map uncommentedAlter) :
    (l.map Stmt.alterTable).map Crdb.uncommented = (l'.map Stmt.alterTable).map Crdb.uncommented := by
  have e : ∀ l : List AlterTable, (l.map Stmt.alterTable).map Crdb.uncommented = (l.map uncommentedAlter).map Stmt.alterTable := by
    intro l
    simp only [List.map_map]
    rfl
  rw [e, e, h]

theorem alterColumn_upto (tn : ObjectName) (b a : Column) :
    (alterColumn sd tn b a).map uncommentedAlter = (alterColumn sd' tn b a).map uncommentedAlter := by
  unfold alterColumn
  split_ifs <;> rfl

theorem diffColumns_upto (tn : ObjectName) (b a : List Column) :
    (diffColumns sd tn b a).map uncommentedAlter = (diffColumns sd' tn b a).map uncommentedAlter := by
  simp only [diffColumns, List.map_append, List.map_map]
  congr 1
  refine flatMap_upto fun x => ?_
  unfold columnRound
  split
  · split <;> rfl
  · exact alterColumn_upto sd sd' tn _ _

theorem renameTable_upto (b a : ObjectName) : (renameTable sd b a).map uncommentedAlter = (renameTable sd' b a).map uncommentedAlter := by
  unfold renameTable
  split <;> rfl

theorem dropConstraints_upto (tn : ObjectName) (b a : List Constraint) :
    (dropConstraints sd tn b a).map Crdb.uncommented = (dropConstraints sd' tn b a).map Crdb.uncommented :=
  flatMap_upto fun x => by
    split
    · split <;> rfl
    · rfl

theorem replaceConstraints_upto (nv : Bool) (tn : ObjectName) (b a : List Constraint) :
    (replaceConstraints sd nv tn b a).map Crdb.uncommented = (replaceConstraints sd' nv tn b a).map Crdb.uncommented :=
  flatMap_upto fun x => by
    split
    · rfl
    · split
      · split <;> rfl
      · rfl

theorem addConstraints_upto (nv : Bool) (tn : ObjectName) (b a : List Constraint) :
    (addConstraints sd nv tn b a).map Crdb.uncommented = (addConstraints sd' nv tn b a).map Crdb.uncommented := by
  simp only [addConstraints, List.map_map]
  refine List.map_congr_left fun c _ => ?_
  simp only [Function.comp_apply]
  split <;> rfl

theorem table_upto (nv : Bool) (b a : Option CreateTable) :
    SameUpTo Crdb.uncommented (diffCreateTable sd nv b a) (diffCreateTable sd' nv b a) := by
  cases b with
  | none => cases a <;> exact .inr rfl
  | some b =>
    cases a with
    | none => exact .inr rfl
    | some a =>
      simp only [diffCreateTable]
      split
      · exact .inr rfl
      · have hr := alter_map _ _ (renameTable_upto sd sd' b.name a.name)
        have hc := alter_map _ _ (diffColumns_upto sd sd' (renamedName b.name a.name) b.columns a.columns)
        refine SameUpTo.list0 (f := Crdb.uncommented) ?_
        simp only [List.map_append] at hr hc ⊢
        rw [hr, hc, dropConstraints_upto sd sd', replaceConstraints_upto sd sd', addConstraints_upto sd sd']

theorem str_uncommented (s : CStmt) : ∃ ls : List Str, (∀ l ∈ ls, '\n' ∉ l) ∧ stmtStr (ops sd) s = lineComments ls ++ stmtStr (ops sd) (Crdb.uncommented s) := by
  have key : ∃ c, stmtStr (ops sd) s = commentStr c ++ stmtStr (ops sd) (Crdb.uncommented s) := by
    cases s with
    | createTable t => exact ⟨[], rfl⟩
    | createIndex i => exact ⟨i.comment, by simp [stmtStr, ops, CreateIndex.str, Crdb.uncommented, Spec.uncommented, commentStr]⟩
    | alterTable a => exact ⟨a.comment, by simp [stmtStr, ops, AlterTable.str, Crdb.uncommented, Spec.uncommented, uncommentedAlter, commentStr]⟩
    | dropTable c e n => exact ⟨c, by simp [stmtStr, Crdb.uncommented, Spec.uncommented, commentStr]⟩
    | dropIndex c e n => exact ⟨c, by simp [stmtStr, Crdb.uncommented, Spec.uncommented, commentStr]⟩
  obtain ⟨c, hc⟩ := key
  obtain ⟨ls, h1, h2⟩ := commentStr_lines c
  exact ⟨ls, h1, h2 ▸ hc⟩

end Crdb

/-! ## MySQL -/

namespace My
variable (sd sd' : Str → Str → Str)

theorem alter_map (l l' : List AlterTable) (h : l.map uncommentedAlter = l'.map uncommentedAlter) :
    (l.map Stmt.alterTable).map My.uncommented = (l'.map Stmt.alterTable).map My.uncommented := by
  have e : ∀ l : List AlterTable, (l.map Stmt.alterTable).map My.uncommented = (l.map uncommentedAlter).map Stmt.alterTable := by
    intro l
    simp only [List.map_map]
    rfl
  rw [e, e, h]

theorem alterColumn_upto (tn : ObjectName) (b a : Column) :
    (alterColumn sd tn b a).map uncommentedAlter = (alterColumn sd' tn b a).map uncommentedAlter := by
  unfold alterColumn
  split_ifs <;> rfl

theorem diffColumns_upto (tn : ObjectName) (b a : List Column) :
    (diffColumns sd tn b a).map uncommentedAlter = (diffColumns sd' tn b a).map uncommentedAlter := by
  simp only [diffColumns, List.map_append, List.map_map]
  congr 1
  refine flatMap_upto fun x => ?_
  unfold columnRound
  split
  · rfl
  · exact alterColumn_upto sd sd' tn _ _

theorem renameTable_upto (b a : ObjectName) : (renameTable sd b a).map uncommentedAlter = (renameTable sd' b a).map uncommentedAlter := by
  unfold renameTable
  split <;> rfl

theorem dropConstraints_upto (bs : Option Ident) (tn : ObjectName) (b a : List Constraint) :
    (dropConstraints sd bs tn b a).map My.uncommented = (dropConstraints sd' bs tn b a).map My.uncommented :=
  flatMap_upto fun x => by
    split
    · split <;> rfl
    · rfl

theorem replaceConstraints_upto (nv : Bool) (bs : Option Ident) (tn : ObjectName) (b a : List Constraint) :
    (replaceConstraints sd nv bs tn b a).map My.uncommented = (replaceConstraints sd' nv bs tn b a).map My.uncommented :=
  flatMap_upto fun x => by
    split
    · rfl
    · split
      · split <;> rfl
      · rfl

theorem addConstraints_upto (nv : Bool) (tn : ObjectName) (b a : List Constraint) :
    (addConstraints sd nv tn b a).map My.uncommented = (addConstraints sd' nv tn b a).map My.uncommented := by
  simp only [addConstraints, List.map_map]
  refine List.map_congr_left fun c _ => ?_
  simp only [Function.comp_apply]
  split <;> rfl

theorem changeOptions_upto (tn : ObjectName) (b a : List TableOption) :
    (changeOptions sd tn b a).map uncommentedAlter = (changeOptions sd' tn b a).map uncommentedAlter :=
  flatMap_upto fun x => by
    split
    · rfl
    · split
      · rfl
      · split <;> rfl

theorem addOptions_upto (tn : ObjectName) (b a : List TableOption) :
    (addOptions sd tn b a).map uncommentedAlter = (addOptions sd' tn b a).map uncommentedAlter :=
  flatMap_upto fun x => by split <;> rfl

theorem table_upto (nv : Bool) (b a : Option CreateTable) :
    SameUpTo My.uncommented (diffCreateTable sd nv b a) (diffCreateTable sd' nv b a) := by
  cases b with
  | none => cases a <;> exact .inr rfl
  | some b =>
    cases a with
    | none => exact .inr rfl
    | some a =>
      simp only [diffCreateTable]
      split
      · exact .inr rfl
      · have hr := alter_map _ _ (renameTable_upto sd sd' b.name a.name)
        have hc := alter_map _ _ (diffColumns_upto sd sd' (renamedName b.name a.name) b.columns a.columns)
        have ho := alter_map _ _ (show (changeOptions sd (renamedName b.name a.name) b.options a.options ++ addOptions sd (renamedName b.name a.name) b.options a.options).map
            uncommentedAlter = (changeOptions sd' (renamedName b.name a.name) b.options a.options ++ addOptions sd' (renamedName b.name a.name) b.options a.options).map
            uncommentedAlter by simp only [List.map_append, changeOptions_upto sd sd', addOptions_upto sd sd'])
        refine SameUpTo.list0 (f := My.uncommented) ?_
        rw [List.map_append, List.map_append, List.map_append, List.map_append, List.map_append, hr, hc, ho, dropConstraints_upto sd sd',
          replaceConstraints_upto sd sd', addConstraints_upto sd sd', ← List.map_append, ← List.map_append, ← List.map_append, ← List.map_append,
          ← List.map_append]

theorem str_uncommented (s : MStmt) : ∃ ls : List Str, (∀ l ∈ ls, '\n' ∉ l) ∧ stmtStr (ops sd) s = lineComments ls ++ stmtStr (ops sd) (My.uncommented s) := by
  have key : ∃ c, stmtStr (ops sd) s = commentStr c ++ stmtStr (ops sd) (My.uncommented s) := by
    cases s with
    | createTable t => exact ⟨[], rfl⟩
    | createIndex i => exact ⟨i.comment, by simp [stmtStr, ops, CreateIndex.str, My.uncommented, Spec.uncommented, commentStr]⟩
    | alterTable a => exact ⟨a.comment, by simp [stmtStr, ops, AlterTable.str, My.uncommented, Spec.uncommented, uncommentedAlter, commentStr]⟩
    | dropTable c e n => exact ⟨c, by simp [stmtStr, My.uncommented, Spec.uncommented, commentStr]⟩
    | dropIndex c e n => exact ⟨c, by simp [stmtStr, My.uncommented, Spec.uncommented, commentStr]⟩
  obtain ⟨c, hc⟩ := key
  obtain ⟨ls, h1, h2⟩ := commentStr_lines c
  exact ⟨ls, h1, h2 ▸ hc⟩

end My

/-! ## Spanner -/

namespace Sp
variable (sd sd' : Str → Str → Str)

theorem alter_map (l l' : List AlterTable) (h : l.map uncommentedAlter = l'.map uncommentedAlter) :
    (l.map Stmt.alterTable).map Sp.uncommented = (l'.map Stmt.alterTable).map Sp.uncommented := by
  have e : ∀ l : List AlterTable, (l.map Stmt.alterTable).map Sp.uncommented = (l.map uncommentedAlter).map Stmt.alterTable := by
    intro l
    simp only [List.map_map]
    rfl
  rw [e, e, h]

theorem alterColumn_upto (tn : ObjectName) (b a : Column) :
    (alterColumn sd tn b a).map uncommentedAlter = (alterColumn sd' tn b a).map uncommentedAlter := by
  unfold alterColumn
  split_ifs <;> rfl

theorem diffColumns_upto (tn : ObjectName) (b a : List Column) :
    (diffColumns sd tn b a).map uncommentedAlter = (diffColumns sd' tn b a).map uncommentedAlter := by
  simp only [diffColumns, List.map_append, List.map_map]
  congr 1
  refine flatMap_upto fun x => ?_
  unfold columnRound
  split
  · rfl
  · exact alterColumn_upto sd sd' tn _ _

theorem renameTable_upto (b a : ObjectName) : (renameTable sd b a).map uncommentedAlter = (renameTable sd' b a).map uncommentedAlter := by
  unfold renameTable
  split <;> rfl

theorem table_upto (nv : Bool) (b a : Option CreateTable) :
    SameUpTo Sp.uncommented (diffCreateTable sd nv b a) (diffCreateTable sd' nv b a) := by
  cases b with
  | none => cases a <;> exact .inr rfl
  | some b =>
    cases a with
    | none => exact .inr rfl
    | some a =>
      simp only [diffCreateTable]
      split
      · exact .inl ⟨_, _, rfl, rfl, rfl⟩
      split
      · exact .inr rfl
      · refine SameUpTo.bind (f := uncommentedAlter) (flatMapRes_upto fun c _ => ?_) fun d d' hd => ?_
        · unfold dropConstraint
          cases c.nameStr with
          | ok n =>
            simp only [Res.ok_bind]
            cases findConstraint n a.constraints with
            | ok f => cases f <;> exact .inl ⟨_, _, rfl, rfl, rfl⟩
            | _ => exact .inr rfl
          | _ => exact .inr rfl
        refine SameUpTo.bind (f := uncommentedAlter) (flatMapRes_upto fun c _ => ?_) fun e e' he => ?_
        · unfold replaceConstraint
          cases c.nameStr with
          | ok n =>
            simp only [Res.ok_bind]
            cases findConstraint n a.constraints with
            | ok f =>
              cases f with
              | none => exact .inr rfl
              | some x =>
                simp only [Res.ok_bind]
                split
                · exact .inl ⟨_, _, rfl, rfl, rfl⟩
                · exact .inr rfl
            | _ => exact .inr rfl
          | _ => exact .inr rfl
        cases onlyLeftConstraint b.constraints [] a.constraints with
        | ok added =>
          simp only [Res.ok_bind]
          refine SameUpTo.list (f := uncommentedAlter) ?_ fun l l' h => alter_map l l' h
          have hp : (diffRowDeletionPolicy sd (renamedName b.name a.name) b.rowDeletionPolicy a.rowDeletionPolicy).map uncommentedAlter =
              (diffRowDeletionPolicy sd' (renamedName b.name a.name) b.rowDeletionPolicy a.rowDeletionPolicy).map uncommentedAlter := by
            unfold diffRowDeletionPolicy
            split
            · split <;> rfl
            · rfl
          simp only [List.map_append, renameTable_upto sd sd', diffColumns_upto sd sd', hd, he, hp, List.map_map]
          rfl
        | _ => exact .inr rfl

theorem str_uncommented (s : SStmt) : ∃ ls : List Str, (∀ l ∈ ls, '\n' ∉ l) ∧ stmtStr (ops sd) s = lineComments ls ++ stmtStr (ops sd) (Sp.uncommented s) := by
  have key : ∃ c, stmtStr (ops sd) s = commentStr c ++ stmtStr (ops sd) (Sp.uncommented s) := by
    cases s with
    | createTable t => exact ⟨[], rfl⟩
    | createIndex i => exact ⟨i.comment, by simp [stmtStr, ops, CreateIndex.str, Sp.uncommented, Spec.uncommented, commentStr]⟩
    | alterTable a => exact ⟨a.comment, by simp [stmtStr, ops, AlterTable.str, Sp.uncommented, Spec.uncommented, uncommentedAlter, commentStr]⟩
    | dropTable c e n => exact ⟨c, by simp [stmtStr, Sp.uncommented, Spec.uncommented, commentStr]⟩
    | dropIndex c e n => exact ⟨c, by simp [stmtStr, Sp.uncommented, Spec.uncommented, commentStr]⟩
  obtain ⟨c, hc⟩ := key
  obtain ⟨ls, h1, h2⟩ := commentStr_lines c
  exact ⟨ls, h1, h2 ▸ hc⟩

end Sp

end Ddl
