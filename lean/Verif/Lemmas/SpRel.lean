import Verif.Lemmas.Rel
import Verif.Sp.Parser

/-! # Spanner parser: related token lists give related results -/

namespace Ddl.Sp
open Spec
set_option autoImplicit false

section
variable {B : Blur} {ts ts' : List Token}

theorem parseOrder_rel (h : TsRel B .spanner ts ts') :
    SameOutcome (fun r r' => r'.1 = r.1 ∧ TsRel B .spanner r.2 r'.2) (parseOrder ts) (parseOrder ts') := by
  unfold parseOrder
  rel
macro_rules | `(tactic| rel_call) => `(tactic| exact parseOrder_rel (by trel))

theorem columnIdentsLoop_rel {n : Nat} (h : TsRel B .spanner ts ts') :
    SameOutcome (fun r r' => r'.1.map ColumnIdent.blur = r.1.map ColumnIdent.blur ∧ TsRel B .spanner r.2 r'.2)
      (columnIdentsLoop n ts) (columnIdentsLoop n ts') := by
  induction n generalizing ts ts' with
  | zero => exact .fuel
  | succ n ih =>
    have ih' := @ih
    unfold columnIdentsLoop
    rel
    simp only [List.map_cons]
    refine cons_congr' ?_ (by assumption)
    simp only [ColumnIdent.blur]
    congr 1
    rel_val

theorem parseColumnIdents_rel (h : TsRel B .spanner ts ts') :
    SameOutcome (fun r r' => r'.1.map ColumnIdent.blur = r.1.map ColumnIdent.blur ∧ TsRel B .spanner r.2 r'.2)
      (parseColumnIdents ts) (parseColumnIdents ts') := by
  unfold parseColumnIdents
  rw [h.length]
  exact columnIdentsLoop_rel h
macro_rules | `(tactic| rel_call) => `(tactic| exact parseColumnIdents_rel (by trel))

theorem identsLoop_rel {n : Nat} (h : TsRel B .spanner ts ts') :
    SameOutcome (fun r r' => r'.1.map (Ident.blur B) = r.1.map (Ident.blur B) ∧ TsRel B .spanner r.2 r'.2) (identsLoop n ts)
      (identsLoop n ts') := by
  induction n generalizing ts ts' with
  | zero => exact .fuel
  | succ n ih =>
    have ih' := @ih
    unfold identsLoop
    rel

theorem parseIdents_rel (h : TsRel B .spanner ts ts') :
    SameOutcome (fun r r' => r'.1.map (Ident.blur B) = r.1.map (Ident.blur B) ∧ TsRel B .spanner r.2 r'.2) (parseIdents ts)
      (parseIdents ts') := by
  unfold parseIdents
  rw [h.length]
  exact identsLoop_rel h
macro_rules | `(tactic| rel_call) => `(tactic| exact parseIdents_rel (by trel))

theorem parseDataType_rel (h : TsRel B .spanner ts ts') :
    SameOutcome (fun r r' => r'.1.blur B = r.1.blur B ∧ TsRel B .spanner r.2 r'.2) (parseDataType ts) (parseDataType ts') := by
  have hc := h.curT
  unfold parseDataType
  rel
  all_goals simp_all [DataType.blur]
macro_rules | `(tactic| rel_call) => `(tactic| exact parseDataType_rel (by trel))

theorem exprLoop_rel {n : Nat} (h : TsRel B .spanner ts ts') :
    SameOutcome (fun r r' => r'.1.map (Ident.blur B) = r.1.map (Ident.blur B) ∧ TsRel B .spanner r.2 r'.2) (exprLoop n ts)
      (exprLoop n ts') := by
  induction n generalizing ts ts' with
  | zero => exact .fuel
  | succ n ih =>
    have ih' := @ih
    unfold exprLoop
    rel
    · refine cons_congr' ?_ (by assumption)
      rw [h.symbol (by assumption), show peekL ts' = peekL ts from h.tail.symbol (by assumption)]
    · refine cons_congr' ?_ (by assumption)
      rw [h.curT]
      split <;> rel_val
macro_rules | `(tactic| rel_call) => `(tactic| exact exprLoop_rel (by trel))

theorem parseExpr_rel (h : TsRel B .spanner ts ts') :
    SameOutcome (fun r r' => r'.1.map (Ident.blur B) = r.1.map (Ident.blur B) ∧ TsRel B .spanner r.2 r'.2) (parseExpr ts)
      (parseExpr ts') := by
  unfold parseExpr
  rel
  rw [h.tail.length]
  rel
macro_rules | `(tactic| rel_call) => `(tactic| exact parseExpr_rel (by trel))

theorem map_appendExpr {v v' : Option Expr} {ids ids' : List Ident}
    (hv : v'.map (·.map (Ident.blur B)) = v.map (·.map (Ident.blur B))) (hi : ids'.map (Ident.blur B) = ids.map (Ident.blur B)) :
    (appendExpr v' ids').map (·.map (Ident.blur B)) = (appendExpr v ids).map (·.map (Ident.blur B)) := by
  cases v <;> cases v' <;> simp_all [appendExpr]

theorem defaultLoop_rel {n : Nat} {v v' : Option Expr} (h : TsRel B .spanner ts ts')
    (hv : v'.map (·.map (Ident.blur B)) = v.map (·.map (Ident.blur B))) :
    SameOutcome (fun r r' => r'.1.blur B = r.1.blur B ∧ TsRel B .spanner r.2 r'.2) (defaultLoop n v ts)
      (defaultLoop n v' ts') := by
  induction n generalizing ts ts' v v' with
  | zero => exact .fuel
  | succ n ih =>
    unfold defaultLoop
    rel
    · exact ih (by trel) (map_appendExpr hv (by rel_val))
    · exact ih (by trel) (map_appendExpr hv (by assumption))
    · simp [Default.blur, hv]
    · refine ih (by trel) (map_appendExpr hv ?_)
      simp [Ident.blur, newIdent, h.curT]
    · simp [Default.blur, hv]

theorem parseColumnDefault_rel (h : TsRel B .spanner ts ts') :
    SameOutcome (fun r r' => r'.1.blur B = r.1.blur B ∧ TsRel B .spanner r.2 r'.2) (parseColumnDefault ts)
      (parseColumnDefault ts') := by
  unfold parseColumnDefault
  rw [h.length]
  exact defaultLoop_rel h rfl
macro_rules | `(tactic| rel_call) => `(tactic| exact parseColumnDefault_rel (by trel))

theorem Constraint.nameStr_rel {c c' : Constraint} (h : c'.blur B = c.blur B) : c'.nameStr = c.nameStr := by
  have hn : ∀ c : Constraint, (c.blur B).nameStr = c.nameStr := by
    intro c
    cases c with
    | foreignKey => rfl
    | check n e => cases n <;> rfl
  rw [← hn c, ← hn c', h]

theorem append_rel {cs cs' : List Constraint} {c c' : Constraint}
    (h : cs'.map (Constraint.blur B) = cs.map (Constraint.blur B)) (hc : c'.blur B = c.blur B) :
    SameOutcome (fun r r' => r'.map (Constraint.blur B) = r.map (Constraint.blur B)) (appendConstraint cs c)
      (appendConstraint cs' c') := by
  induction cs generalizing cs' with
  | nil =>
    cases cs' with
    | nil => exact .ok (by simp [hc])
    | cons => simp at h
  | cons x r ih =>
    cases cs' with
    | nil => simp at h
    | cons x' r' =>
      simp only [List.map_cons, List.cons.injEq] at h
      simp only [appendConstraint, Constraint.nameStr_rel h.1, Constraint.nameStr_rel hc]
      refine SameOutcome.bind (R := fun a b => b = a) (by cases x.nameStr <;> simp [SameOutcome]) ?_
      rintro a _ rfl
      refine SameOutcome.bind (R := fun a b => b = a) (by cases c.nameStr <;> simp [SameOutcome]) ?_
      rintro b _ rfl
      refine SameOutcome.ite Iff.rfl (fun _ => .ok (by simp [hc, h.2])) (fun _ => ?_)
      refine SameOutcome.bind (ih h.2) ?_
      exact fun _ _ hl => .ok (by simp [hl, h.1])

theorem appendAll_rel {l l' : List Constraint} (hl : l'.map (Constraint.blur B) = l.map (Constraint.blur B)) :
    ∀ {cs cs' : List Constraint}, cs'.map (Constraint.blur B) = cs.map (Constraint.blur B) →
    SameOutcome (fun r r' => r'.map (Constraint.blur B) = r.map (Constraint.blur B)) (appendAll cs l) (appendAll cs' l') := by
  induction l generalizing l' with
  | nil =>
    intro cs cs' h
    cases l' with
    | nil => exact .ok h
    | cons => simp at hl
  | cons x l ih =>
    intro cs cs' h
    cases l' with
    | nil => simp at hl
    | cons x' l' =>
      simp only [List.map_cons, List.cons.injEq] at hl
      exact SameOutcome.bind (append_rel h hl.1) (fun _ _ hr => ih hl.2 hr)

theorem columnConstraintsLoop_rel {tbl tbl' col col' : Ident} (ht : tbl'.bare = tbl.bare) (hcol : col'.bare = col.bare) {n : Nat}
    {cs cs' : List Constraint} (h : TsRel B .spanner ts ts')
    (hc : cs'.map (Constraint.blur B) = cs.map (Constraint.blur B)) :
    SameOutcome (fun r r' => r'.1.map (Constraint.blur B) = r.1.map (Constraint.blur B) ∧ TsRel B .spanner r.2 r'.2)
      (columnConstraintsLoop tbl col n cs ts) (columnConstraintsLoop tbl' col' n cs' ts') := by
  have ht' : tbl'.name = tbl.name := Ident.name_of_bare ht
  have hcol' : col'.name = col.name := Ident.name_of_bare hcol
  induction n generalizing ts ts' cs cs' with
  | zero => exact .fuel
  | succ n ih =>
    unfold columnConstraintsLoop
    rel
    · refine SameOutcome.bind (append_rel hc ?_) (fun _ _ hr => TsRel.next_bind (by trel) (ih (by trel) hr))
      simp only [Constraint.blur, Ident.diffStr, ht', hcol', List.map_cons, ColumnIdent.blur, hcol, List.map_nil]
      congr 1
      rel_val
    · refine SameOutcome.bind (append_rel hc ?_) (fun _ _ hr => TsRel.next_bind (by trel) (ih (by trel) hr))
      simp only [Constraint.blur, Ident.diffStr, ht', hcol']
      congr 1

theorem parseColumnConstraints_rel {tbl tbl' col col' : Ident} (ht : tbl'.bare = tbl.bare) (hcol : col'.bare = col.bare)
    (h : TsRel B .spanner ts ts') :
    SameOutcome (fun r r' => r'.1.map (Constraint.blur B) = r.1.map (Constraint.blur B) ∧ TsRel B .spanner r.2 r'.2)
      (parseColumnConstraints tbl col ts) (parseColumnConstraints tbl' col' ts') := by
  unfold parseColumnConstraints
  rw [h.length]
  exact columnConstraintsLoop_rel ht hcol h rfl

theorem columnAttrsLoop_rel {n : Nat} {v v' : Option Default} {nn : Bool} (h : TsRel B .spanner ts ts')
    (hv : v'.map (Default.blur B) = v.map (Default.blur B)) :
    SameOutcome (fun r r' => r'.1.map (Default.blur B) = r.1.map (Default.blur B) ∧ r'.2.1 = r.2.1 ∧ TsRel B .spanner r.2.2 r'.2.2)
      (columnAttrsLoop n v nn ts) (columnAttrsLoop n v' nn ts') := by
  induction n generalizing ts ts' v v' nn with
  | zero => exact .fuel
  | succ n ih =>
    unfold columnAttrsLoop
    rel
    · exact ih (by trel) hv
    · exact ih (by trel) hv
    · exact ih (by trel) (by simp_all)

theorem parseColumnOptions_rel (h : TsRel B .spanner ts ts') :
    SameOutcome (fun r r' => r'.1.map (·.map (Ident.blur B)) = r.1.map (·.map (Ident.blur B)) ∧ TsRel B .spanner r.2 r'.2)
      (parseColumnOptions ts) (parseColumnOptions ts') := by
  unfold parseColumnOptions
  rel
  simp_all

theorem parseColumn_rel {tbl tbl' : Ident} (ht : tbl'.bare = tbl.bare) (h : TsRel B .spanner ts ts') :
    SameOutcome (fun r r' => r'.1.blur B = r.1.blur B ∧ r'.2.1.map (Constraint.blur B) = r.2.1.map (Constraint.blur B) ∧
      TsRel B .spanner r.2.2 r'.2.2) (parseColumn tbl ts) (parseColumn tbl' ts') := by
  unfold parseColumn
  rel
  rename_i hts
  rw [hts.tail.length]
  refine SameOutcome.bind (columnAttrsLoop_rel (by trel) rfl) ?_
  rintro ⟨_, _, _⟩ ⟨_, _, _⟩ ⟨_, _, _⟩
  refine SameOutcome.bind (parseColumnConstraints_rel ht (by rel_val) (by trel)) ?_
  rintro ⟨_, _⟩ ⟨_, _⟩ ⟨_, _⟩
  refine SameOutcome.bind (appendAll_rel (by assumption) rfl) ?_
  intro _ _ _
  refine SameOutcome.bind (parseColumnOptions_rel (by trel)) ?_
  rintro ⟨_, _⟩ ⟨_, _⟩ ⟨_, _⟩
  refine SameOutcome.ok ⟨?_, by assumption, by trel⟩
  simp only [Column.blur]
  congr 1
  rel_val

theorem underscored_rel {l l' : List ColumnIdent} (h : l'.map ColumnIdent.blur = l.map ColumnIdent.blur) :
    underscored l' = underscored l := by
  have : ∀ l : List ColumnIdent, underscored l = underscored (l.map ColumnIdent.blur) := by
    intro l
    unfold underscored
    rw [List.map_map]
    rfl
  rw [this l, this l', h]

theorem parseConstraintName_rel (h : TsRel B .spanner ts ts') :
    SameOutcome (fun r r' => r'.1.map Ident.bare = r.1.map Ident.bare ∧ TsRel B .spanner r.2 r'.2) (parseConstraintName ts)
      (parseConstraintName ts') := by
  unfold parseConstraintName
  rel
  simp only [Option.map_some]
  congr 1
  rel_val
macro_rules | `(tactic| rel_call) => `(tactic| exact parseConstraintName_rel (by trel))

theorem parseTableConstraint_rel {tbl tbl' : Ident} (ht : tbl'.bare = tbl.bare) (h : TsRel B .spanner ts ts') :
    SameOutcome (fun r r' => r'.1.blur B = r.1.blur B ∧ TsRel B .spanner r.2 r'.2) (parseTableConstraint tbl ts)
      (parseTableConstraint tbl' ts') := by
  have ht' : tbl'.name = tbl.name := Ident.name_of_bare ht
  unfold parseTableConstraint
  rel
  · simp only [Constraint.blur, Ident.diffStr, ht']
    congr 1
    · refine Ident.bare_getD (by assumption) ?_
      exact congrArg (fun u => (rawIdent (tbl.name ++ u ++ s%"_fkey")).bare) (underscored_rel (by assumption))
    · rel_val
  · simp only [Constraint.blur]
    congr 1

theorem tableLoop_rel {tbl tbl' : Ident} (ht : tbl'.bare = tbl.bare) {n : Nat} {cols cols' : List Column} {cs cs' : List Constraint}
    (h : TsRel B .spanner ts ts') (hcols : cols'.map (Column.blur B) = cols.map (Column.blur B))
    (hcs : cs'.map (Constraint.blur B) = cs.map (Constraint.blur B)) :
    SameOutcome (fun r r' => r'.1.map (Column.blur B) = r.1.map (Column.blur B) ∧
      r'.2.1.map (Constraint.blur B) = r.2.1.map (Constraint.blur B) ∧ TsRel B .spanner r.2.2 r'.2.2)
      (tableLoop tbl n cols cs ts) (tableLoop tbl' n cols' cs' ts') := by
  induction n generalizing ts ts' cols cols' cs cs' with
  | zero => exact .fuel
  | succ n ih =>
    unfold tableLoop
    rel
    · refine SameOutcome.bind (parseColumn_rel ht h) ?_
      rintro ⟨_, _, _⟩ ⟨_, _, _⟩ ⟨_, _, _⟩
      refine SameOutcome.bind (appendAll_rel (by assumption) hcs) ?_
      intro _ _ hr
      exact ih (by trel) (by simp_all) hr
    · refine SameOutcome.bind (parseTableConstraint_rel ht h) ?_
      rintro ⟨_, _⟩ ⟨_, _⟩ ⟨_, _⟩
      refine SameOutcome.bind (append_rel hcs (by assumption)) ?_
      intro _ _ hr
      exact ih (by trel) hcols hr
    · exact ih (by trel) hcols hcs

theorem expect_rel {t : TokType} (h : TsRel B .spanner ts ts') :
    SameOutcome (fun r r' => (rawIdent r'.1).blur B = (rawIdent r.1).blur B ∧ TsRel B .spanner r.2 r'.2) (expect t ts)
      (expect t ts') := by
  unfold expect
  rel
macro_rules | `(tactic| rel_call) => `(tactic| exact expect_rel (by trel))

theorem parseInterleaveAction_rel (h : TsRel B .spanner ts ts') :
    SameOutcome (fun r r' => r'.1.map (Ident.blur B) = r.1.map (Ident.blur B) ∧ TsRel B .spanner r.2 r'.2)
      (parseInterleaveAction ts) (parseInterleaveAction ts') := by
  unfold parseInterleaveAction
  rel
macro_rules | `(tactic| rel_call) => `(tactic| exact parseInterleaveAction_rel (by trel))

theorem parseInterleave_rel (h : TsRel B .spanner ts ts') :
    SameOutcome (fun r r' => r'.1.blur B = r.1.blur B ∧ TsRel B .spanner r.2 r'.2) (parseInterleave ts)
      (parseInterleave ts') := by
  unfold parseInterleave
  rel
  simp_all [TableOption.blur]
macro_rules | `(tactic| rel_call) => `(tactic| exact parseInterleave_rel (by trel))

theorem parseRowDeletionPolicy_rel (h : TsRel B .spanner ts ts') :
    SameOutcome (fun r r' => r'.1.blur B = r.1.blur B ∧ TsRel B .spanner r.2 r'.2) (parseRowDeletionPolicy ts)
      (parseRowDeletionPolicy ts') := by
  unfold parseRowDeletionPolicy
  rel
  simp only [TableOption.blur, List.map_cons, List.map_nil]
  congr 1
  rel_val
macro_rules | `(tactic| rel_call) => `(tactic| exact parseRowDeletionPolicy_rel (by trel))

theorem optionsLoop_rel {n : Nat} {os os' : List TableOption} {p p' : Option TableOption} (h : TsRel B .spanner ts ts')
    (ho : os'.map (TableOption.blur B) = os.map (TableOption.blur B))
    (hp : p'.map (TableOption.blur B) = p.map (TableOption.blur B)) :
    SameOutcome (fun r r' => r'.1.map (TableOption.blur B) = r.1.map (TableOption.blur B) ∧
      r'.2.1.map (TableOption.blur B) = r.2.1.map (TableOption.blur B) ∧ TsRel B .spanner r.2.2 r'.2.2)
      (optionsLoop n os p ts) (optionsLoop n os' p' ts') := by
  induction n generalizing ts ts' os os' p p' with
  | zero => exact .fuel
  | succ n ih =>
    unfold optionsLoop
    rel
    · exact ih (by trel) (by simp_all [TableOption.blur]) hp
    · exact ih (by trel) (by simp_all) hp
    · exact ih (by trel) ho (by simp_all)
    · exact ih (by trel) ho hp

theorem parseCreateTable_rel (h : TsRel B .spanner ts ts') :
    SameOutcome (fun r r' => r'.1.blur B = r.1.blur B ∧ TsRel B .spanner r.2 r'.2) (parseCreateTable ts)
      (parseCreateTable ts') := by
  unfold parseCreateTable
  rel
  rename_i hts _ _
  have hn : (newObjectName .spanner (curL _)).bare = (newObjectName .spanner (curL _)).bare :=
    hts.tail.object (by rel_ident)
  rw [hts.tail.tail.tail.length]
  refine SameOutcome.bind (tableLoop_rel ?_ (by trel) rfl rfl) ?_
  · have e := congrArg ObjectName.name hn; exact e
  rintro ⟨_, _, _⟩ ⟨_, _, _⟩ ⟨_, _, hts'⟩
  dsimp only at hts'
  dsimp only
  rw [hts'.length]
  refine SameOutcome.bind (optionsLoop_rel (by trel) rfl rfl) ?_
  rintro ⟨_, _, _⟩ ⟨_, _, _⟩ ⟨_, _, _⟩
  exact .ok ⟨by simp only [CreateTable.blur]; simp_all, by trel⟩

theorem parseUsing_rel (h : TsRel B .spanner ts ts') :
    SameOutcome (fun r r' => r'.1.map (Ident.blurRaw B) = r.1.map (Ident.blurRaw B) ∧ TsRel B .spanner r.2 r'.2) (parseUsing ts)
      (parseUsing ts') := by
  unfold parseUsing
  rel
  simp only [List.map_cons, List.map_nil, Ident.blurRaw, newIdent, h.tail.raw]
macro_rules | `(tactic| rel_call) => `(tactic| exact parseUsing_rel (by trel))

theorem parseUnique_rel (h : TsRel B .spanner ts ts') :
    SameOutcome (fun r r' => r'.1 = r.1 ∧ TsRel B .spanner r.2 r'.2) (parseUnique ts)
      (parseUnique ts') := by
  unfold parseUnique
  rel
macro_rules | `(tactic| rel_call) => `(tactic| exact parseUnique_rel (by trel))

theorem parseCreateIndex_rel (h : TsRel B .spanner ts ts') :
    SameOutcome (fun r r' => r'.1.blur B = r.1.blur B ∧ TsRel B .spanner r.2 r'.2) (parseCreateIndex ts)
      (parseCreateIndex ts') := by
  unfold parseCreateIndex
  rel
  simp only [CreateIndex.blur]
  congr 1 <;> rel_val

theorem parseCreate_rel (h : TsRel B .spanner ts ts') :
    SameOutcome (fun r r' => StmtEq (CreateTable.blur B) (CreateIndex.blur B) r.1 r'.1 ∧ TsRel B .spanner r.2 r'.2)
      (parseCreate ts) (parseCreate ts') := by
  unfold parseCreate
  rel
  · refine SameOutcome.bind (parseCreateTable_rel (by trel)) ?_
    rintro ⟨_, _⟩ ⟨_, _⟩ ⟨h, _⟩
    exact .ok ⟨.table h.symm, by trel⟩
  · refine SameOutcome.bind (parseCreateIndex_rel (by trel)) ?_
    rintro ⟨_, _⟩ ⟨_, _⟩ ⟨h, _⟩
    exact .ok ⟨.index h.symm, by trel⟩

/-- Texts with related tokens have the same outcome, up to what is blurred. -/
theorem parse_rel {s s' : Str} (h : TsRel B .spanner (lex .spanner s) (lex .spanner s')) :
    SameOutcome (Pointwise (StmtEq (CreateTable.blur B) (CreateIndex.blur B))) (parse s) (parse s') :=
  parseTokens_rel parseCreate_rel h

end

end Ddl.Sp
