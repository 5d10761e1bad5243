import Verif.Lemmas.Rel
import Verif.Crdb.Parser

/-! # CockroachDB parser: related token lists give related results -/

namespace Ddl.Crdb
open Spec
set_option autoImplicit false

section
variable {B : Blur} {ts ts' : List Token}

theorem parseOrder_rel (h : TsRel B .cockroachdb ts ts') :
    SameOutcome (fun r r' => r'.1 = r.1 ∧ TsRel B .cockroachdb r.2 r'.2) (parseOrder ts) (parseOrder ts') := by
  unfold parseOrder
  rel
macro_rules | `(tactic| rel_call) => `(tactic| exact parseOrder_rel (by trel))

theorem columnIdentsLoop_rel {n : Nat} (h : TsRel B .cockroachdb ts ts') :
    SameOutcome (fun r r' => r'.1.map ColumnIdent.blur = r.1.map ColumnIdent.blur ∧ TsRel B .cockroachdb r.2 r'.2)
      (columnIdentsLoop n ts) (columnIdentsLoop n ts') := by
  induction n generalizing ts ts' with
  | zero => exact .fuel
  | succ n ih =>
    have ih' := @ih
    unfold columnIdentsLoop
    rel
    simp only [List.map_cons]
    refine cons_congr' ?_ (by assumption)
    simp only [ColumnIdent.blur]
    congr 1
    rel_val

theorem parseColumnIdents_rel (h : TsRel B .cockroachdb ts ts') :
    SameOutcome (fun r r' => r'.1.map ColumnIdent.blur = r.1.map ColumnIdent.blur ∧ TsRel B .cockroachdb r.2 r'.2)
      (parseColumnIdents ts) (parseColumnIdents ts') := by
  unfold parseColumnIdents
  rw [h.length]
  exact columnIdentsLoop_rel h
macro_rules | `(tactic| rel_call) => `(tactic| exact parseColumnIdents_rel (by trel))

theorem identsLoop_rel {n : Nat} (h : TsRel B .cockroachdb ts ts') :
    SameOutcome (fun r r' => r'.1.map (Ident.blur B) = r.1.map (Ident.blur B) ∧ TsRel B .cockroachdb r.2 r'.2) (identsLoop n ts)
      (identsLoop n ts') := by
  induction n generalizing ts ts' with
  | zero => exact .fuel
  | succ n ih =>
    have ih' := @ih
    unfold identsLoop
    rel

theorem parseIdents_rel (h : TsRel B .cockroachdb ts ts') :
    SameOutcome (fun r r' => r'.1.map (Ident.blur B) = r.1.map (Ident.blur B) ∧ TsRel B .cockroachdb r.2 r'.2) (parseIdents ts)
      (parseIdents ts') := by
  unfold parseIdents
  rw [h.length]
  exact identsLoop_rel h
macro_rules | `(tactic| rel_call) => `(tactic| exact parseIdents_rel (by trel))

theorem parseTypeName_rel (h : TsRel B .cockroachdb ts ts') :
    SameOutcome (fun r r' => True ∧ r'.2.1 = r.2.1 ∧ TsRel B .cockroachdb r.2.2 r'.2.2) (parseTypeName ts) (parseTypeName ts') := by
  unfold parseTypeName
  rel
macro_rules | `(tactic| rel_call3) => `(tactic| exact parseTypeName_rel (by trel))

theorem parseDataType_rel (h : TsRel B .cockroachdb ts ts') :
    SameOutcome (fun r r' => r'.1.blur B = r.1.blur B ∧ TsRel B .cockroachdb r.2 r'.2) (parseDataType ts) (parseDataType ts') := by
  unfold parseDataType
  rel
  all_goals simp_all [DataType.blur]
macro_rules | `(tactic| rel_call) => `(tactic| exact parseDataType_rel (by trel))

theorem exprLoop_rel {n : Nat} (h : TsRel B .cockroachdb ts ts') :
    SameOutcome (fun r r' => r'.1.map (Ident.blur B) = r.1.map (Ident.blur B) ∧ TsRel B .cockroachdb r.2 r'.2) (exprLoop n ts)
      (exprLoop n ts') := by
  induction n generalizing ts ts' with
  | zero => exact .fuel
  | succ n ih =>
    have ih' := @ih
    unfold exprLoop
    rel
    · refine cons_congr' ?_ (by assumption)
      rw [h.symbol (by assumption), show peekL ts' = peekL ts from h.tail.symbol (by assumption)]
    · refine cons_congr' ?_ (by assumption)
      rw [h.curT]
      split <;> rel_val
macro_rules | `(tactic| rel_call) => `(tactic| exact exprLoop_rel (by trel))

theorem parseExpr_rel (h : TsRel B .cockroachdb ts ts') :
    SameOutcome (fun r r' => r'.1.map (Ident.blur B) = r.1.map (Ident.blur B) ∧ TsRel B .cockroachdb r.2 r'.2) (parseExpr ts)
      (parseExpr ts') := by
  unfold parseExpr
  rel
  rw [h.tail.length]
  rel
macro_rules | `(tactic| rel_call) => `(tactic| exact parseExpr_rel (by trel))

theorem map_appendExpr {v v' : Option Expr} {ids ids' : List Ident}
    (hv : v'.map (·.map (Ident.blur B)) = v.map (·.map (Ident.blur B))) (hi : ids'.map (Ident.blur B) = ids.map (Ident.blur B)) :
    (appendExpr v' ids').map (·.map (Ident.blur B)) = (appendExpr v ids).map (·.map (Ident.blur B)) := by
  cases v <;> cases v' <;> simp_all [appendExpr]

theorem defaultLoop_rel {n : Nat} {v v' : Option Expr} (h : TsRel B .cockroachdb ts ts')
    (hv : v'.map (·.map (Ident.blur B)) = v.map (·.map (Ident.blur B))) :
    SameOutcome (fun r r' => r'.1.blur B = r.1.blur B ∧ TsRel B .cockroachdb r.2 r'.2) (defaultLoop n v ts)
      (defaultLoop n v' ts') := by
  induction n generalizing ts ts' v v' with
  | zero => exact .fuel
  | succ n ih =>
    unfold defaultLoop
    rel
    · exact ih (by trel) (map_appendExpr hv (by rel_val))
    · exact ih (by trel) (map_appendExpr hv (by assumption))
    · simp [Default.blur, hv]
    · refine ih (by trel) (map_appendExpr hv ?_)
      simp [Ident.blur, newIdent, h.curT]
    · exact ih (by trel) (map_appendExpr hv (by rel_val))
    · cases v <;> cases v' <;> simp at hv
      · exact .panic
      · rel
        refine ih (by trel) ?_
        simp only [Option.map_some, List.map_append, hv]
        congr 2
        rel_val
    · simp [Default.blur, hv]

theorem parseColumnDefault_rel (h : TsRel B .cockroachdb ts ts') :
    SameOutcome (fun r r' => r'.1.blur B = r.1.blur B ∧ TsRel B .cockroachdb r.2 r'.2) (parseColumnDefault ts)
      (parseColumnDefault ts') := by
  unfold parseColumnDefault
  rw [h.length]
  exact defaultLoop_rel h rfl
macro_rules | `(tactic| rel_call) => `(tactic| exact parseColumnDefault_rel (by trel))

theorem asLoop_rel {n : Nat} {v v' : Option Expr} {t : Option TokType} (h : TsRel B .cockroachdb ts ts')
    (hv : v'.map (·.map (Ident.blur B)) = v.map (·.map (Ident.blur B))) :
    SameOutcome (fun r r' => r'.1.blur B = r.1.blur B ∧ TsRel B .cockroachdb r.2 r'.2) (asLoop n v t ts)
      (asLoop n v' t ts') := by
  induction n generalizing ts ts' v v' t with
  | zero => exact .fuel
  | succ n ih =>
    unfold asLoop
    rel
    · exact ih (by trel) (map_appendExpr hv (by rel_val))
    · exact ih (by trel) (map_appendExpr hv (by assumption))
    · rw [h.curT]
      exact ih (by trel) hv
    · simp [As.blur, hv]
    · refine ih (by trel) (map_appendExpr hv ?_)
      simp [Ident.blur, newIdent, h.curT]
    · exact ih (by trel) (map_appendExpr hv (by rel_val))
    · cases v <;> cases v' <;> simp at hv
      · exact .panic
      · rel
        refine ih (by trel) ?_
        simp only [Option.map_some, List.map_append, hv]
        congr 2
        rel_val
    · simp [As.blur, hv]

theorem parseColumnAs_rel (h : TsRel B .cockroachdb ts ts') :
    SameOutcome (fun r r' => r'.1.blur B = r.1.blur B ∧ TsRel B .cockroachdb r.2 r'.2) (parseColumnAs ts)
      (parseColumnAs ts') := by
  unfold parseColumnAs
  rw [h.length]
  exact asLoop_rel h rfl
macro_rules | `(tactic| rel_call) => `(tactic| exact parseColumnAs_rel (by trel))

theorem usingLoop_rel {n : Nat} {v v' w w' : Option Expr} (h : TsRel B .cockroachdb ts ts')
    (hv : v'.map (·.map (Ident.blur B)) = v.map (·.map (Ident.blur B)))
    (hw : w'.map (·.map (Ident.blur B)) = w.map (·.map (Ident.blur B))) :
    SameOutcome (fun r r' => r'.1.blur B = r.1.blur B ∧ TsRel B .cockroachdb r.2 r'.2) (usingLoop n v w ts)
      (usingLoop n v' w' ts') := by
  induction n generalizing ts ts' v v' w w' with
  | zero => exact .fuel
  | succ n ih =>
    unfold usingLoop
    rel
    · exact ih (by trel) hv hw
    · exact ih (by trel) (map_appendExpr hv (by rel_val)) hw
    · exact ih (by trel) hv (by simp_all)
    · simp [Using.blur, hv, hw]

theorem parseUsing_rel (h : TsRel B .cockroachdb ts ts') :
    SameOutcome (fun r r' => r'.1.blur B = r.1.blur B ∧ TsRel B .cockroachdb r.2 r'.2) (parseUsing ts)
      (parseUsing ts') := by
  unfold parseUsing
  rw [h.length]
  exact usingLoop_rel h rfl rfl
macro_rules | `(tactic| rel_call) => `(tactic| exact parseUsing_rel (by trel))

theorem parseUsingOpt_rel (h : TsRel B .cockroachdb ts ts') :
    SameOutcome (fun r r' => r'.1.map (Using.blur B) = r.1.map (Using.blur B) ∧ TsRel B .cockroachdb r.2 r'.2) (parseUsingOpt ts)
      (parseUsingOpt ts') := by
  unfold parseUsingOpt
  rel
  simp_all
macro_rules | `(tactic| rel_call) => `(tactic| exact parseUsingOpt_rel (by trel))

theorem parseOnActionColumn_rel (h : TsRel B .cockroachdb ts ts') :
    SameOutcome (fun r r' => r'.1.map B.chr = r.1.map B.chr ∧ TsRel B .cockroachdb r.2 r'.2) (parseOnActionColumn ts)
      (parseOnActionColumn ts') := by
  unfold parseOnActionColumn
  rel
macro_rules | `(tactic| rel_call) => `(tactic| exact parseOnActionColumn_rel (by trel))

theorem Constraint.blur_name (c : Constraint) : (c.blur B).name.name = c.name.name := by cases c <;> rfl

theorem Constraint.blur_isPrimaryKey (c : Constraint) : (c.blur B).isPrimaryKey = c.isPrimaryKey := by cases c <;> rfl

theorem map_replaceConstraint (cs : List Constraint) (c : Constraint) :
    (replaceConstraint cs c).map (·.map (Constraint.blur B)) = replaceConstraint (cs.map (Constraint.blur B)) (c.blur B) := by
  induction cs with
  | nil => rfl
  | cons x r ih =>
    simp only [replaceConstraint, List.map_cons, Constraint.blur_name]
    split
    · rfl
    · rw [← ih]; simp [Function.comp_def]

theorem map_sortPrimaryKey (cs : List Constraint) :
    (sortPrimaryKey cs).map (Constraint.blur B) = sortPrimaryKey (cs.map (Constraint.blur B)) := by
  unfold sortPrimaryKey
  suffices h : ∀ acc : List Constraint,
      (cs.foldl (fun acc c => if c.isPrimaryKey then c :: acc else acc ++ [c]) acc).map (Constraint.blur B) =
      (cs.map (Constraint.blur B)).foldl (fun acc c => if c.isPrimaryKey then c :: acc else acc ++ [c])
        (acc.map (Constraint.blur B)) from h []
  induction cs with
  | nil => intro acc; rfl
  | cons x r ih =>
    intro acc
    simp only [List.foldl_cons, List.map_cons, ih, Constraint.blur_isPrimaryKey]
    split <;> simp

theorem map_appendConstraint (cs : List Constraint) (c : Constraint) :
    (appendConstraint cs c).map (Constraint.blur B) = appendConstraint (cs.map (Constraint.blur B)) (c.blur B) := by
  unfold appendConstraint
  rw [← map_replaceConstraint]
  cases replaceConstraint cs c with
  | none => simp [map_sortPrimaryKey]
  | some l => rfl

theorem append_rel {cs cs' : List Constraint} {c c' : Constraint}
    (h : cs'.map (Constraint.blur B) = cs.map (Constraint.blur B)) (hc : c'.blur B = c.blur B) :
    (appendConstraint cs' c').map (Constraint.blur B) = (appendConstraint cs c).map (Constraint.blur B) := by
  rw [map_appendConstraint, map_appendConstraint, h, hc]

theorem foldl_append_rel {l l' : List Constraint} (hl : l'.map (Constraint.blur B) = l.map (Constraint.blur B)) :
    ∀ {cs cs' : List Constraint}, cs'.map (Constraint.blur B) = cs.map (Constraint.blur B) →
    (l'.foldl appendConstraint cs').map (Constraint.blur B) = (l.foldl appendConstraint cs).map (Constraint.blur B) := by
  induction l generalizing l' with
  | nil => intro cs cs' h; cases l' <;> simp_all
  | cons x l ih =>
    intro cs cs' h
    cases l' with
    | nil => simp at hl
    | cons x' l' =>
      simp only [List.map_cons, List.cons.injEq] at hl
      exact ih hl.2 (append_rel h hl.1)

theorem columnConstraintsLoop_rel {tbl tbl' col col' : Ident} (ht : tbl'.bare = tbl.bare) (hcol : col'.bare = col.bare) {n : Nat}
    {cs cs' : List Constraint} (h : TsRel B .cockroachdb ts ts')
    (hc : cs'.map (Constraint.blur B) = cs.map (Constraint.blur B)) :
    SameOutcome (fun r r' => r'.1.map (Constraint.blur B) = r.1.map (Constraint.blur B) ∧ TsRel B .cockroachdb r.2 r'.2)
      (columnConstraintsLoop tbl col n cs ts) (columnConstraintsLoop tbl' col' n cs' ts') := by
  have ht' : tbl'.name = tbl.name := Ident.name_of_bare ht
  have hcol' : col'.name = col.name := Ident.name_of_bare hcol
  induction n generalizing ts ts' cs cs' with
  | zero => exact .fuel
  | succ n ih =>
    unfold columnConstraintsLoop
    rel
    · refine ih (by trel) (append_rel hc ?_)
      simp [Constraint.blur, ColumnIdent.blur, Ident.diffStr, ht', hcol]
    · refine ih (by trel) (append_rel hc ?_)
      simp only [Constraint.blur, Ident.diffStr, ht', hcol', List.map_cons, ColumnIdent.blur, hcol, List.map_nil]
      congr 1
      rel_val
    · refine ih (by trel) (append_rel hc ?_)
      simp [Constraint.blur, ColumnIdent.blur, Ident.diffStr, ht', hcol, hcol']
    · refine ih (by trel) (append_rel hc ?_)
      simp only [Constraint.blur, Ident.diffStr, ht', hcol']
      congr 1

theorem parseColumnConstraints_rel {tbl tbl' col col' : Ident} (ht : tbl'.bare = tbl.bare) (hcol : col'.bare = col.bare)
    (h : TsRel B .cockroachdb ts ts') :
    SameOutcome (fun r r' => r'.1.map (Constraint.blur B) = r.1.map (Constraint.blur B) ∧ TsRel B .cockroachdb r.2 r'.2)
      (parseColumnConstraints tbl col ts) (parseColumnConstraints tbl' col' ts') := by
  unfold parseColumnConstraints
  rw [h.length]
  exact columnConstraintsLoop_rel ht hcol h rfl

/-- Attributes without what is blurred. -/
def Attrs.blur (B : Blur) (a : Attrs) : Attrs := ⟨a.default.map (Default.blur B), a.notNull, a.notVisible, a.as_.map (As.blur B)⟩

theorem columnAttrsLoop_rel {n : Nat} {a a' : Attrs} (h : TsRel B .cockroachdb ts ts') (ha : a'.blur B = a.blur B) :
    SameOutcome (fun r r' => r'.1.blur B = r.1.blur B ∧ TsRel B .cockroachdb r.2 r'.2)
      (columnAttrsLoop n a ts) (columnAttrsLoop n a' ts') := by
  induction n generalizing ts ts' a a' with
  | zero => exact .fuel
  | succ n ih =>
    unfold columnAttrsLoop
    rel
    all_goals exact ih (by trel) (by simp_all [Attrs.blur])

theorem parseColumn_rel {tbl tbl' : Ident} (ht : tbl'.bare = tbl.bare) (h : TsRel B .cockroachdb ts ts') :
    SameOutcome (fun r r' => r'.1.blur B = r.1.blur B ∧ r'.2.1.map (Constraint.blur B) = r.2.1.map (Constraint.blur B) ∧
      TsRel B .cockroachdb r.2.2 r'.2.2) (parseColumn tbl ts) (parseColumn tbl' ts') := by
  unfold parseColumn
  rel
  rename_i hts
  rw [hts.tail.length]
  refine SameOutcome.bind (columnAttrsLoop_rel (by trel) rfl) ?_
  rintro ⟨_, _⟩ ⟨_, _⟩ ⟨ha, _⟩
  refine SameOutcome.bind (parseColumnConstraints_rel ht (by rel_val) (by trel)) ?_
  rintro ⟨_, _⟩ ⟨_, _⟩ ⟨_, _⟩
  refine SameOutcome.ok ⟨?_, foldl_append_rel (by assumption) rfl, by trel⟩
  simp only [Attrs.blur, Attrs.mk.injEq] at ha
  obtain ⟨h1, h2, h3, h4⟩ := ha
  simp only [Column.blur]
  congr 1
  rel_val

theorem parseOnActionTable_rel (h : TsRel B .cockroachdb ts ts') :
    SameOutcome (fun r r' => r'.1.map B.chr = r.1.map B.chr ∧ TsRel B .cockroachdb r.2 r'.2) (parseOnActionTable ts)
      (parseOnActionTable ts') := by
  unfold parseOnActionTable
  rel
macro_rules | `(tactic| rel_call) => `(tactic| exact parseOnActionTable_rel (by trel))

theorem underscored_rel {l l' : List ColumnIdent} (h : l'.map ColumnIdent.blur = l.map ColumnIdent.blur) :
    underscored l' = underscored l := by
  have : ∀ l : List ColumnIdent, underscored l = underscored (l.map ColumnIdent.blur) := by
    intro l
    unfold underscored
    rw [List.map_map]
    rfl
  rw [this l, this l', h]

theorem parseConstraintName_rel (h : TsRel B .cockroachdb ts ts') :
    SameOutcome (fun r r' => r'.1.map Ident.bare = r.1.map Ident.bare ∧ TsRel B .cockroachdb r.2 r'.2) (parseConstraintName ts)
      (parseConstraintName ts') := by
  unfold parseConstraintName
  rel
  simp only [Option.map_some]
  congr 1
  rel_val
macro_rules | `(tactic| rel_call) => `(tactic| exact parseConstraintName_rel (by trel))

theorem parseTableConstraint_rel {tbl tbl' : Ident} (ht : tbl'.bare = tbl.bare) (h : TsRel B .cockroachdb ts ts') :
    SameOutcome (fun r r' => r'.1.blur B = r.1.blur B ∧ TsRel B .cockroachdb r.2 r'.2) (parseTableConstraint tbl ts)
      (parseTableConstraint tbl' ts') := by
  have ht' : tbl'.name = tbl.name := Ident.name_of_bare ht
  unfold parseTableConstraint
  rel
  · simp only [Constraint.blur, Ident.diffStr, ht']
    congr 1
    exact Ident.bare_getD (by assumption) rfl
  · simp only [Constraint.blur, Ident.diffStr, ht']
    congr 1
    · refine Ident.bare_getD (by assumption) ?_
      exact congrArg (fun u => (rawIdent (tbl.name ++ u ++ s%"_fkey")).bare) (underscored_rel (by assumption))
    · rel_val
  all_goals
    simp only [Constraint.blur]
    congr 1
    rel_val

theorem tableLoop_rel {tbl tbl' : Ident} (ht : tbl'.bare = tbl.bare) {n : Nat} {cols cols' : List Column} {cs cs' : List Constraint}
    (h : TsRel B .cockroachdb ts ts') (hcols : cols'.map (Column.blur B) = cols.map (Column.blur B))
    (hcs : cs'.map (Constraint.blur B) = cs.map (Constraint.blur B)) :
    SameOutcome (fun r r' => r'.1.map (Column.blur B) = r.1.map (Column.blur B) ∧
      r'.2.1.map (Constraint.blur B) = r.2.1.map (Constraint.blur B) ∧ TsRel B .cockroachdb r.2.2 r'.2.2)
      (tableLoop tbl n cols cs ts) (tableLoop tbl' n cols' cs' ts') := by
  induction n generalizing ts ts' cols cols' cs cs' with
  | zero => exact .fuel
  | succ n ih =>
    unfold tableLoop
    rel
    · refine SameOutcome.bind (parseColumn_rel ht h) ?_
      rintro ⟨_, _, _⟩ ⟨_, _, _⟩ ⟨_, _, _⟩
      exact ih (by trel) (by simp_all) (foldl_append_rel (by assumption) hcs)
    · refine SameOutcome.bind (parseTableConstraint_rel ht h) ?_
      rintro ⟨_, _⟩ ⟨_, _⟩ ⟨_, _⟩
      exact ih (by trel) hcols (append_rel hcs (by assumption))
    · exact ih (by trel) hcols hcs

theorem parseCreateTable_rel (h : TsRel B .cockroachdb ts ts') :
    SameOutcome (fun r r' => r'.1.blur B = r.1.blur B ∧ TsRel B .cockroachdb r.2 r'.2) (parseCreateTable ts)
      (parseCreateTable ts') := by
  unfold parseCreateTable
  rel
  rename_i hts _ _
  have hn : (newObjectName .cockroachdb (curL _)).bare = (newObjectName .cockroachdb (curL _)).bare :=
    hts.tail.object (by rel_ident)
  rw [hts.tail.tail.tail.length]
  refine SameOutcome.bind (tableLoop_rel ?_ (by trel) rfl rfl) ?_
  · have e := congrArg ObjectName.name hn; exact e
  rintro ⟨_, _, _⟩ ⟨_, _, _⟩ ⟨_, _, _⟩
  exact .ok ⟨by simp only [CreateTable.blur]; simp_all, by trel⟩

theorem parseUnique_rel (h : TsRel B .cockroachdb ts ts') :
    SameOutcome (fun r r' => r'.1 = r.1 ∧ TsRel B .cockroachdb r.2 r'.2) (parseUnique ts)
      (parseUnique ts') := by
  unfold parseUnique
  rel
macro_rules | `(tactic| rel_call) => `(tactic| exact parseUnique_rel (by trel))

theorem parseCreateIndex_rel (h : TsRel B .cockroachdb ts ts') :
    SameOutcome (fun r r' => r'.1.blur B = r.1.blur B ∧ TsRel B .cockroachdb r.2 r'.2) (parseCreateIndex ts)
      (parseCreateIndex ts') := by
  unfold parseCreateIndex
  rel
  simp only [CreateIndex.blur]
  congr 1 <;> rel_val

theorem parseCreate_rel (h : TsRel B .cockroachdb ts ts') :
    SameOutcome (fun r r' => StmtEq (CreateTable.blur B) (CreateIndex.blur B) r.1 r'.1 ∧ TsRel B .cockroachdb r.2 r'.2)
      (parseCreate ts) (parseCreate ts') := by
  unfold parseCreate
  rel
  · refine SameOutcome.bind (parseCreateTable_rel (by trel)) ?_
    rintro ⟨_, _⟩ ⟨_, _⟩ ⟨h, _⟩
    exact .ok ⟨.table h.symm, by trel⟩
  · refine SameOutcome.bind (parseCreateIndex_rel (by trel)) ?_
    rintro ⟨_, _⟩ ⟨_, _⟩ ⟨h, _⟩
    exact .ok ⟨.index h.symm, by trel⟩

/-- Texts with related tokens have the same outcome, up to what is blurred. -/
theorem parse_rel {s s' : Str} (h : TsRel B .cockroachdb (lex .cockroachdb s) (lex .cockroachdb s')) :
    SameOutcome (Pointwise (StmtEq (CreateTable.blur B) (CreateIndex.blur B))) (parse s) (parse s') :=
  parseTokens_rel parseCreate_rel h

end

end Ddl.Crdb
