import Verif.Lemmas.Ahead
import Verif.Crdb.Parser

/-! # CockroachDB parser: a semicolon and more tokens in place of the end -/

namespace Ddl.Crdb
set_option autoImplicit false

section
variable {us : List Token} (hu : Semi us)
include hu


theorem parseOrder_ahead {ts : List Token} (hne : ts ≠ []) : Leads (grow us) (parseOrder ts) (parseOrder (ts ++ us)) := by
  unfold parseOrder
  ahead
set_option hygiene false in
macro_rules | `(tactic| ahead_call) => `(tactic| (refine parseOrder_ahead hu ?_; ahead_ne))

omit hu in
theorem columnIdentsLoop_dead {n : Nat} : Dead (columnIdentsLoop n []) := by
  cases n <;> unfold columnIdentsLoop <;> dead
macro_rules | `(tactic| dead_call) => `(tactic| exact columnIdentsLoop_dead)

theorem columnIdentsLoop_ahead {n n' : Nat} {ts : List Token} (h : n ≤ n') :
    Leads (grow us) (columnIdentsLoop n ts) (columnIdentsLoop n' (ts ++ us)) := by
  induction n generalizing n' ts with
  | zero => exact .dead .fuel
  | succ n ih =>
    obtain ⟨n', rfl⟩ : ∃ m, n' = m + 1 := ⟨n' - 1, by omega⟩
    have ih' := @ih
    unfold columnIdentsLoop
    ahead
set_option hygiene false in
macro_rules | `(tactic| ahead_call) => `(tactic| (refine columnIdentsLoop_ahead hu ?_; simp; done))

omit hu in
theorem parseColumnIdents_dead : Dead (parseColumnIdents []) := columnIdentsLoop_dead
macro_rules | `(tactic| dead_call) => `(tactic| exact parseColumnIdents_dead)

theorem parseColumnIdents_ahead {ts : List Token} : Leads (grow us) (parseColumnIdents ts) (parseColumnIdents (ts ++ us)) :=
  columnIdentsLoop_ahead hu (by simp)
set_option hygiene false in
macro_rules | `(tactic| ahead_call) => `(tactic| exact parseColumnIdents_ahead hu)

omit hu in
theorem identsLoop_dead {n : Nat} : Dead (identsLoop n []) := by
  cases n <;> unfold identsLoop <;> dead
macro_rules | `(tactic| dead_call) => `(tactic| exact identsLoop_dead)

theorem identsLoop_ahead {n n' : Nat} {ts : List Token} (h : n ≤ n') :
    Leads (grow us) (identsLoop n ts) (identsLoop n' (ts ++ us)) := by
  induction n generalizing n' ts with
  | zero => exact .dead .fuel
  | succ n ih =>
    obtain ⟨n', rfl⟩ : ∃ m, n' = m + 1 := ⟨n' - 1, by omega⟩
    have ih' := @ih
    unfold identsLoop
    ahead
set_option hygiene false in
macro_rules | `(tactic| ahead_call) => `(tactic| (refine identsLoop_ahead hu ?_; simp; done))

omit hu in
theorem parseIdents_dead : Dead (parseIdents []) := identsLoop_dead
macro_rules | `(tactic| dead_call) => `(tactic| exact parseIdents_dead)

theorem parseIdents_ahead {ts : List Token} : Leads (grow us) (parseIdents ts) (parseIdents (ts ++ us)) :=
  identsLoop_ahead hu (by simp)
set_option hygiene false in
macro_rules | `(tactic| ahead_call) => `(tactic| exact parseIdents_ahead hu)

theorem parseTypeName_ahead {ts : List Token} (hne : ts ≠ []) : Leads (grow3 us) (parseTypeName ts) (parseTypeName (ts ++ us)) := by
  unfold parseTypeName
  ahead
set_option hygiene false in
macro_rules | `(tactic| ahead_call) => `(tactic| (refine parseTypeName_ahead hu ?_; ahead_ne))

theorem parseDataType_weak {ts : List Token} (hne : ts ≠ []) : Weak us (parseDataType ts) (parseDataType (ts ++ us)) := by
  unfold parseDataType
  refine Leads.bind_weak (parseTypeName_ahead hu hne) ?_ ?_
  · intro _ _ x e
    cases e
    rfl
  · intro _ _ _ _
    dsimp only
    ahead
set_option hygiene false in
macro_rules | `(tactic| ahead_weak) => `(tactic| (refine parseDataType_weak hu ?_; ahead_ne))

omit hu in
theorem exprLoop_dead {n : Nat} : Dead (exprLoop n []) := by
  cases n <;> unfold exprLoop <;> dead
macro_rules | `(tactic| dead_call) => `(tactic| exact exprLoop_dead)

theorem exprLoop_ahead {n n' : Nat} {ts : List Token} (h : n ≤ n') :
    Leads (grow us) (exprLoop n ts) (exprLoop n' (ts ++ us)) := by
  induction n generalizing n' ts with
  | zero => exact .dead .fuel
  | succ n ih =>
    obtain ⟨n', rfl⟩ : ∃ m, n' = m + 1 := ⟨n' - 1, by omega⟩
    have ih' := @ih
    unfold exprLoop
    ahead
set_option hygiene false in
macro_rules | `(tactic| ahead_call) => `(tactic| (refine exprLoop_ahead hu ?_; simp; done))

omit hu in
theorem parseExpr_dead : Dead (parseExpr []) := by unfold parseExpr; dead
macro_rules | `(tactic| dead_call) => `(tactic| exact parseExpr_dead)

theorem parseExpr_ahead {ts : List Token} : Leads (grow us) (parseExpr ts) (parseExpr (ts ++ us)) := by
  unfold parseExpr
  ahead
set_option hygiene false in
macro_rules | `(tactic| ahead_call) => `(tactic| exact parseExpr_ahead hu)

omit hu in
theorem defaultLoop_dead {n : Nat} {v : Option Expr} : Dead (defaultLoop n v []) := by
  cases n <;> unfold defaultLoop <;> dead
macro_rules | `(tactic| dead_call) => `(tactic| exact defaultLoop_dead)

theorem defaultLoop_ahead {n n' : Nat} {v : Option Expr} {ts : List Token} (h : n ≤ n') :
    Leads (grow us) (defaultLoop n v ts) (defaultLoop n' v (ts ++ us)) := by
  induction n generalizing n' ts v with
  | zero => exact .dead .fuel
  | succ n ih =>
    obtain ⟨n', rfl⟩ : ∃ m, n' = m + 1 := ⟨n' - 1, by omega⟩
    have ih' := @ih
    unfold defaultLoop
    ahead
    cases v <;> dsimp only <;> ahead
set_option hygiene false in
macro_rules | `(tactic| ahead_call) => `(tactic| (refine defaultLoop_ahead hu ?_; simp; done))

omit hu in
theorem parseColumnDefault_dead : Dead (parseColumnDefault []) := defaultLoop_dead
macro_rules | `(tactic| dead_call) => `(tactic| exact parseColumnDefault_dead)

theorem parseColumnDefault_ahead {ts : List Token} : Leads (grow us) (parseColumnDefault ts) (parseColumnDefault (ts ++ us)) :=
  defaultLoop_ahead hu (by simp)
set_option hygiene false in
macro_rules | `(tactic| ahead_call) => `(tactic| exact parseColumnDefault_ahead hu)

omit hu in
theorem asLoop_dead {n : Nat} {v : Option Expr} {t : Option TokType} : Dead (asLoop n v t []) := by
  cases n <;> unfold asLoop <;> dead
macro_rules | `(tactic| dead_call) => `(tactic| exact asLoop_dead)

theorem asLoop_ahead {n n' : Nat} {v : Option Expr} {t : Option TokType} {ts : List Token} (h : n ≤ n') :
    Leads (grow us) (asLoop n v t ts) (asLoop n' v t (ts ++ us)) := by
  induction n generalizing n' ts v t with
  | zero => exact .dead .fuel
  | succ n ih =>
    obtain ⟨n', rfl⟩ : ∃ m, n' = m + 1 := ⟨n' - 1, by omega⟩
    have ih' := @ih
    unfold asLoop
    ahead
    cases v <;> dsimp only <;> ahead
set_option hygiene false in
macro_rules | `(tactic| ahead_call) => `(tactic| (refine asLoop_ahead hu ?_; simp; done))

omit hu in
theorem parseColumnAs_dead : Dead (parseColumnAs []) := asLoop_dead
macro_rules | `(tactic| dead_call) => `(tactic| exact parseColumnAs_dead)

theorem parseColumnAs_ahead {ts : List Token} : Leads (grow us) (parseColumnAs ts) (parseColumnAs (ts ++ us)) :=
  asLoop_ahead hu (by simp)
set_option hygiene false in
macro_rules | `(tactic| ahead_call) => `(tactic| exact parseColumnAs_ahead hu)

omit hu in
theorem usingLoop_dead {n : Nat} {v w : Option Expr} : Dead (usingLoop n v w []) := by
  cases n <;> unfold usingLoop <;> dead
macro_rules | `(tactic| dead_call) => `(tactic| exact usingLoop_dead)

theorem usingLoop_ahead {n n' : Nat} {v w : Option Expr} {ts : List Token} (h : n ≤ n') :
    Leads (grow us) (usingLoop n v w ts) (usingLoop n' v w (ts ++ us)) := by
  induction n generalizing n' ts v w with
  | zero => exact .dead .fuel
  | succ n ih =>
    obtain ⟨n', rfl⟩ : ∃ m, n' = m + 1 := ⟨n' - 1, by omega⟩
    have ih' := @ih
    unfold usingLoop
    ahead
set_option hygiene false in
macro_rules | `(tactic| ahead_call) => `(tactic| (refine usingLoop_ahead hu ?_; simp; done))

omit hu in
theorem parseUsing_dead : Dead (parseUsing []) := usingLoop_dead
macro_rules | `(tactic| dead_call) => `(tactic| exact parseUsing_dead)

theorem parseUsing_ahead {ts : List Token} : Leads (grow us) (parseUsing ts) (parseUsing (ts ++ us)) :=
  usingLoop_ahead hu (by simp)
set_option hygiene false in
macro_rules | `(tactic| ahead_call) => `(tactic| exact parseUsing_ahead hu)

omit hu in
theorem usingLoop_rest {n : Nat} {v w : Option Expr} {ts : List Token} : Post (fun r => r.2 ≠ []) (usingLoop n v w ts) := by
  induction n generalizing v w ts with
  | zero => exact trivial
  | succ n ih =>
    unfold usingLoop
    repeat' (first | post_step | exact ih | (refine Post.bind (Q := fun _ => True) ?_ ?_; (focus (cases parseExpr ts.tail <;> exact trivial)); rintro ⟨_, _⟩ _))
    refine Post.ok ?_
    dsimp only
    ahead_ne

theorem parseUsingOpt_ahead {ts : List Token} : Leads (grow us) (parseUsingOpt ts) (parseUsingOpt (ts ++ us)) := by
  unfold parseUsingOpt
  ahead_step
  · refine Leads.bind_post (parseUsing_ahead hu) usingLoop_rest ?_
    rintro ⟨_, _⟩ _
    dsimp only [grow]
    ahead
  · ahead
set_option hygiene false in
macro_rules | `(tactic| ahead_call) => `(tactic| exact parseUsingOpt_ahead hu)
omit hu in
theorem parseUsingOpt_nil : parseUsingOpt [] = .ok (none, []) := rfl
macro_rules | `(tactic| dead_pass) => `(tactic| exact parseUsingOpt_nil)

theorem parseOnActionColumn_ahead {ts : List Token} : Leads (grow us) (parseOnActionColumn ts) (parseOnActionColumn (ts ++ us)) := by
  unfold parseOnActionColumn
  ahead
set_option hygiene false in
macro_rules | `(tactic| ahead_call) => `(tactic| exact parseOnActionColumn_ahead hu)

omit hu in
theorem columnConstraintsLoop_dead {n : Nat} {tbl col : Ident} {cs : List Constraint} : Dead (columnConstraintsLoop tbl col n cs []) := by
  cases n <;> unfold columnConstraintsLoop <;> dead
macro_rules | `(tactic| dead_call) => `(tactic| exact columnConstraintsLoop_dead)

theorem columnConstraintsLoop_ahead {n n' : Nat} {tbl col : Ident} {cs : List Constraint} {ts : List Token} (h : n ≤ n') :
    Leads (grow us) (columnConstraintsLoop tbl col n cs ts) (columnConstraintsLoop tbl col n' cs (ts ++ us)) := by
  induction n generalizing n' ts cs with
  | zero => exact .dead .fuel
  | succ n ih =>
    obtain ⟨n', rfl⟩ : ∃ m, n' = m + 1 := ⟨n' - 1, by omega⟩
    have ih' := @ih
    unfold columnConstraintsLoop
    ahead
set_option hygiene false in
macro_rules | `(tactic| ahead_call) => `(tactic| (refine columnConstraintsLoop_ahead hu ?_; simp; done))

omit hu in
theorem parseColumnConstraints_dead {tbl col : Ident} : Dead (parseColumnConstraints tbl col []) := columnConstraintsLoop_dead
macro_rules | `(tactic| dead_call) => `(tactic| exact parseColumnConstraints_dead)

theorem parseColumnConstraints_ahead {tbl col : Ident} {ts : List Token} : Leads (grow us) (parseColumnConstraints tbl col ts) (parseColumnConstraints tbl col (ts ++ us)) :=
  columnConstraintsLoop_ahead hu (by simp)
set_option hygiene false in
macro_rules | `(tactic| ahead_call) => `(tactic| exact parseColumnConstraints_ahead hu)

theorem columnAttrsLoop_ahead {n n' : Nat} {a : Attrs} {ts : List Token} (h : n ≤ n') :
    Leads (grow us) (columnAttrsLoop n a ts) (columnAttrsLoop n' a (ts ++ us)) := by
  induction n generalizing n' ts a with
  | zero => exact .dead .fuel
  | succ n ih =>
    obtain ⟨n', rfl⟩ : ∃ m, n' = m + 1 := ⟨n' - 1, by omega⟩
    have ih' := @ih
    unfold columnAttrsLoop
    ahead
set_option hygiene false in
macro_rules | `(tactic| ahead_call) => `(tactic| (refine columnAttrsLoop_ahead hu ?_; simp; done))

omit hu in
theorem columnAttrsLoop_nil {n : Nat} {a : Attrs} : columnAttrsLoop (n + 1) a [] = .ok (a, []) := rfl
macro_rules | `(tactic| dead_pass) => `(tactic| exact columnAttrsLoop_nil)

omit hu in
theorem parseColumn_dead {tbl : Ident} : Dead (parseColumn tbl []) := by
  unfold parseColumn
  dead
macro_rules | `(tactic| dead_call) => `(tactic| exact parseColumn_dead)

theorem parseColumn_ahead {tbl : Ident} {ts : List Token} : Leads (grow3 us) (parseColumn tbl ts) (parseColumn tbl (ts ++ us)) := by
  unfold parseColumn
  ahead
set_option hygiene false in
macro_rules | `(tactic| ahead_call) => `(tactic| exact parseColumn_ahead hu)

theorem parseOnActionTable_ahead {ts : List Token} : Leads (grow us) (parseOnActionTable ts) (parseOnActionTable (ts ++ us)) := by
  unfold parseOnActionTable
  ahead
set_option hygiene false in
macro_rules | `(tactic| ahead_call) => `(tactic| exact parseOnActionTable_ahead hu)

theorem parseConstraintName_ahead {ts : List Token} : Leads (grow us) (parseConstraintName ts) (parseConstraintName (ts ++ us)) := by
  unfold parseConstraintName
  ahead
set_option hygiene false in
macro_rules | `(tactic| ahead_call) => `(tactic| exact parseConstraintName_ahead hu)

omit hu in
theorem parseTableConstraint_dead {tbl : Ident} : Dead (parseTableConstraint tbl []) := by
  unfold parseTableConstraint
  dead
macro_rules | `(tactic| dead_call) => `(tactic| exact parseTableConstraint_dead)

theorem parseTableConstraint_ahead {tbl : Ident} {ts : List Token} : Leads (grow us) (parseTableConstraint tbl ts) (parseTableConstraint tbl (ts ++ us)) := by
  unfold parseTableConstraint
  ahead
set_option hygiene false in
macro_rules | `(tactic| ahead_call) => `(tactic| exact parseTableConstraint_ahead hu)

omit hu in
theorem tableLoop_dead {n : Nat} {tbl : Ident} {cols : List Column} {cs : List Constraint} : Dead (tableLoop tbl n cols cs []) := by
  cases n <;> unfold tableLoop <;> dead
macro_rules | `(tactic| dead_call) => `(tactic| exact tableLoop_dead)

theorem tableLoop_ahead {n n' : Nat} {tbl : Ident} {cols : List Column} {cs : List Constraint} {ts : List Token} (h : n ≤ n') :
    Leads (grow3 us) (tableLoop tbl n cols cs ts) (tableLoop tbl n' cols cs (ts ++ us)) := by
  induction n generalizing n' ts cols cs with
  | zero => exact .dead .fuel
  | succ n ih =>
    obtain ⟨n', rfl⟩ : ∃ m, n' = m + 1 := ⟨n' - 1, by omega⟩
    have ih' := @ih
    unfold tableLoop
    ahead
    by_cases h0 : ts = []
    · subst h0
      exact .dead (by dead)
    · ahead
set_option hygiene false in
macro_rules | `(tactic| ahead_call) => `(tactic| (refine tableLoop_ahead hu ?_; simp; done))

theorem parseCreateTable_ahead {ts : List Token} (hne : ts ≠ []) : Leads (grow us) (parseCreateTable ts) (parseCreateTable (ts ++ us)) := by
  unfold parseCreateTable
  ahead
set_option hygiene false in
macro_rules | `(tactic| ahead_call) => `(tactic| (refine parseCreateTable_ahead hu ?_; ahead_ne))

theorem parseUnique_ahead {ts : List Token} : Leads (grow us) (parseUnique ts) (parseUnique (ts ++ us)) := by
  unfold parseUnique
  ahead
set_option hygiene false in
macro_rules | `(tactic| ahead_call) => `(tactic| exact parseUnique_ahead hu)

theorem parseCreateIndex_ahead {ts : List Token} : Leads (grow us) (parseCreateIndex ts) (parseCreateIndex (ts ++ us)) := by
  unfold parseCreateIndex
  ahead
set_option hygiene false in
macro_rules | `(tactic| ahead_call) => `(tactic| exact parseCreateIndex_ahead hu)

theorem parseCreate_ahead {ts : List Token} : Leads (grow us) (parseCreate ts) (parseCreate (ts ++ us)) := by
  unfold parseCreate
  ahead
set_option hygiene false in
macro_rules | `(tactic| ahead_call) => `(tactic| exact parseCreate_ahead hu)

end

end Ddl.Crdb
