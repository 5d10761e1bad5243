import Verif.Lemmas.Ahead
import Verif.Sp.Parser

/-! # Spanner parser: a semicolon and more tokens in place of the end -/

namespace Ddl.Sp
set_option autoImplicit false

set_option hygiene false in
macro_rules
  | `(tactic| dead) => `(tactic| first
    | (refine Dead.bind_all (r := appendConstraint _ _) (fun _ => ?_); dead)
    | (refine Dead.bind_all (r := appendAll _ _) (fun _ => ?_); dead))
set_option hygiene false in
macro_rules
  | `(tactic| ahead_step) => `(tactic| first
    | (refine Leads.bind_same (r := appendConstraint _ _) (fun _ => ?_))
    | (refine Leads.bind_same (r := appendAll _ _) (fun _ => ?_)))

section
variable {us : List Token} (hu : Semi us)
include hu


theorem parseOrder_ahead {ts : List Token} (hne : ts ≠ []) : Leads (grow us) (parseOrder ts) (parseOrder (ts ++ us)) := by
  unfold parseOrder
  ahead
set_option hygiene false in
macro_rules | `(tactic| ahead_call) => `(tactic| (refine parseOrder_ahead hu ?_; ahead_ne))

omit hu in
theorem columnIdentsLoop_dead {n : Nat} : Dead (columnIdentsLoop n []) := by
  cases n <;> unfold columnIdentsLoop <;> dead
macro_rules | `(tactic| dead_call) => `(tactic| exact columnIdentsLoop_dead)

theorem columnIdentsLoop_ahead {n n' : Nat} {ts : List Token} (h : n ≤ n') :
    Leads (grow us) (columnIdentsLoop n ts) (columnIdentsLoop n' (ts ++ us)) := by
  induction n generalizing n' ts with
  | zero => exact .dead .fuel
  | succ n ih =>
    obtain ⟨n', rfl⟩ : ∃ m, n' = m + 1 := ⟨n' - 1, by omega⟩
    have ih' := @ih
    unfold columnIdentsLoop
    ahead
set_option hygiene false in
macro_rules | `(tactic| ahead_call) => `(tactic| (refine columnIdentsLoop_ahead hu ?_; simp; done))

omit hu in
theorem parseColumnIdents_dead : Dead (parseColumnIdents []) := columnIdentsLoop_dead
macro_rules | `(tactic| dead_call) => `(tactic| exact parseColumnIdents_dead)

theorem parseColumnIdents_ahead {ts : List Token} : Leads (grow us) (parseColumnIdents ts) (parseColumnIdents (ts ++ us)) :=
  columnIdentsLoop_ahead hu (by simp)
set_option hygiene false in
macro_rules | `(tactic| ahead_call) => `(tactic| exact parseColumnIdents_ahead hu)

omit hu in
theorem identsLoop_dead {n : Nat} : Dead (identsLoop n []) := by
  cases n <;> unfold identsLoop <;> dead
macro_rules | `(tactic| dead_call) => `(tactic| exact identsLoop_dead)

theorem identsLoop_ahead {n n' : Nat} {ts : List Token} (h : n ≤ n') :
    Leads (grow us) (identsLoop n ts) (identsLoop n' (ts ++ us)) := by
  induction n generalizing n' ts with
  | zero => exact .dead .fuel
  | succ n ih =>
    obtain ⟨n', rfl⟩ : ∃ m, n' = m + 1 := ⟨n' - 1, by omega⟩
    have ih' := @ih
    unfold identsLoop
    ahead
set_option hygiene false in
macro_rules | `(tactic| ahead_call) => `(tactic| (refine identsLoop_ahead hu ?_; simp; done))

omit hu in
theorem parseIdents_dead : Dead (parseIdents []) := identsLoop_dead
macro_rules | `(tactic| dead_call) => `(tactic| exact parseIdents_dead)

theorem parseIdents_ahead {ts : List Token} : Leads (grow us) (parseIdents ts) (parseIdents (ts ++ us)) :=
  identsLoop_ahead hu (by simp)
set_option hygiene false in
macro_rules | `(tactic| ahead_call) => `(tactic| exact parseIdents_ahead hu)

theorem parseDataType_ahead {ts : List Token} (hne : ts ≠ []) : Leads (grow us) (parseDataType ts) (parseDataType (ts ++ us)) := by
  unfold parseDataType
  ahead
set_option hygiene false in
macro_rules | `(tactic| ahead_call) => `(tactic| (refine parseDataType_ahead hu ?_; ahead_ne))

omit hu in
theorem exprLoop_dead {n : Nat} : Dead (exprLoop n []) := by
  cases n <;> unfold exprLoop <;> dead
macro_rules | `(tactic| dead_call) => `(tactic| exact exprLoop_dead)

theorem exprLoop_ahead {n n' : Nat} {ts : List Token} (h : n ≤ n') :
    Leads (grow us) (exprLoop n ts) (exprLoop n' (ts ++ us)) := by
  induction n generalizing n' ts with
  | zero => exact .dead .fuel
  | succ n ih =>
    obtain ⟨n', rfl⟩ : ∃ m, n' = m + 1 := ⟨n' - 1, by omega⟩
    have ih' := @ih
    unfold exprLoop
    ahead
set_option hygiene false in
macro_rules | `(tactic| ahead_call) => `(tactic| (refine exprLoop_ahead hu ?_; simp; done))

omit hu in
theorem parseExpr_dead : Dead (parseExpr []) := by unfold parseExpr; dead
macro_rules | `(tactic| dead_call) => `(tactic| exact parseExpr_dead)

theorem parseExpr_ahead {ts : List Token} : Leads (grow us) (parseExpr ts) (parseExpr (ts ++ us)) := by
  unfold parseExpr
  ahead
set_option hygiene false in
macro_rules | `(tactic| ahead_call) => `(tactic| exact parseExpr_ahead hu)

omit hu in
theorem defaultLoop_dead {n : Nat} {v : Option Expr} : Dead (defaultLoop n v []) := by
  cases n <;> unfold defaultLoop <;> dead
macro_rules | `(tactic| dead_call) => `(tactic| exact defaultLoop_dead)

theorem defaultLoop_ahead {n n' : Nat} {v : Option Expr} {ts : List Token} (h : n ≤ n') :
    Leads (grow us) (defaultLoop n v ts) (defaultLoop n' v (ts ++ us)) := by
  induction n generalizing n' ts v with
  | zero => exact .dead .fuel
  | succ n ih =>
    obtain ⟨n', rfl⟩ : ∃ m, n' = m + 1 := ⟨n' - 1, by omega⟩
    have ih' := @ih
    unfold defaultLoop
    ahead
set_option hygiene false in
macro_rules | `(tactic| ahead_call) => `(tactic| (refine defaultLoop_ahead hu ?_; simp; done))

omit hu in
theorem parseColumnDefault_dead : Dead (parseColumnDefault []) := defaultLoop_dead
macro_rules | `(tactic| dead_call) => `(tactic| exact parseColumnDefault_dead)

theorem parseColumnDefault_ahead {ts : List Token} : Leads (grow us) (parseColumnDefault ts) (parseColumnDefault (ts ++ us)) :=
  defaultLoop_ahead hu (by simp)
set_option hygiene false in
macro_rules | `(tactic| ahead_call) => `(tactic| exact parseColumnDefault_ahead hu)

omit hu in
theorem columnConstraintsLoop_dead {n : Nat} {tbl col : Ident} {cs : List Constraint} : Dead (columnConstraintsLoop tbl col n cs []) := by
  cases n <;> unfold columnConstraintsLoop <;> dead
macro_rules | `(tactic| dead_call) => `(tactic| exact columnConstraintsLoop_dead)

theorem columnConstraintsLoop_ahead {n n' : Nat} {tbl col : Ident} {cs : List Constraint} {ts : List Token} (h : n ≤ n') :
    Leads (grow us) (columnConstraintsLoop tbl col n cs ts) (columnConstraintsLoop tbl col n' cs (ts ++ us)) := by
  induction n generalizing n' ts cs with
  | zero => exact .dead .fuel
  | succ n ih =>
    obtain ⟨n', rfl⟩ : ∃ m, n' = m + 1 := ⟨n' - 1, by omega⟩
    have ih' := @ih
    unfold columnConstraintsLoop
    ahead
set_option hygiene false in
macro_rules | `(tactic| ahead_call) => `(tactic| (refine columnConstraintsLoop_ahead hu ?_; simp; done))

omit hu in
theorem parseColumnConstraints_dead {tbl col : Ident} : Dead (parseColumnConstraints tbl col []) := columnConstraintsLoop_dead
macro_rules | `(tactic| dead_call) => `(tactic| exact parseColumnConstraints_dead)

theorem parseColumnConstraints_ahead {tbl col : Ident} {ts : List Token} : Leads (grow us) (parseColumnConstraints tbl col ts) (parseColumnConstraints tbl col (ts ++ us)) :=
  columnConstraintsLoop_ahead hu (by simp)
set_option hygiene false in
macro_rules | `(tactic| ahead_call) => `(tactic| exact parseColumnConstraints_ahead hu)

theorem columnAttrsLoop_ahead {n n' : Nat} {d : Option Default} {nn : Bool} {ts : List Token} (h : n ≤ n') :
    Leads (grow3 us) (columnAttrsLoop n d nn ts) (columnAttrsLoop n' d nn (ts ++ us)) := by
  induction n generalizing n' ts d nn with
  | zero => exact .dead .fuel
  | succ n ih =>
    obtain ⟨n', rfl⟩ : ∃ m, n' = m + 1 := ⟨n' - 1, by omega⟩
    have ih' := @ih
    unfold columnAttrsLoop
    ahead
set_option hygiene false in
macro_rules | `(tactic| ahead_call) => `(tactic| (refine columnAttrsLoop_ahead hu ?_; simp; done))

omit hu in
theorem columnAttrsLoop_nil {n : Nat} {d : Option Default} {nn : Bool} : columnAttrsLoop (n + 1) d nn [] = .ok (d, nn, []) := rfl
macro_rules | `(tactic| dead_pass) => `(tactic| exact columnAttrsLoop_nil)

theorem parseColumnOptions_ahead {ts : List Token} : Leads (grow us) (parseColumnOptions ts) (parseColumnOptions (ts ++ us)) := by
  unfold parseColumnOptions
  ahead
set_option hygiene false in
macro_rules | `(tactic| ahead_call) => `(tactic| exact parseColumnOptions_ahead hu)

omit hu in
theorem parseColumn_dead {tbl : Ident} : Dead (parseColumn tbl []) := by
  unfold parseColumn
  dead
macro_rules | `(tactic| dead_call) => `(tactic| exact parseColumn_dead)

theorem parseColumn_ahead {tbl : Ident} {ts : List Token} : Leads (grow3 us) (parseColumn tbl ts) (parseColumn tbl (ts ++ us)) := by
  unfold parseColumn
  ahead
set_option hygiene false in
macro_rules | `(tactic| ahead_call) => `(tactic| exact parseColumn_ahead hu)

theorem parseConstraintName_ahead {ts : List Token} : Leads (grow us) (parseConstraintName ts) (parseConstraintName (ts ++ us)) := by
  unfold parseConstraintName
  ahead
set_option hygiene false in
macro_rules | `(tactic| ahead_call) => `(tactic| exact parseConstraintName_ahead hu)

omit hu in
theorem parseTableConstraint_dead {tbl : Ident} : Dead (parseTableConstraint tbl []) := by
  unfold parseTableConstraint
  dead
macro_rules | `(tactic| dead_call) => `(tactic| exact parseTableConstraint_dead)

theorem parseTableConstraint_ahead {tbl : Ident} {ts : List Token} : Leads (grow us) (parseTableConstraint tbl ts) (parseTableConstraint tbl (ts ++ us)) := by
  unfold parseTableConstraint
  ahead
set_option hygiene false in
macro_rules | `(tactic| ahead_call) => `(tactic| exact parseTableConstraint_ahead hu)

omit hu in
theorem tableLoop_dead {n : Nat} {tbl : Ident} {cols : List Column} {cs : List Constraint} : Dead (tableLoop tbl n cols cs []) := by
  cases n <;> unfold tableLoop <;> dead
macro_rules | `(tactic| dead_call) => `(tactic| exact tableLoop_dead)

theorem tableLoop_ahead {n n' : Nat} {tbl : Ident} {cols : List Column} {cs : List Constraint} {ts : List Token} (h : n ≤ n') :
    Leads (grow3 us) (tableLoop tbl n cols cs ts) (tableLoop tbl n' cols cs (ts ++ us)) := by
  induction n generalizing n' ts cols cs with
  | zero => exact .dead .fuel
  | succ n ih =>
    obtain ⟨n', rfl⟩ : ∃ m, n' = m + 1 := ⟨n' - 1, by omega⟩
    have ih' := @ih
    unfold tableLoop
    ahead
set_option hygiene false in
macro_rules | `(tactic| ahead_call) => `(tactic| (refine tableLoop_ahead hu ?_; simp; done))

omit hu in
theorem expect_dead {t : TokType} (ht : t ≠ .EOF) : Dead (expect t []) := by
  unfold expect
  refine Dead.bind_ok next_nil ?_
  rw [checkCur, if_neg (by rw [List.mem_singleton]; exact fun h => ht h.symm)]
  exact Dead.bind .err
macro_rules | `(tactic| dead_call) => `(tactic| (refine expect_dead ?_; decide))

omit hu in
theorem expect_rest {t : TokType} {ts : List Token} (ht : t ≠ .EOF) : Post (fun r => r.2 ≠ []) (expect t ts) := by
  unfold expect
  refine Post.next_bind (Post.checkCur_bind (fun h => Post.ok ?_))
  exact ne_of_curT (List.mem_singleton.1 h) ht

theorem expect_ahead {t : TokType} {ts : List Token} (ht : t ≠ .EOF) : Leads (grow us) (expect t ts) (expect t (ts ++ us)) := by
  unfold expect
  by_cases h : ts = []
  · subst h
    exact .dead (expect_dead ht)
  · refine Leads.next_bind hu (.inl h) (fun _ => Leads.checkCur_bind ?_ (fun _ _ => ?_))
    · rw [List.mem_singleton]; exact fun h => ht h.symm
    · ahead
set_option hygiene false in
macro_rules
  | `(tactic| ahead_step) => `(tactic| (
      refine Leads.bind_post (g := grow us) (expect_ahead hu ?_) (expect_rest ?_) ?_; (focus decide); (focus decide); (rintro ⟨_, _⟩ _; dsimp only [grow] at *)))

theorem parseInterleaveAction_ahead {ts : List Token} (hne : ts ≠ []) : Leads (grow us) (parseInterleaveAction ts) (parseInterleaveAction (ts ++ us)) := by
  unfold parseInterleaveAction
  ahead
set_option hygiene false in
macro_rules | `(tactic| ahead_call) => `(tactic| (refine parseInterleaveAction_ahead hu ?_; ahead_ne))

omit hu in
theorem parseInterleaveAction_rest {ts : List Token} (hne : ts ≠ []) : Post (fun r => r.2 ≠ []) (parseInterleaveAction ts) := by
  unfold parseInterleaveAction
  repeat' (first
    | post_step
    | (refine Post.bind (expect_rest ?_) ?_; (focus decide); (rintro ⟨_, _⟩ _; dsimp only at *))
    | (refine Post.ok ?_; dsimp only; ahead_ne))

theorem parseInterleave_ahead {ts : List Token} : Leads (grow us) (parseInterleave ts) (parseInterleave (ts ++ us)) := by
  unfold parseInterleave
  ahead
set_option hygiene false in
macro_rules | `(tactic| ahead_call) => `(tactic| exact parseInterleave_ahead hu)

omit hu in
theorem parseInterleave_rest {ts : List Token} : Post (fun r => r.2 ≠ []) (parseInterleave ts) := by
  unfold parseInterleave
  repeat' (first
    | post_step
    | (refine Post.bind (expect_rest ?_) ?_; (focus decide); (rintro ⟨_, _⟩ _; dsimp only at *))
    | (refine Post.bind (parseInterleaveAction_rest ?_) ?_; (focus assumption); (rintro ⟨_, _⟩ _; dsimp only at *))
    | (refine Post.ok ?_; dsimp only; ahead_ne))

theorem parseRowDeletionPolicy_ahead {ts : List Token} : Leads (grow us) (parseRowDeletionPolicy ts) (parseRowDeletionPolicy (ts ++ us)) := by
  unfold parseRowDeletionPolicy
  ahead
set_option hygiene false in
macro_rules | `(tactic| ahead_call) => `(tactic| exact parseRowDeletionPolicy_ahead hu)

omit hu in
theorem parseRowDeletionPolicy_rest {ts : List Token} : Post (fun r => r.2 ≠ []) (parseRowDeletionPolicy ts) := by
  unfold parseRowDeletionPolicy
  repeat' (first
    | post_step
    | (refine Post.bind (expect_rest ?_) ?_; (focus decide); (rintro ⟨_, _⟩ _; dsimp only at *))
    | (refine Post.ok ?_; dsimp only; ahead_ne))
set_option hygiene false in
macro_rules
  | `(tactic| ahead_step) => `(tactic| first
    | (refine Leads.bind_post (parseInterleave_ahead hu) parseInterleave_rest ?_; (rintro ⟨_, _⟩ _; dsimp only [grow] at *))
    | (refine Leads.bind_post (parseRowDeletionPolicy_ahead hu) parseRowDeletionPolicy_rest ?_; (rintro ⟨_, _⟩ _; dsimp only [grow] at *)))

theorem optionsLoop_ahead {n n' : Nat} {os : List TableOption} {rdp : Option TableOption} {ts : List Token} (h : n ≤ n') :
    Leads (grow3 us) (optionsLoop n os rdp ts) (optionsLoop n' os rdp (ts ++ us)) := by
  induction n generalizing n' ts os rdp with
  | zero => exact .dead .fuel
  | succ n ih =>
    obtain ⟨n', rfl⟩ : ∃ m, n' = m + 1 := ⟨n' - 1, by omega⟩
    have ih' := @ih
    unfold optionsLoop
    ahead
set_option hygiene false in
macro_rules | `(tactic| ahead_call) => `(tactic| (refine optionsLoop_ahead hu ?_; simp; done))

theorem parseCreateTable_ahead {ts : List Token} (hne : ts ≠ []) : Leads (grow us) (parseCreateTable ts) (parseCreateTable (ts ++ us)) := by
  unfold parseCreateTable
  ahead
set_option hygiene false in
macro_rules | `(tactic| ahead_call) => `(tactic| (refine parseCreateTable_ahead hu ?_; ahead_ne))

theorem parseUnique_ahead {ts : List Token} : Leads (grow us) (parseUnique ts) (parseUnique (ts ++ us)) := by
  unfold parseUnique
  ahead
set_option hygiene false in
macro_rules | `(tactic| ahead_call) => `(tactic| exact parseUnique_ahead hu)

theorem parseUsing_weak {ts : List Token} : Weak us (parseUsing ts) (parseUsing (ts ++ us)) := by
  unfold parseUsing
  weak
set_option hygiene false in
macro_rules | `(tactic| ahead_weak) => `(tactic| exact parseUsing_weak hu)
omit hu in
theorem parseUsing_nil : parseUsing [] = .ok ([], []) := rfl
macro_rules | `(tactic| dead_pass) => `(tactic| exact parseUsing_nil)

theorem parseCreateIndex_ahead {ts : List Token} : Leads (grow us) (parseCreateIndex ts) (parseCreateIndex (ts ++ us)) := by
  unfold parseCreateIndex
  ahead
set_option hygiene false in
macro_rules | `(tactic| ahead_call) => `(tactic| exact parseCreateIndex_ahead hu)

theorem parseCreate_ahead {ts : List Token} : Leads (grow us) (parseCreate ts) (parseCreate (ts ++ us)) := by
  unfold parseCreate
  ahead
set_option hygiene false in
macro_rules | `(tactic| ahead_call) => `(tactic| exact parseCreate_ahead hu)

end

end Ddl.Sp
