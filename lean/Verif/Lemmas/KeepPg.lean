import Verif.Lemmas.Keep
import Verif.Pg.Parser

/-! # PostgreSQL parser: what holds of the tokens left -/

set_option autoImplicit false

namespace Ddl.Pg

section
variable {J : List Token → Prop} {ts : List Token}

theorem columnIdentsLoop_keep (hJ : KeptByNext J) {n : Nat} (h : J ts) : Post (fun r => J r.2) (columnIdentsLoop n ts) := by
  induction n generalizing ts with
  | zero => exact trivial
  | succ n ih =>
    unfold columnIdentsLoop
    keep
macro_rules | `(tactic| keep_call) => `(tactic| exact columnIdentsLoop_keep (by assumption) (by assumption))

theorem parseColumnIdents_keep (hJ : KeptByNext J) (h : J ts) : Post (fun r => J r.2) (parseColumnIdents ts) := by
  unfold parseColumnIdents
  keep
macro_rules | `(tactic| keep_call) => `(tactic| exact parseColumnIdents_keep (by assumption) (by assumption))

theorem identsLoop_keep (hJ : KeptByNext J) {n : Nat} (h : J ts) : Post (fun r => J r.2) (identsLoop n ts) := by
  induction n generalizing ts with
  | zero => exact trivial
  | succ n ih =>
    unfold identsLoop
    keep
macro_rules | `(tactic| keep_call) => `(tactic| exact identsLoop_keep (by assumption) (by assumption))

theorem parseIdents_keep (hJ : KeptByNext J) (h : J ts) : Post (fun r => J r.2) (parseIdents ts) := by
  unfold parseIdents
  keep
macro_rules | `(tactic| keep_call) => `(tactic| exact parseIdents_keep (by assumption) (by assumption))

theorem parseTypeName_keep (hJ : KeptByNext J) (h : J ts) : Post (fun r => J r.2.2) (parseTypeName ts) := by
  unfold parseTypeName
  keep
macro_rules | `(tactic| keep_call3) => `(tactic| exact parseTypeName_keep (by assumption) (by assumption))

theorem parseDataType_keep (hJ : KeptByNext J) (h : J ts) : Post (fun r => J r.2) (parseDataType ts) := by
  unfold parseDataType
  keep
macro_rules | `(tactic| keep_call) => `(tactic| exact parseDataType_keep (by assumption) (by assumption))

theorem exprLoop_keep (hJ : KeptByNext J) {n : Nat} (h : J ts) : Post (fun r => J r.2) (exprLoop n ts) := by
  induction n generalizing ts with
  | zero => exact trivial
  | succ n ih =>
    unfold exprLoop
    keep
macro_rules | `(tactic| keep_call) => `(tactic| exact exprLoop_keep (by assumption) (by assumption))

theorem parseExpr_keep (hJ : KeptByNext J) (h : J ts) : Post (fun r => J r.2) (parseExpr ts) := by
  unfold parseExpr
  keep
macro_rules | `(tactic| keep_call) => `(tactic| exact parseExpr_keep (by assumption) (by assumption))

theorem defaultLoop_keep (hJ : KeptByNext J) {n : Nat} {x1 : Option Expr} (h : J ts) : Post (fun r => J r.2) (defaultLoop n x1 ts) := by
  induction n generalizing x1 ts with
  | zero => exact trivial
  | succ n ih =>
    unfold defaultLoop
    keep
macro_rules | `(tactic| keep_call) => `(tactic| exact defaultLoop_keep (by assumption) (by assumption))

theorem parseColumnDefault_keep (hJ : KeptByNext J) (h : J ts) : Post (fun r => J r.2) (parseColumnDefault ts) := by
  unfold parseColumnDefault
  keep
macro_rules | `(tactic| keep_call) => `(tactic| exact parseColumnDefault_keep (by assumption) (by assumption))

theorem parseOnActionColumn_keep (hJ : KeptByNext J) (h : J ts) : Post (fun r => J r.2) (parseOnActionColumn ts) := by
  unfold parseOnActionColumn
  keep
macro_rules | `(tactic| keep_call) => `(tactic| exact parseOnActionColumn_keep (by assumption) (by assumption))

theorem columnConstraintsLoop_keep (hJ : KeptByNext J) {tbl col : Ident} {n : Nat} {x1 : List Constraint} (h : J ts) : Post (fun r => J r.2) (columnConstraintsLoop tbl col n x1 ts) := by
  induction n generalizing x1 ts with
  | zero => exact trivial
  | succ n ih =>
    unfold columnConstraintsLoop
    keep
macro_rules | `(tactic| keep_call) => `(tactic| exact columnConstraintsLoop_keep (by assumption) (by assumption))

theorem parseColumnConstraints_keep (hJ : KeptByNext J) {tbl col : Ident} (h : J ts) : Post (fun r => J r.2) (parseColumnConstraints tbl col ts) := by
  unfold parseColumnConstraints
  keep
macro_rules | `(tactic| keep_call) => `(tactic| exact parseColumnConstraints_keep (by assumption) (by assumption))

theorem columnAttrsLoop_keep (hJ : KeptByNext J) {n : Nat} {x1 : Option Default} {x2 : Bool} (h : J ts) : Post (fun r => J r.2.2) (columnAttrsLoop n x1 x2 ts) := by
  induction n generalizing x1 x2 ts with
  | zero => exact trivial
  | succ n ih3 =>
    unfold columnAttrsLoop
    keep
macro_rules | `(tactic| keep_call3) => `(tactic| exact columnAttrsLoop_keep (by assumption) (by assumption))

theorem parseColumn_keep (hJ : KeptByNext J) {tbl : Ident} (h : J ts) : Post (fun r => J r.2.2) (parseColumn tbl ts) := by
  unfold parseColumn
  keep
macro_rules | `(tactic| keep_call3) => `(tactic| exact parseColumn_keep (by assumption) (by assumption))

theorem parseOnActionTable_keep (hJ : KeptByNext J) (h : J ts) : Post (fun r => J r.2) (parseOnActionTable ts) := by
  unfold parseOnActionTable
  keep
macro_rules | `(tactic| keep_call) => `(tactic| exact parseOnActionTable_keep (by assumption) (by assumption))

theorem parseConstraintName_keep (hJ : KeptByNext J) (h : J ts) : Post (fun r => J r.2) (parseConstraintName ts) := by
  unfold parseConstraintName
  keep
macro_rules | `(tactic| keep_call) => `(tactic| exact parseConstraintName_keep (by assumption) (by assumption))

theorem parseTableConstraint_keep (hJ : KeptByNext J) {tbl : Ident} (h : J ts) : Post (fun r => J r.2) (parseTableConstraint tbl ts) := by
  unfold parseTableConstraint
  keep
macro_rules | `(tactic| keep_call) => `(tactic| exact parseTableConstraint_keep (by assumption) (by assumption))

theorem tableLoop_keep (hJ : KeptByNext J) {tbl : Ident} {n : Nat} {x1 : List Column} {x2 : List Constraint} (h : J ts) : Post (fun r => J r.2.2) (tableLoop tbl n x1 x2 ts) := by
  induction n generalizing x1 x2 ts with
  | zero => exact trivial
  | succ n ih3 =>
    unfold tableLoop
    keep
macro_rules | `(tactic| keep_call3) => `(tactic| exact tableLoop_keep (by assumption) (by assumption))

theorem parseCreateTable_keep (hJ : KeptByNext J) (h : J ts) : Post (fun r => J r.2) (parseCreateTable ts) := by
  unfold parseCreateTable
  keep
macro_rules | `(tactic| keep_call) => `(tactic| exact parseCreateTable_keep (by assumption) (by assumption))

theorem parseUsing_keep (hJ : KeptByNext J) (h : J ts) : Post (fun r => J r.2) (parseUsing ts) := by
  unfold parseUsing
  keep
macro_rules | `(tactic| keep_call) => `(tactic| exact parseUsing_keep (by assumption) (by assumption))

theorem parseUnique_keep (hJ : KeptByNext J) (h : J ts) : Post (fun r => J r.2) (parseUnique ts) := by
  unfold parseUnique
  keep
macro_rules | `(tactic| keep_call) => `(tactic| exact parseUnique_keep (by assumption) (by assumption))

theorem parseCreateIndex_keep (hJ : KeptByNext J) (h : J ts) : Post (fun r => J r.2) (parseCreateIndex ts) := by
  unfold parseCreateIndex
  keep
macro_rules | `(tactic| keep_call) => `(tactic| exact parseCreateIndex_keep (by assumption) (by assumption))

theorem parseCreate_keep (hJ : KeptByNext J) (h : J ts) : Post (fun r => J r.2) (parseCreate ts) := by
  unfold parseCreate
  keep
macro_rules | `(tactic| keep_call) => `(tactic| exact parseCreate_keep (by assumption) (by assumption))

/-- A parser that gets to a panic of the lexer does not return. -/
theorem parseTokens_open (h2 : ∃ t ∈ ts.getLast?, t.type = .PANIC) (h4 : ∀ t ∈ ts, t.type ≠ .EOF) : Post (fun _ => False) (parseTokens parseCreate ts) :=
  parseTokens_trapped (fun _ h => parseCreate_keep trapped_kept h) h2 h4

end
end Ddl.Pg
