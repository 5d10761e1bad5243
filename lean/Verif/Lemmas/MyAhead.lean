import Verif.Lemmas.Ahead
import Verif.My.Parser

/-! # MySQL parser: a semicolon and more tokens in place of the end -/

namespace Ddl.My
set_option autoImplicit false

section
variable {us : List Token} (hu : Semi us)
include hu


theorem parseOrder_ahead {ts : List Token} (hne : ts ≠ []) : Leads (grow us) (parseOrder ts) (parseOrder (ts ++ us)) := by
  unfold parseOrder
  ahead
set_option hygiene false in
macro_rules | `(tactic| ahead_call) => `(tactic| (refine parseOrder_ahead hu ?_; ahead_ne))

omit hu in
theorem columnIdentsLoop_dead {n : Nat} : Dead (columnIdentsLoop n []) := by
  cases n <;> unfold columnIdentsLoop <;> dead
macro_rules | `(tactic| dead_call) => `(tactic| exact columnIdentsLoop_dead)

theorem columnIdentsLoop_ahead {n n' : Nat} {ts : List Token} (h : n ≤ n') :
    Leads (grow us) (columnIdentsLoop n ts) (columnIdentsLoop n' (ts ++ us)) := by
  induction n generalizing n' ts with
  | zero => exact .dead .fuel
  | succ n ih =>
    obtain ⟨n', rfl⟩ : ∃ m, n' = m + 1 := ⟨n' - 1, by omega⟩
    have ih' := @ih
    unfold columnIdentsLoop
    ahead
set_option hygiene false in
macro_rules | `(tactic| ahead_call) => `(tactic| (refine columnIdentsLoop_ahead hu ?_; simp; done))

omit hu in
theorem parseColumnIdents_dead : Dead (parseColumnIdents []) := columnIdentsLoop_dead
macro_rules | `(tactic| dead_call) => `(tactic| exact parseColumnIdents_dead)

theorem parseColumnIdents_ahead {ts : List Token} : Leads (grow us) (parseColumnIdents ts) (parseColumnIdents (ts ++ us)) :=
  columnIdentsLoop_ahead hu (by simp)
set_option hygiene false in
macro_rules | `(tactic| ahead_call) => `(tactic| exact parseColumnIdents_ahead hu)

omit hu in
theorem identsLoop_dead {n : Nat} : Dead (identsLoop n []) := by
  cases n <;> unfold identsLoop <;> dead
macro_rules | `(tactic| dead_call) => `(tactic| exact identsLoop_dead)

theorem identsLoop_ahead {n n' : Nat} {ts : List Token} (h : n ≤ n') :
    Leads (grow us) (identsLoop n ts) (identsLoop n' (ts ++ us)) := by
  induction n generalizing n' ts with
  | zero => exact .dead .fuel
  | succ n ih =>
    obtain ⟨n', rfl⟩ : ∃ m, n' = m + 1 := ⟨n' - 1, by omega⟩
    have ih' := @ih
    unfold identsLoop
    ahead
set_option hygiene false in
macro_rules | `(tactic| ahead_call) => `(tactic| (refine identsLoop_ahead hu ?_; simp; done))

omit hu in
theorem parseIdents_dead : Dead (parseIdents []) := identsLoop_dead
macro_rules | `(tactic| dead_call) => `(tactic| exact parseIdents_dead)

theorem parseIdents_ahead {ts : List Token} : Leads (grow us) (parseIdents ts) (parseIdents (ts ++ us)) :=
  identsLoop_ahead hu (by simp)
set_option hygiene false in
macro_rules | `(tactic| ahead_call) => `(tactic| exact parseIdents_ahead hu)

theorem parseTypeName_ahead {ts : List Token} (hne : ts ≠ []) : Leads (grow4 us) (parseTypeName ts) (parseTypeName (ts ++ us)) := by
  unfold parseTypeName
  ahead
set_option hygiene false in
macro_rules | `(tactic| ahead_call) => `(tactic| (refine parseTypeName_ahead hu ?_; ahead_ne))

theorem parseDataType_weak {ts : List Token} (hne : ts ≠ []) : Weak us (parseDataType ts) (parseDataType (ts ++ us)) := by
  unfold parseDataType
  refine Leads.bind_weak4 (parseTypeName_ahead hu hne) ?_ ?_
  · intro _ _ _ x e
    cases e
    rfl
  · intro _ _ _ _ _
    dsimp only
    ahead
set_option hygiene false in
macro_rules | `(tactic| ahead_weak) => `(tactic| (refine parseDataType_weak hu ?_; ahead_ne))

omit hu in
theorem exprLoop_dead {n : Nat} : Dead (exprLoop n []) := by
  cases n <;> unfold exprLoop <;> dead
macro_rules | `(tactic| dead_call) => `(tactic| exact exprLoop_dead)

theorem exprLoop_ahead {n n' : Nat} {ts : List Token} (h : n ≤ n') :
    Leads (grow us) (exprLoop n ts) (exprLoop n' (ts ++ us)) := by
  induction n generalizing n' ts with
  | zero => exact .dead .fuel
  | succ n ih =>
    obtain ⟨n', rfl⟩ : ∃ m, n' = m + 1 := ⟨n' - 1, by omega⟩
    have ih' := @ih
    unfold exprLoop
    ahead
set_option hygiene false in
macro_rules | `(tactic| ahead_call) => `(tactic| (refine exprLoop_ahead hu ?_; simp; done))

omit hu in
theorem parseExpr_dead : Dead (parseExpr []) := by unfold parseExpr; dead
macro_rules | `(tactic| dead_call) => `(tactic| exact parseExpr_dead)

theorem parseExpr_ahead {ts : List Token} : Leads (grow us) (parseExpr ts) (parseExpr (ts ++ us)) := by
  unfold parseExpr
  ahead
set_option hygiene false in
macro_rules | `(tactic| ahead_call) => `(tactic| exact parseExpr_ahead hu)

omit hu in
theorem defaultLoop_dead {n : Nat} {v : Option Expr} : Dead (defaultLoop n v []) := by
  cases n <;> unfold defaultLoop <;> dead
macro_rules | `(tactic| dead_call) => `(tactic| exact defaultLoop_dead)

theorem defaultLoop_ahead {n n' : Nat} {v : Option Expr} {ts : List Token} (h : n ≤ n') :
    Leads (grow us) (defaultLoop n v ts) (defaultLoop n' v (ts ++ us)) := by
  induction n generalizing n' ts v with
  | zero => exact .dead .fuel
  | succ n ih =>
    obtain ⟨n', rfl⟩ : ∃ m, n' = m + 1 := ⟨n' - 1, by omega⟩
    have ih' := @ih
    unfold defaultLoop
    ahead
set_option hygiene false in
macro_rules | `(tactic| ahead_call) => `(tactic| (refine defaultLoop_ahead hu ?_; simp; done))

omit hu in
theorem parseColumnDefault_dead : Dead (parseColumnDefault []) := defaultLoop_dead
macro_rules | `(tactic| dead_call) => `(tactic| exact parseColumnDefault_dead)

theorem parseColumnDefault_ahead {ts : List Token} : Leads (grow us) (parseColumnDefault ts) (parseColumnDefault (ts ++ us)) :=
  defaultLoop_ahead hu (by simp)
set_option hygiene false in
macro_rules | `(tactic| ahead_call) => `(tactic| exact parseColumnDefault_ahead hu)

theorem parseOnAction_ahead {ts : List Token} : Leads (grow us) (parseOnAction ts) (parseOnAction (ts ++ us)) := by
  unfold parseOnAction
  ahead
set_option hygiene false in
macro_rules | `(tactic| ahead_call) => `(tactic| exact parseOnAction_ahead hu)

theorem parseOnActionOpt_ahead {ts : List Token} : Leads (grow us) (parseOnActionOpt ts) (parseOnActionOpt (ts ++ us)) := by
  unfold parseOnActionOpt
  ahead
set_option hygiene false in
macro_rules | `(tactic| ahead_call) => `(tactic| exact parseOnActionOpt_ahead hu)

omit hu in
theorem columnConstraintsLoop_dead {n : Nat} {tbl col : Ident} {cs : List Constraint} : Dead (columnConstraintsLoop tbl col n cs []) := by
  cases n <;> unfold columnConstraintsLoop <;> dead
macro_rules | `(tactic| dead_call) => `(tactic| exact columnConstraintsLoop_dead)

theorem columnConstraintsLoop_ahead {n n' : Nat} {tbl col : Ident} {cs : List Constraint} {ts : List Token} (h : n ≤ n') :
    Leads (grow us) (columnConstraintsLoop tbl col n cs ts) (columnConstraintsLoop tbl col n' cs (ts ++ us)) := by
  induction n generalizing n' ts cs with
  | zero => exact .dead .fuel
  | succ n ih =>
    obtain ⟨n', rfl⟩ : ∃ m, n' = m + 1 := ⟨n' - 1, by omega⟩
    have ih' := @ih
    unfold columnConstraintsLoop
    ahead
set_option hygiene false in
macro_rules | `(tactic| ahead_call) => `(tactic| (refine columnConstraintsLoop_ahead hu ?_; simp; done))

omit hu in
theorem parseColumnConstraints_dead {tbl col : Ident} : Dead (parseColumnConstraints tbl col []) := columnConstraintsLoop_dead
macro_rules | `(tactic| dead_call) => `(tactic| exact parseColumnConstraints_dead)

theorem parseColumnConstraints_ahead {tbl col : Ident} {ts : List Token} : Leads (grow us) (parseColumnConstraints tbl col ts) (parseColumnConstraints tbl col (ts ++ us)) :=
  columnConstraintsLoop_ahead hu (by simp)
set_option hygiene false in
macro_rules | `(tactic| ahead_call) => `(tactic| exact parseColumnConstraints_ahead hu)

omit hu in
theorem columnAttrsLoop_nil {n : Nat} {a : Attrs} : columnAttrsLoop (n + 1) a [] = .ok (a, []) := rfl
macro_rules | `(tactic| dead_pass) => `(tactic| exact columnAttrsLoop_nil)

omit hu in
theorem columnAttrsLoop_end {n : Nat} {a : Attrs} : AtEnd (columnAttrsLoop n a []) := by
  intro b rest e
  cases n with
  | zero => cases e
  | succ n => cases e; rfl
macro_rules | `(tactic| at_end) => `(tactic| exact columnAttrsLoop_end)

theorem columnAttrsLoop_weak {n n' : Nat} {a : Attrs} {ts : List Token} (h : n ≤ n') :
    Weak us (columnAttrsLoop n a ts) (columnAttrsLoop n' a (ts ++ us)) := by
  induction n generalizing n' ts a with
  | zero => exact .dead .fuel
  | succ n ih =>
    obtain ⟨n', rfl⟩ : ∃ m, n' = m + 1 := ⟨n' - 1, by omega⟩
    have ih' := @ih
    unfold columnAttrsLoop
    weak
set_option hygiene false in
macro_rules | `(tactic| ahead_weak) => `(tactic| (refine columnAttrsLoop_weak hu ?_; simp; done))

theorem parseComment_weak {ts : List Token} : Weak us (parseComment ts) (parseComment (ts ++ us)) := by
  unfold parseComment
  weak
set_option hygiene false in
macro_rules | `(tactic| ahead_weak) => `(tactic| exact parseComment_weak hu)

omit hu in
theorem parseColumn_dead {tbl : Ident} : Dead (parseColumn tbl []) := by
  unfold parseColumn
  dead
macro_rules | `(tactic| dead_call) => `(tactic| exact parseColumn_dead)

theorem parseColumn_weak {tbl : Ident} {ts : List Token} : Weak3 us (parseColumn tbl ts) (parseColumn tbl (ts ++ us)) := by
  have hl : Leads (grow us) (do
      checkCur [.IDENT] ts
      let name := rawIdent (curL ts)
      let ts ← next ts
      if isDataType (curT ts) then
        let (dt, ts) ← parseDataType ts
        let ts ← next ts
        let (a, ts) ← columnAttrsLoop (ts.length + 1) ⟨none, none, none, false, false, []⟩ ts
        let (cs, ts) ← parseColumnConstraints tbl name ts
        .ok ((name, dt, a, cs), ts)
      else .err .unexpectedCurrentToken) (do
      checkCur [.IDENT] (ts ++ us)
      let name := rawIdent (curL (ts ++ us))
      let ts ← next (ts ++ us)
      if isDataType (curT ts) then
        let (dt, ts) ← parseDataType ts
        let ts ← next ts
        let (a, ts) ← columnAttrsLoop (ts.length + 1) ⟨none, none, none, false, false, []⟩ ts
        let (cs, ts) ← parseColumnConstraints tbl name ts
        .ok ((name, dt, a, cs), ts)
      else .err .unexpectedCurrentToken) := by
    ahead
  have e : ∀ ts, parseColumn tbl ts = (do
      let ((name, dt, a, cs), ts) ← (do
        checkCur [.IDENT] ts
        let name := rawIdent (curL ts)
        let ts ← next ts
        if isDataType (curT ts) then
          let (dt, ts) ← parseDataType ts
          let ts ← next ts
          let (a, ts) ← columnAttrsLoop (ts.length + 1) ⟨none, none, none, false, false, []⟩ ts
          let (cs, ts) ← parseColumnConstraints tbl name ts
          .ok ((name, dt, a, cs), ts)
        else .err .unexpectedCurrentToken)
      let (cm, ts) ← parseComment ts
      .ok (⟨name, dt, a.characterSet, a.collate, a.default, a.notNull, a.autoIncrement, a.onAction, cm⟩,
        cs.foldl appendConstraint [], ts)) := by
    intro ts
    unfold parseColumn
    simp only [Res.bind_assoc, Res.ok_bind]
    cases checkCur [.IDENT] ts <;> try rfl
    cases next ts with
    | ok ts1 =>
      dsimp only [bind, Res.bind]
      split
      · cases parseDataType ts1 with
        | ok x =>
          obtain ⟨_, r1⟩ := x
          dsimp only
          cases next r1 with
          | ok r2 =>
            dsimp only
            cases columnAttrsLoop (r2.length + 1) ⟨none, none, none, false, false, []⟩ r2 with
            | ok y =>
              obtain ⟨_, r3⟩ := y
              dsimp only
              cases parseColumnConstraints tbl (rawIdent (curL ts)) r3 <;> rfl
            | _ => rfl
          | _ => rfl
        | _ => rfl
      · rfl
    | _ => rfl
  rw [e, e]
  refine Weak3.bind_leads hl ?_
  rintro ⟨⟨_, _, _, _⟩, _⟩
  dsimp only [grow]
  refine Weak3.bind_weak (parseComment_weak hu) ?_ ?_
  · intro _ _ _ rest e
    cases e
    rfl
  · intro _ _
    exact .ok
set_option hygiene false in
macro_rules | `(tactic| ahead_weak) => `(tactic| exact parseColumn_weak hu)

theorem parseConstraintName_ahead {ts : List Token} : Leads (grow us) (parseConstraintName ts) (parseConstraintName (ts ++ us)) := by
  unfold parseConstraintName
  ahead
set_option hygiene false in
macro_rules | `(tactic| ahead_call) => `(tactic| exact parseConstraintName_ahead hu)

omit hu in
theorem parseTableConstraint_dead {tbl : Ident} : Dead (parseTableConstraint tbl []) := by
  unfold parseTableConstraint
  dead
macro_rules | `(tactic| dead_call) => `(tactic| exact parseTableConstraint_dead)

theorem parseTableConstraint_ahead {tbl : Ident} {ts : List Token} : Leads (grow us) (parseTableConstraint tbl ts) (parseTableConstraint tbl (ts ++ us)) := by
  unfold parseTableConstraint
  ahead
set_option hygiene false in
macro_rules | `(tactic| ahead_call) => `(tactic| exact parseTableConstraint_ahead hu)

omit hu in
theorem tableLoop_dead {n : Nat} {tbl : Ident} {cols : List Column} {cs : List Constraint} : Dead (tableLoop tbl n cols cs []) := by
  cases n <;> unfold tableLoop <;> dead
macro_rules | `(tactic| dead_call) => `(tactic| exact tableLoop_dead)

theorem tableLoop_ahead {n n' : Nat} {tbl : Ident} {cols : List Column} {cs : List Constraint} {ts : List Token} (h : n ≤ n') :
    Leads (grow3 us) (tableLoop tbl n cols cs ts) (tableLoop tbl n' cols cs (ts ++ us)) := by
  induction n generalizing n' ts cols cs with
  | zero => exact .dead .fuel
  | succ n ih =>
    obtain ⟨n', rfl⟩ : ∃ m, n' = m + 1 := ⟨n' - 1, by omega⟩
    have ih' := @ih
    unfold tableLoop
    ahead
set_option hygiene false in
macro_rules | `(tactic| ahead_call) => `(tactic| (refine tableLoop_ahead hu ?_; simp; done))

omit hu in
theorem parseOptionValue_dead : Dead (parseOptionValue []) := by
  unfold parseOptionValue
  dead
macro_rules | `(tactic| dead_call) => `(tactic| exact parseOptionValue_dead)

theorem parseOptionValue_ahead {ts : List Token} : Leads (grow us) (parseOptionValue ts) (parseOptionValue (ts ++ us)) := by
  unfold parseOptionValue
  ahead
set_option hygiene false in
macro_rules | `(tactic| ahead_call) => `(tactic| exact parseOptionValue_ahead hu)

omit hu in
theorem parseOption_dead : Dead (parseOption []) := by
  unfold parseOption
  dead
macro_rules | `(tactic| dead_call) => `(tactic| exact parseOption_dead)

theorem parseOption_ahead {ts : List Token} : Leads (grow us) (parseOption ts) (parseOption (ts ++ us)) := by
  unfold parseOption
  ahead
set_option hygiene false in
macro_rules | `(tactic| ahead_call) => `(tactic| exact parseOption_ahead hu)

omit hu in
theorem parseOption_rest {ts : List Token} : Post (fun r => r.2 ≠ []) (parseOption ts) := by
  have hv : ∀ ts, Post (fun r => r.2 ≠ []) (parseOptionValue ts) := by
    intro ts
    unfold parseOptionValue
    repeat' post_step
    refine Post.ok ?_
    dsimp only
    simp only [List.mem_singleton] at *
    ahead_ne
  unfold parseOption
  repeat' (first | post_step | (refine Post.bind (hv _) ?_; rintro ⟨_, _⟩ h; exact Post.ok h))

theorem optionsLoop_ahead {n n' : Nat} {ts : List Token} (h : n ≤ n') :
    Leads (grow us) (optionsLoop n ts) (optionsLoop n' (ts ++ us)) := by
  induction n generalizing n' ts with
  | zero => exact .dead .fuel
  | succ n ih =>
    obtain ⟨n', rfl⟩ : ∃ m, n' = m + 1 := ⟨n' - 1, by omega⟩
    have ih' := @ih
    unfold optionsLoop
    ahead_step
    · ahead
    · refine Leads.bind_post (parseOption_ahead hu) parseOption_rest ?_
      rintro ⟨_, _⟩ _
      dsimp only [grow]
      ahead
set_option hygiene false in
macro_rules | `(tactic| ahead_call) => `(tactic| (refine optionsLoop_ahead hu ?_; simp; done))

theorem parseCreateTable_ahead {ts : List Token} (hne : ts ≠ []) : Leads (grow us) (parseCreateTable ts) (parseCreateTable (ts ++ us)) := by
  unfold parseCreateTable
  ahead
set_option hygiene false in
macro_rules | `(tactic| ahead_call) => `(tactic| (refine parseCreateTable_ahead hu ?_; ahead_ne))

theorem parseUnique_ahead {ts : List Token} : Leads (grow us) (parseUnique ts) (parseUnique (ts ++ us)) := by
  unfold parseUnique
  ahead
set_option hygiene false in
macro_rules | `(tactic| ahead_call) => `(tactic| exact parseUnique_ahead hu)

theorem parseUsing_weak {ts : List Token} : Weak us (parseUsing ts) (parseUsing (ts ++ us)) := by
  unfold parseUsing
  weak
set_option hygiene false in
macro_rules | `(tactic| ahead_weak) => `(tactic| exact parseUsing_weak hu)
omit hu in
theorem parseUsing_nil : parseUsing [] = .ok ([], []) := rfl
macro_rules | `(tactic| dead_pass) => `(tactic| exact parseUsing_nil)

theorem parseCreateIndex_ahead {ts : List Token} : Leads (grow us) (parseCreateIndex ts) (parseCreateIndex (ts ++ us)) := by
  unfold parseCreateIndex
  ahead
set_option hygiene false in
macro_rules | `(tactic| ahead_call) => `(tactic| exact parseCreateIndex_ahead hu)

theorem parseCreate_ahead {ts : List Token} : Leads (grow us) (parseCreate ts) (parseCreate (ts ++ us)) := by
  unfold parseCreate
  ahead
set_option hygiene false in
macro_rules | `(tactic| ahead_call) => `(tactic| exact parseCreate_ahead hu)

end

end Ddl.My
