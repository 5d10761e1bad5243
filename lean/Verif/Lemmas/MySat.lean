import Verif.Lemmas.Sat
import Mathlib.Data.List.Nodup
import Verif.My.Parser

/-! # MySQL parser: fuel suffices, where panics come from, what results look like -/

namespace Ddl.My

section
variable {heads : List TokType} {dt : TokType → Bool} {pan : Prop} {ts0 ts : List Token}

theorem parseOrder_sat (E : Env heads dt pan ts0) (hs : ts <:+ ts0) :
    Sat pan (fun r => r.2 <:+ ts) (parseOrder ts) := by
  unfold parseOrder
  sat
macro_rules | `(tactic| sat_call) => `(tactic| exact parseOrder_sat (by assumption) (by suff))

theorem columnIdentsLoop_sat (E : Env heads dt pan ts0) {n : Nat} (hn : ts.length < n) (hs : ts <:+ ts0) :
    Sat pan (fun r => r.2 <:+ ts.tail) (columnIdentsLoop n ts) := by
  induction n generalizing ts with
  | zero => omega
  | succ n ih =>
    have ih' : ∀ ts', ts' <:+ ts.tail → curT ts ≠ .EOF → Sat pan (fun r => r.2 <:+ ts.tail) (columnIdentsLoop n ts') :=
      fun ts' h hc => (ih (fuel_tail hn h hc) (by suff)).imp (fun _ hr => by suff)
    unfold columnIdentsLoop
    sat

theorem parseColumnIdents_sat (E : Env heads dt pan ts0) (hs : ts <:+ ts0) :
    Sat pan (fun r => r.2 <:+ ts.tail) (parseColumnIdents ts) := columnIdentsLoop_sat E fuel_start hs
macro_rules | `(tactic| sat_call) => `(tactic| exact parseColumnIdents_sat (by assumption) (by suff))

theorem identsLoop_sat (E : Env heads dt pan ts0) {n : Nat} (hn : ts.length < n) (hs : ts <:+ ts0) :
    Sat pan (fun r => r.2 <:+ ts) (identsLoop n ts) := by
  induction n generalizing ts with
  | zero => omega
  | succ n ih =>
    have ih' : ∀ ts', ts' <:+ ts.tail → curT ts ≠ .EOF → Sat pan (fun r => r.2 <:+ ts.tail) (identsLoop n ts') :=
      fun ts' h hc => (ih (fuel_tail hn h hc) (by suff)).imp (fun _ hr => by suff)
    unfold identsLoop
    sat

theorem parseIdents_sat (E : Env heads dt pan ts0) (hs : ts <:+ ts0) :
    Sat pan (fun r => r.2 <:+ ts) (parseIdents ts) := identsLoop_sat E fuel_start hs
macro_rules | `(tactic| sat_call) => `(tactic| exact parseIdents_sat (by assumption) (by suff))

theorem parseTypeName_sat (E : Env heads dt pan ts0) (hs : ts <:+ ts0) :
    Sat pan (fun r => r.2.2.2 <:+ ts) (parseTypeName ts) := by
  unfold parseTypeName
  sat

theorem parseDataType_sat (E : Env heads dt pan ts0) (hs : ts <:+ ts0) :
    Sat pan (fun r => r.2 <:+ ts) (parseDataType ts) := by
  unfold parseDataType
  refine Sat.bind (parseTypeName_sat E hs) ?_
  rintro ⟨_, _, _, _⟩ _
  dsimp only at *
  sat
macro_rules | `(tactic| sat_call) => `(tactic| exact parseDataType_sat (by assumption) (by suff))

theorem exprLoop_sat (E : Env heads dt pan ts0) {n : Nat} (hn : ts.length < n) (hs : ts <:+ ts0) :
    Sat pan (fun r => r.2 <:+ ts.tail) (exprLoop n ts) := by
  induction n generalizing ts with
  | zero => omega
  | succ n ih =>
    have ih' : ∀ ts', ts' <:+ ts.tail → curT ts ≠ .EOF → Sat pan (fun r => r.2 <:+ ts'.tail) (exprLoop n ts') :=
      fun ts' h hc => (ih (fuel_tail hn h hc) (by suff))
    unfold exprLoop
    sat

macro_rules | `(tactic| sat_call) => `(tactic| exact exprLoop_sat (by assumption) fuel_start (by suff))

theorem parseExpr_sat (E : Env heads dt pan ts0) (hs : ts <:+ ts0) :
    Sat pan (fun r => r.2 <:+ ts.tail) (parseExpr ts) := by
  unfold parseExpr
  sat
macro_rules | `(tactic| sat_call) => `(tactic| exact parseExpr_sat (by assumption) (by suff))

theorem defaultLoop_sat (E : Env heads dt pan ts0) {n : Nat} {v : Option Expr} (hn : ts.length < n) (hs : ts <:+ ts0) :
    Sat pan (fun r => r.2 <:+ ts) (defaultLoop n v ts) := by
  induction n generalizing v ts with
  | zero => omega
  | succ n ih =>
    have ih' : ∀ ts' v, ts' <:+ ts.tail → curT ts ≠ .EOF → Sat pan (fun r => r.2 <:+ ts) (defaultLoop n v ts') :=
      fun ts' e h hc => (ih (fuel_tail hn h hc) (by suff)).imp (fun _ hr => by suff)
    unfold defaultLoop
    sat

theorem parseColumnDefault_sat (E : Env heads dt pan ts0) (hs : ts <:+ ts0) :
    Sat pan (fun r => r.2 <:+ ts) (parseColumnDefault ts) := defaultLoop_sat E fuel_start hs
macro_rules | `(tactic| sat_call) => `(tactic| exact parseColumnDefault_sat (by assumption) (by suff))

theorem parseOnAction_sat (E : Env heads dt pan ts0) (hs : ts <:+ ts0) :
    Sat pan (fun r => r.2 <:+ ts) (parseOnAction ts) := by
  unfold parseOnAction
  sat
macro_rules | `(tactic| sat_call) => `(tactic| exact parseOnAction_sat (by assumption) (by suff))

theorem parseOnActionOpt_sat (E : Env heads dt pan ts0) (hs : ts <:+ ts0) :
    Sat pan (fun r => r.2 <:+ ts) (parseOnActionOpt ts) := by
  unfold parseOnActionOpt
  sat
macro_rules | `(tactic| sat_call) => `(tactic| exact parseOnActionOpt_sat (by assumption) (by suff))

theorem parseComment_sat (E : Env heads dt pan ts0) (hs : ts <:+ ts0) :
    Sat pan (fun r => r.2 <:+ ts) (parseComment ts) := by
  unfold parseComment
  sat
macro_rules | `(tactic| sat_call) => `(tactic| exact parseComment_sat (by assumption) (by suff))

theorem parseOptionValue_sat (E : Env heads dt pan ts0) (hs : ts <:+ ts0) :
    Sat pan (fun r => r.2 <:+ ts) (parseOptionValue ts) := by
  unfold parseOptionValue
  sat
macro_rules | `(tactic| sat_call) => `(tactic| exact parseOptionValue_sat (by assumption) (by suff))

theorem parseOption_sat (E : Env heads dt pan ts0) (hs : ts <:+ ts0) :
    Sat pan (fun r => r.2 <:+ ts) (parseOption ts) := by
  unfold parseOption
  sat
macro_rules | `(tactic| sat_call) => `(tactic| exact parseOption_sat (by assumption) (by suff))

theorem optionsLoop_sat (E : Env heads dt pan ts0) {n : Nat} (hn : ts.length < n) (hs : ts <:+ ts0) :
    Sat pan (fun r => r.2 <:+ ts) (optionsLoop n ts) := by
  induction n generalizing ts with
  | zero => omega
  | succ n ih =>
    have ih' : ∀ ts', ts' <:+ ts.tail → curT ts ≠ .EOF → Sat pan (fun r => r.2 <:+ ts) (optionsLoop n ts') :=
      fun ts' h hc => (ih (fuel_tail hn h hc) (by suff)).imp (fun _ hr => by suff)
    unfold optionsLoop
    sat
macro_rules | `(tactic| sat_call) => `(tactic| exact optionsLoop_sat (by assumption) fuel_start (by suff))

theorem columnConstraintsLoop_sat (E : Env heads dt pan ts0) {tbl col : Ident} {n : Nat} {cs : List Constraint}
    (hn : ts.length < n) (hs : ts <:+ ts0) :
    Sat pan (fun r => r.2 <:+ ts) (columnConstraintsLoop tbl col n cs ts) := by
  induction n generalizing cs ts with
  | zero => omega
  | succ n ih =>
    have ih' : ∀ ts' cs, ts' <:+ ts.tail → curT ts ≠ .EOF →
        Sat pan (fun r => r.2 <:+ ts) (columnConstraintsLoop tbl col n cs ts') :=
      fun ts' cs h hc => (ih (fuel_tail hn h hc) (by suff)).imp (fun _ hr => by suff)
    unfold columnConstraintsLoop
    sat

theorem parseColumnConstraints_sat (E : Env heads dt pan ts0) {tbl col : Ident} (hs : ts <:+ ts0) :
    Sat pan (fun r => r.2 <:+ ts) (parseColumnConstraints tbl col ts) := columnConstraintsLoop_sat E fuel_start hs
macro_rules | `(tactic| sat_call) => `(tactic| exact parseColumnConstraints_sat (by assumption) (by suff))

theorem columnAttrsLoop_sat (E : Env heads dt pan ts0) {n : Nat} {a : Attrs}
    (hn : ts.length < n) (hs : ts <:+ ts0) :
    Sat pan (fun r => r.2 <:+ ts) (columnAttrsLoop n a ts) := by
  induction n generalizing a ts with
  | zero => omega
  | succ n ih =>
    have ih' : ∀ ts' a, ts' <:+ ts.tail → curT ts ≠ .EOF →
        Sat pan (fun r => r.2 <:+ ts) (columnAttrsLoop n a ts') :=
      fun ts' a h hc => (ih (fuel_tail hn h hc) (by suff)).imp (fun _ hr => by suff)
    unfold columnAttrsLoop
    sat
macro_rules | `(tactic| sat_call) => `(tactic| exact columnAttrsLoop_sat (by assumption) fuel_start (by suff))

theorem parseColumn_sat (E : Env heads dt pan ts0) {tbl : Ident} (hs : ts <:+ ts0) :
    Sat pan (fun r => r.2.2 <:+ ts.tail) (parseColumn tbl ts) := by
  unfold parseColumn
  sat
macro_rules | `(tactic| sat_call) => `(tactic| exact parseColumn_sat (by assumption) (by suff))

theorem parseConstraintName_sat (E : Env heads dt pan ts0) (hs : ts <:+ ts0) :
    Sat pan (fun r => r.2 <:+ ts) (parseConstraintName ts) := by
  unfold parseConstraintName
  sat
macro_rules | `(tactic| sat_call) => `(tactic| exact parseConstraintName_sat (by assumption) (by suff))

theorem parseTableConstraint_sat (E : Env heads dt pan ts0) {tbl : Ident} (hs : ts <:+ ts0) :
    Sat pan (fun r => r.2 <:+ ts.tail) (parseTableConstraint tbl ts) := by
  unfold parseTableConstraint
  sat
macro_rules | `(tactic| sat_call) => `(tactic| exact parseTableConstraint_sat (by assumption) (by suff))

/-- No two constraints share a name. -/
def NodupNames (cs : List Constraint) : Prop := (cs.map (fun c => c.name.name)).Nodup

theorem sortPrimaryKey_perm (l : List Constraint) : (sortPrimaryKey l).Perm l := by
  have : ∀ acc : List Constraint,
      (l.foldl (fun acc c => if c.isPrimaryKey then c :: acc else acc ++ [c]) acc).Perm (acc ++ l) := by
    induction l with
    | nil => simp
    | cons c l ih =>
      intro acc
      rw [List.foldl_cons]
      refine (ih _).trans ?_
      split
      · simpa using (List.perm_middle (l₁ := acc) (a := c) (l₂ := l)).symm
      · simp
  simpa [sortPrimaryKey] using this []

theorem replaceConstraint_some {l l' : List Constraint} {c : Constraint} (h : replaceConstraint l c = some l') :
    c.name.name ∈ l.map (fun c => c.name.name) ∧ l'.map (fun c => c.name.name) = l.map (fun c => c.name.name) := by
  induction l generalizing l' with
  | nil => simp [replaceConstraint] at h
  | cons x l ih =>
    simp only [replaceConstraint] at h
    split at h
    · rename_i he
      cases h
      simp [he]
    · obtain ⟨l'', hl, rfl⟩ := Option.map_eq_some_iff.1 h
      obtain ⟨h1, h2⟩ := ih hl
      exact ⟨List.mem_cons_of_mem _ h1, by rw [List.map_cons, List.map_cons, h2]⟩

theorem replaceConstraint_none {l : List Constraint} {c : Constraint} (h : replaceConstraint l c = none) :
    c.name.name ∉ l.map (fun c => c.name.name) := by
  induction l with
  | nil => simp
  | cons x l ih =>
    simp only [replaceConstraint] at h
    split at h
    · cases h
    · rename_i he
      have := ih (Option.map_eq_none_iff.1 h)
      simp only [List.map_cons, List.mem_cons, not_or]
      exact ⟨fun e => he e.symm, this⟩

theorem appendConstraint_map_name (cs : List Constraint) (c : Constraint) :
    ((appendConstraint cs c).map (fun c => c.name.name)).Perm
      (if c.name.name ∈ cs.map (fun c => c.name.name) then cs.map (fun c => c.name.name)
      else cs.map (fun c => c.name.name) ++ [c.name.name]) := by
  unfold appendConstraint
  split
  · rename_i l' h
    obtain ⟨h1, h2⟩ := replaceConstraint_some h
    rw [h2, if_pos h1]
  · rename_i h
    rw [if_neg (replaceConstraint_none h)]
    refine ((sortPrimaryKey_perm _).map _).trans ?_
    simp

theorem NodupNames.append {cs : List Constraint} (h : NodupNames cs) (c : Constraint) : NodupNames (appendConstraint cs c) := by
  unfold NodupNames at *
  rw [(appendConstraint_map_name cs c).nodup_iff]
  split
  · exact h
  · rename_i hn
    rw [List.nodup_append]
    refine ⟨h, by simp, ?_⟩
    rintro a ha b hb rfl
    simp only [List.mem_singleton] at hb
    subst hb
    exact hn ha

theorem NodupNames.foldl {cs : List Constraint} (h : NodupNames cs) (l : List Constraint) :
    NodupNames (l.foldl appendConstraint cs) := by
  induction l generalizing cs with
  | nil => exact h
  | cons c l ih => exact ih (h.append c)

macro_rules | `(tactic| sat_side) => `(tactic| exact NodupNames.append (by assumption) _)
macro_rules | `(tactic| sat_side) => `(tactic| exact NodupNames.foldl (by assumption) _)

theorem tableLoop_sat (E : Env heads dt pan ts0) {tbl : Ident} {n : Nat}
    {cols : List Column} {cs : List Constraint} (hn : ts.length < n) (hs : ts <:+ ts0) (hcs : NodupNames cs) :
    Sat pan (fun r => r.2.2 <:+ ts ∧ NodupNames r.2.1) (tableLoop tbl n cols cs ts) := by
  induction n generalizing cols cs ts with
  | zero => omega
  | succ n ih =>
    have ih' : ∀ ts' cols cs, ts' <:+ ts.tail → curT ts ≠ .EOF → NodupNames cs →
        Sat pan (fun r => r.2.2 <:+ ts ∧ NodupNames r.2.1) (tableLoop tbl n cols cs ts') :=
      fun ts' cols cs h hc hcs => (ih (fuel_tail hn h hc) (by suff) hcs).imp (fun _ hr => ⟨by have := hr.1; suff, hr.2⟩)
    unfold tableLoop
    sat

theorem parseCreateTable_sat (E : Env heads dt pan ts0) (hs : ts <:+ ts0) :
    Sat pan (fun r => r.2 <:+ ts ∧ NodupNames r.1.constraints) (parseCreateTable ts) := by
  unfold parseCreateTable
  sat
  refine Sat.bind (tableLoop_sat E fuel_start (by suff) List.nodup_nil) ?_
  rintro ⟨_, _, _⟩ ⟨_, _⟩
  dsimp only at *
  sat

theorem parseUsing_sat (E : Env heads dt pan ts0) (hs : ts <:+ ts0) :
    Sat pan (fun r => r.2 <:+ ts) (parseUsing ts) := by
  unfold parseUsing
  sat
macro_rules | `(tactic| sat_call) => `(tactic| exact parseUsing_sat (by assumption) (by suff))

theorem parseUnique_sat (E : Env heads dt pan ts0) (hs : ts <:+ ts0) :
    Sat pan (fun r => r.2 <:+ ts) (parseUnique ts) := by
  unfold parseUnique
  sat
macro_rules | `(tactic| sat_call) => `(tactic| exact parseUnique_sat (by assumption) (by suff))

theorem parseCreateIndex_sat (E : Env heads dt pan ts0) (hs : ts <:+ ts0) :
    Sat pan (fun r => r.2 <:+ ts) (parseCreateIndex ts) := by
  unfold parseCreateIndex
  sat
macro_rules | `(tactic| sat_call) => `(tactic| exact parseCreateIndex_sat (by assumption) (by suff))

theorem parseCreate_sat (E : Env heads dt pan ts0) (hs : ts <:+ ts0) :
    Sat pan (fun r => r.2 <:+ ts.tail ∧ ∀ t, r.1 = .createTable t → NodupNames t.constraints) (parseCreate ts) := by
  unfold parseCreate
  refine E.next_bind hs ?_
  split
  · refine Sat.bind (parseCreateTable_sat E (by suff)) ?_
    rintro ⟨_, _⟩ ⟨_, h⟩
    dsimp only at *
    refine Sat.ok ⟨by suff, fun t ht => ?_⟩
    cases ht; exact h
  · split
    · refine Sat.bind (parseCreateIndex_sat E (by suff)) ?_
      rintro ⟨_, _⟩ _
      dsimp only at *
      exact Sat.ok ⟨by suff, fun t ht => by cases ht⟩
    · exact Sat.err (by simp)

/-- Parsing never runs out of fuel, panics only for the reasons of `Env`, and constraint names are unique in tables. -/
theorem parseTokens_sat (E : Env heads dt pan ts) :
    Sat pan (fun l => ∀ s ∈ l, ∀ t, s = .createTable t → NodupNames t.constraints) (parseTokens parseCreate ts) :=
  Ddl.parseTokens_sat E (fun _ hs => parseCreate_sat E hs)

end
end Ddl.My
