import Verif.Lemmas.Sat
import Mathlib.Data.List.Nodup
import Verif.Sp.Parser

/-! # Spanner parser: fuel suffices, where panics come from, what results look like -/

namespace Ddl.Sp

section
variable {heads : List TokType} {dt : TokType → Bool} {pan : Prop} {ts0 ts : List Token}

theorem parseOrder_sat (E : Env heads dt pan ts0) (hs : ts <:+ ts0) :
    Sat pan (fun r => r.2 <:+ ts) (parseOrder ts) := by
  unfold parseOrder
  sat
macro_rules | `(tactic| sat_call) => `(tactic| exact parseOrder_sat (by assumption) (by suff))

theorem columnIdentsLoop_sat (E : Env heads dt pan ts0) {n : Nat} (hn : ts.length < n) (hs : ts <:+ ts0) :
    Sat pan (fun r => r.2 <:+ ts.tail) (columnIdentsLoop n ts) := by
  induction n generalizing ts with
  | zero => omega
  | succ n ih =>
    have ih' : ∀ ts', ts' <:+ ts.tail → curT ts ≠ .EOF → Sat pan (fun r => r.2 <:+ ts.tail) (columnIdentsLoop n ts') :=
      fun ts' h hc => (ih (fuel_tail hn h hc) (by suff)).imp (fun _ hr => by suff)
    unfold columnIdentsLoop
    sat

theorem parseColumnIdents_sat (E : Env heads dt pan ts0) (hs : ts <:+ ts0) :
    Sat pan (fun r => r.2 <:+ ts.tail) (parseColumnIdents ts) := columnIdentsLoop_sat E fuel_start hs
macro_rules | `(tactic| sat_call) => `(tactic| exact parseColumnIdents_sat (by assumption) (by suff))

theorem identsLoop_sat (E : Env heads dt pan ts0) {n : Nat} (hn : ts.length < n) (hs : ts <:+ ts0) :
    Sat pan (fun r => r.2 <:+ ts) (identsLoop n ts) := by
  induction n generalizing ts with
  | zero => omega
  | succ n ih =>
    have ih' : ∀ ts', ts' <:+ ts.tail → curT ts ≠ .EOF → Sat pan (fun r => r.2 <:+ ts.tail) (identsLoop n ts') :=
      fun ts' h hc => (ih (fuel_tail hn h hc) (by suff)).imp (fun _ hr => by suff)
    unfold identsLoop
    sat

theorem parseIdents_sat (E : Env heads dt pan ts0) (hs : ts <:+ ts0) :
    Sat pan (fun r => r.2 <:+ ts) (parseIdents ts) := identsLoop_sat E fuel_start hs
macro_rules | `(tactic| sat_call) => `(tactic| exact parseIdents_sat (by assumption) (by suff))

theorem parseDataType_sat (E : Env heads dt pan ts0) (hs : ts <:+ ts0) :
    Sat pan (fun r => r.2 <:+ ts) (parseDataType ts) := by
  unfold parseDataType
  sat
macro_rules | `(tactic| sat_call) => `(tactic| exact parseDataType_sat (by assumption) (by suff))

theorem exprLoop_sat (E : Env heads dt pan ts0) {n : Nat} (hn : ts.length < n) (hs : ts <:+ ts0) :
    Sat pan (fun r => r.2 <:+ ts.tail) (exprLoop n ts) := by
  induction n generalizing ts with
  | zero => omega
  | succ n ih =>
    have ih' : ∀ ts', ts' <:+ ts.tail → curT ts ≠ .EOF → Sat pan (fun r => r.2 <:+ ts'.tail) (exprLoop n ts') :=
      fun ts' h hc => (ih (fuel_tail hn h hc) (by suff))
    unfold exprLoop
    sat

macro_rules | `(tactic| sat_call) => `(tactic| exact exprLoop_sat (by assumption) fuel_start (by suff))

theorem parseExpr_sat (E : Env heads dt pan ts0) (hs : ts <:+ ts0) :
    Sat pan (fun r => r.2 <:+ ts.tail) (parseExpr ts) := by
  unfold parseExpr
  sat
macro_rules | `(tactic| sat_call) => `(tactic| exact parseExpr_sat (by assumption) (by suff))

theorem defaultLoop_sat (E : Env heads dt pan ts0) {n : Nat} {v : Option Expr} (hn : ts.length < n) (hs : ts <:+ ts0) :
    Sat pan (fun r => r.2 <:+ ts) (defaultLoop n v ts) := by
  induction n generalizing v ts with
  | zero => omega
  | succ n ih =>
    have ih' : ∀ ts' v, ts' <:+ ts.tail → curT ts ≠ .EOF → Sat pan (fun r => r.2 <:+ ts) (defaultLoop n v ts') :=
      fun ts' e h hc => (ih (fuel_tail hn h hc) (by suff)).imp (fun _ hr => by suff)
    unfold defaultLoop
    sat

theorem parseColumnDefault_sat (E : Env heads dt pan ts0) (hs : ts <:+ ts0) :
    Sat pan (fun r => r.2 <:+ ts) (parseColumnDefault ts) := defaultLoop_sat E fuel_start hs
macro_rules | `(tactic| sat_call) => `(tactic| exact parseColumnDefault_sat (by assumption) (by suff))

/-- The state `r` comes directly behind a closing parenthesis of `ts0`. -/
def Closed (ts0 r : List Token) : Prop := ∃ s, s <:+ ts0 ∧ curT s = .CLOSE_PAREN ∧ r = s.tail

theorem columnIdentsLoop_closed (E : Env heads dt pan ts0) {n : Nat} (hn : ts.length < n) (hs : ts <:+ ts0) :
    Sat pan (fun r => Closed ts0 r.2) (columnIdentsLoop n ts) := by
  induction n generalizing ts with
  | zero => omega
  | succ n ih =>
    have ih' : ∀ ts', ts' <:+ ts.tail → curT ts ≠ .EOF → Sat pan (fun r => Closed ts0 r.2) (columnIdentsLoop n ts') :=
      fun ts' h hc => ih (fuel_tail hn h hc) (by suff)
    unfold columnIdentsLoop
    sat
    exact Sat.ok ⟨ts, hs, by assumption, rfl⟩

theorem parseColumnIdents_closed (E : Env heads dt pan ts0) (hs : ts <:+ ts0) :
    Sat pan (fun r => Closed ts0 r.2) (parseColumnIdents ts) := columnIdentsLoop_closed E fuel_start hs

theorem exprLoop_closed (E : Env heads dt pan ts0) {n : Nat} (hn : ts.length < n) (hs : ts <:+ ts0) :
    Sat pan (fun r => Closed ts0 r.2) (exprLoop n ts) := by
  induction n generalizing ts with
  | zero => omega
  | succ n ih =>
    have ih' : ∀ ts', ts' <:+ ts.tail → curT ts ≠ .EOF → Sat pan (fun r => Closed ts0 r.2) (exprLoop n ts') :=
      fun ts' h hc => ih (fuel_tail hn h hc) (by suff)
    unfold exprLoop
    split
    · refine E.next_bind hs ?_
      refine Sat.bind (exprLoop_sat E (fuel_tail hn (by suff) (by neof)) (by suff)) ?_
      rintro ⟨_, _⟩ _
      dsimp only at *
      sat
    · sat
      exact Sat.ok ⟨ts, hs, by assumption, rfl⟩

theorem parseExpr_closed (E : Env heads dt pan ts0) (hs : ts <:+ ts0) :
    Sat pan (fun r => Closed ts0 r.2) (parseExpr ts) := by
  unfold parseExpr
  refine Sat.checkCur_bind (fun _ => E.next_bind hs ?_)
  refine Sat.bind (exprLoop_closed E fuel_start (by suff)) ?_
  rintro ⟨_, _⟩ h
  exact Sat.ok h

/-- No two constraints share a name. -/
def NodupNames (cs : List Constraint) : Prop := (cs.map (fun c => c.name.map (·.name))).Nodup

/-- All constraints have a name. -/
def Named (cs : List Constraint) : Prop := ∀ c ∈ cs, c.name ≠ none

/-- What holds of a list of constraints under construction. -/
def Inv (pan : Prop) (cs : List Constraint) : Prop := NodupNames cs ∧ (pan ∨ Named cs)

theorem nameStr_some {c : Constraint} {a : Str} (h : c.nameStr = .ok a) : c.name.map (·.name) = some a := by
  unfold Constraint.nameStr at h
  split at h
  · rename_i n hn; cases h; rw [hn]; rfl
  · cases h

theorem nameStr_cases (c : Constraint) : (∃ a, c.nameStr = .ok a) ∨ (c.nameStr = .panic .nilDeref ∧ c.name = none) := by
  unfold Constraint.nameStr
  split
  · exact .inl ⟨_, rfl⟩
  · rename_i h; exact .inr ⟨rfl, h⟩

theorem appendConstraint_sat' (cs : List Constraint) (c : Constraint) :
    Sat (¬ Named (c :: cs)) (fun cs' =>
      (cs'.map (fun c => c.name.map (·.name)) =
        if c.name.map (·.name) ∈ cs.map (fun c => c.name.map (·.name)) then cs.map (fun c => c.name.map (·.name))
        else cs.map (fun c => c.name.map (·.name)) ++ [c.name.map (·.name)]) ∧
      ∀ x ∈ cs', x = c ∨ x ∈ cs) (appendConstraint cs c) := by
  induction cs with
  | nil => exact ⟨by simp, by simp⟩
  | cons x r ih =>
    unfold appendConstraint
    rcases nameStr_cases x with ⟨a, ha⟩ | ⟨ha, hn⟩
    · rcases nameStr_cases c with ⟨b, hb⟩ | ⟨hb, hn⟩
      · rw [ha, hb]
        have ha' := nameStr_some ha
        have hb' := nameStr_some hb
        show Sat _ _ (if a = b then _ else _)
        by_cases h : a = b
        · rw [if_pos h]
          subst h
          refine Sat.ok ⟨by simp [ha', hb'], ?_⟩
          intro y hy
          rcases List.mem_cons.1 hy with rfl | hy
          · exact .inl rfl
          · exact .inr (List.mem_cons_of_mem _ hy)
        · rw [if_neg h]
          have ih2 := ih.weaken (pan' := ¬ Named (c :: x :: r)) (fun h hn => h (fun y hy => hn y (by
            rcases List.mem_cons.1 hy with rfl | hy <;> simp [*])))
          refine Sat.bind ih2 ?_
          rintro cs' ⟨h1, h2⟩
          refine Sat.ok ⟨?_, ?_⟩
          · rw [List.map_cons, h1, hb']
            simp only [List.map_cons, ha', List.mem_cons]
            have hne : ¬ (some b = some a) := fun e => h (Option.some.inj e).symm
            by_cases hm : some b ∈ r.map (fun c => c.name.map (·.name))
            · rw [if_pos hm, if_pos (.inr hm)]
            · rw [if_neg hm, if_neg (by rintro (h | h); exacts [hne h, hm h])]; rfl
          · intro y hy
            rcases List.mem_cons.1 hy with rfl | hy
            · exact .inr List.mem_cons_self
            · rcases h2 y hy with h | h
              · exact .inl h
              · exact .inr (List.mem_cons_of_mem _ h)
      · rw [ha, hb]
        exact fun h => h c List.mem_cons_self hn
    · rw [ha]
      exact fun h => h x (List.mem_cons_of_mem _ List.mem_cons_self) hn

theorem appendConstraint_sat {cs : List Constraint} {c : Constraint} (h : Inv pan cs) (hc : pan ∨ c.name ≠ none) :
    Sat pan (Inv pan) (appendConstraint cs c) := by
  have key := appendConstraint_sat' cs c
  have hp : ¬ Named (c :: cs) → pan := by
    intro hn
    rcases hc with hc | hc
    · exact hc
    · rcases h.2 with h | h
      · exact h
      · refine absurd (fun x hx => ?_) hn
        rcases List.mem_cons.1 hx with rfl | hx
        exacts [hc, h x hx]
  revert key
  cases appendConstraint cs c with
  | ok cs' =>
    rintro ⟨h1, h2⟩
    refine ⟨?_, ?_⟩
    · unfold NodupNames
      rw [h1]
      split
      · exact h.1
      · rename_i hn
        rw [List.nodup_append]
        refine ⟨h.1, by simp, ?_⟩
        rintro a ha b hb rfl
        simp only [List.mem_singleton] at hb
        subst hb
        exact hn ha
    · rcases hc with hc | hc
      · exact .inl hc
      · rcases h.2 with h | h
        · exact .inl h
        · refine .inr (fun x hx => ?_)
          rcases h2 x hx with rfl | hx
          exacts [hc, h x hx]
  | err e => exact id
  | panic p => exact hp
  | outOfFuel => exact id

theorem appendAll_sat {cs l : List Constraint} (h : Inv pan cs) (hl : pan ∨ Named l) :
    Sat pan (Inv pan) (appendAll cs l) := by
  induction l generalizing cs with
  | nil => exact h
  | cons c l ih =>
    unfold appendAll
    refine Sat.bind (appendConstraint_sat h (hl.imp id (fun h => h c List.mem_cons_self))) ?_
    intro cs' h'
    exact ih h' (hl.imp id (fun h x hx => h x (List.mem_cons_of_mem _ hx)))

theorem columnConstraintsLoop_sat (E : Env heads dt pan ts0) {tbl col : Ident} {n : Nat} {cs : List Constraint}
    (hn : ts.length < n) (hs : ts <:+ ts0) (hcs : Inv pan cs) :
    Sat pan (fun r => r.2 <:+ ts ∧ Inv pan r.1 ∧ curT r.2 ≠ .CHECK) (columnConstraintsLoop tbl col n cs ts) := by
  induction n generalizing cs ts with
  | zero => omega
  | succ n ih =>
    have ih' : ∀ ts' cs, ts' <:+ ts.tail → curT ts ≠ .EOF → Inv pan cs →
        Sat pan (fun r => r.2 <:+ ts ∧ Inv pan r.1 ∧ curT r.2 ≠ .CHECK) (columnConstraintsLoop tbl col n cs ts') :=
      fun ts' cs h hc hcs => (ih (fuel_tail hn h hc) (by suff) hcs).imp (fun _ hr => ⟨by have := hr.1; suff, hr.2⟩)
    unfold columnConstraintsLoop
    sat
    · refine Sat.bind (appendConstraint_sat hcs (.inr (by simp [Constraint.name]))) (fun cs' hcs' => ?_)
      sat
    · refine Sat.bind (appendConstraint_sat hcs (.inr (by simp [Constraint.name]))) (fun cs' hcs' => ?_)
      sat
    · rename_i h
      refine Sat.ok ⟨by suff, hcs, ?_⟩
      intro he
      simp [he] at h

theorem parseColumnConstraints_sat (E : Env heads dt pan ts0) {tbl col : Ident} (hs : ts <:+ ts0) :
    Sat pan (fun r => r.2 <:+ ts ∧ Inv pan r.1 ∧ curT r.2 ≠ .CHECK) (parseColumnConstraints tbl col ts) :=
  columnConstraintsLoop_sat E fuel_start hs ⟨List.nodup_nil, .inr (by intro c hc; cases hc)⟩

theorem columnAttrsLoop_sat (E : Env heads dt pan ts0) {n : Nat} {d : Option Default} {nn : Bool}
    (hn : ts.length < n) (hs : ts <:+ ts0) :
    Sat pan (fun r => r.2.2 <:+ ts) (columnAttrsLoop n d nn ts) := by
  induction n generalizing d nn ts with
  | zero => omega
  | succ n ih =>
    have ih' : ∀ ts' d nn, ts' <:+ ts.tail → curT ts ≠ .EOF →
        Sat pan (fun r => r.2.2 <:+ ts) (columnAttrsLoop n d nn ts') :=
      fun ts' d nn h hc => (ih (fuel_tail hn h hc) (by suff)).imp (fun _ hr => by suff)
    unfold columnAttrsLoop
    sat

/-- The condition under which a token `CHECK` may start a table-level constraint. -/
abbrev Head (pan : Prop) (ts : List Token) : Prop := curT ts = .CHECK → pan

theorem parseColumnOptions_sat (E : Env heads (· = .CHECK) pan ts0) (hd : .CLOSE_PAREN ∈ heads) (hs : ts <:+ ts0)
    (hc : curT ts ≠ .CHECK) : Sat pan (fun r => r.2 <:+ ts ∧ Head pan r.2) (parseColumnOptions ts) := by
  unfold parseColumnOptions
  split
  · refine E.next_bind hs ?_
    refine Sat.bind ((parseExpr_sat E (by suff)).and (parseExpr_closed E (by suff))) ?_
    rintro ⟨_, _⟩ ⟨_, s, h1, h2, h3⟩
    dsimp only at *
    refine Sat.ok ⟨by suff, fun he => ?_⟩
    subst h3
    exact E.head s h1 (h2 ▸ hd) (decide_eq_true he)
  · exact Sat.ok ⟨by suff, fun h => absurd h hc⟩

theorem parseColumn_sat (E : Env heads (· = .CHECK) pan ts0) (hd : .CLOSE_PAREN ∈ heads) {tbl : Ident} (hs : ts <:+ ts0) :
    Sat pan (fun r => r.2.2 <:+ ts.tail ∧ Inv pan r.2.1 ∧ Head pan r.2.2) (parseColumn tbl ts) := by
  unfold parseColumn
  sat
  refine Sat.bind (columnAttrsLoop_sat E fuel_start (by suff)) ?_
  rintro ⟨_, _, _⟩ _
  dsimp only at *
  refine Sat.bind (parseColumnConstraints_sat E (by suff)) ?_
  rintro ⟨_, _⟩ ⟨_, hi, hc⟩
  dsimp only at *
  refine Sat.bind (appendAll_sat ⟨List.nodup_nil, .inr (by intro c hc; cases hc)⟩ hi.2) (fun cs hcs => ?_)
  refine Sat.bind (parseColumnOptions_sat E hd (by suff) hc) ?_
  rintro ⟨_, _⟩ ⟨_, hh⟩
  dsimp only at *
  exact Sat.ok ⟨by suff, hcs, hh⟩

theorem parseConstraintName_sat (E : Env heads dt pan ts0) (hs : ts <:+ ts0) :
    Sat pan (fun r => r.2 <:+ ts ∧ (r.1 = none → r.2 = ts)) (parseConstraintName ts) := by
  unfold parseConstraintName
  split
  · refine E.next_bind hs ?_
    split
    · exact Sat.err (by simp)
    · refine E.next_bind (by suff) ?_
      exact Sat.ok ⟨by suff, by simp⟩
  · exact Sat.ok ⟨by suff, fun _ => rfl⟩

theorem parseTableConstraint_sat (E : Env heads (· = .CHECK) pan ts0) (hd : .CLOSE_PAREN ∈ heads) {tbl : Ident} (hs : ts <:+ ts0)
    (hh : Head pan ts) :
    Sat pan (fun r => r.2 <:+ ts.tail ∧ (pan ∨ r.1.name ≠ none) ∧ Head pan r.2) (parseTableConstraint tbl ts) := by
  have closed : ∀ r, Closed ts0 r → Head pan r := by
    rintro r ⟨s, h1, h2, h3⟩ he
    subst h3
    exact E.head s h1 (h2 ▸ hd) (decide_eq_true he)
  unfold parseTableConstraint
  refine Sat.bind (parseConstraintName_sat E (by suff)) ?_
  rintro ⟨cname, _⟩ ⟨_, hcn⟩
  dsimp only at *
  split
  · refine Sat.checkPeek_bind (fun _ => E.next_bind (by suff) (Sat.checkPeek_bind (fun _ => E.next_bind (by suff) ?_)))
    refine Sat.bind (parseColumnIdents_sat E (by suff)) ?_
    rintro ⟨_, _⟩ _
    dsimp only at *
    refine Sat.checkCur_bind (fun _ => E.next_bind (by suff) (Sat.checkCur_bind (fun _ => E.next_bind (by suff) ?_)))
    refine Sat.bind ((parseColumnIdents_sat E (by suff)).and (parseColumnIdents_closed E (by suff))) ?_
    rintro ⟨_, _⟩ ⟨_, hc⟩
    dsimp only at *
    exact Sat.ok ⟨by suff, .inr (by simp [Constraint.name]), closed _ hc⟩
  split
  rotate_left
  · exact Sat.err (by simp)
  · rename_i hk
    refine Sat.checkPeek_bind (fun _ => E.next_bind (by suff) ?_)
    refine Sat.bind ((parseExpr_sat E (by suff)).and (parseExpr_closed E (by suff))) ?_
    rintro ⟨_, _⟩ ⟨_, hc⟩
    dsimp only at *
    refine Sat.ok ⟨by suff, ?_, closed _ hc⟩
    cases cname with
    | some n => exact .inr (by simp [Constraint.name])
    | none => exact .inl (hh (hcn rfl ▸ hk))

theorem tableLoop_sat (E : Env heads (· = .CHECK) pan ts0) (hd : .CLOSE_PAREN ∈ heads) (hd' : .COMMA ∈ heads) {tbl : Ident} {n : Nat}
    {cols : List Column} {cs : List Constraint} (hn : ts.length < n) (hs : ts <:+ ts0) (hh : Head pan ts) (hcs : Inv pan cs) :
    Sat pan (fun r => r.2.2 <:+ ts ∧ NodupNames r.2.1) (tableLoop tbl n cols cs ts) := by
  induction n generalizing cols cs ts with
  | zero => omega
  | succ n ih =>
    have ih' : ∀ ts' cols cs, ts' <:+ ts.tail → curT ts ≠ .EOF → Head pan ts' → Inv pan cs →
        Sat pan (fun r => r.2.2 <:+ ts ∧ NodupNames r.2.1) (tableLoop tbl n cols cs ts') :=
      fun ts' cols cs h hc hh hcs =>
        (ih (fuel_tail hn h hc) (by suff) hh hcs).imp (fun _ hr => ⟨by have := hr.1; suff, hr.2⟩)
    unfold tableLoop
    split
    · refine Sat.bind (parseColumn_sat E hd hs) ?_
      rintro ⟨_, _, _⟩ ⟨_, hi, hh'⟩
      dsimp only at *
      refine Sat.bind (appendAll_sat hcs hi.2) (fun cs' hcs' => ?_)
      exact ih' _ _ _ (by suff) (by neof) hh' hcs'
    · split
      · rename_i hk
        refine Sat.bind (parseTableConstraint_sat E hd hs hh) ?_
        rintro ⟨_, _⟩ ⟨_, hi, hh'⟩
        dsimp only at *
        refine Sat.bind (appendConstraint_sat hcs hi) (fun cs' hcs' => ?_)
        exact ih' _ _ _ (by suff) (by intro he; rw [he] at hk; exact absurd hk (by decide)) hh' hcs'
      · split
        · rename_i hc
          refine E.next_bind hs ?_
          exact ih' _ _ _ (by suff) (by neof) (fun he => E.head ts hs (hc ▸ hd') (decide_eq_true he)) hcs
        · split
          · refine E.next_bind hs ?_
            exact Sat.ok ⟨by suff, hcs.1⟩
          · exact Sat.err (by simp)

theorem expect_sat (E : Env heads dt pan ts0) {t : TokType} (hs : ts <:+ ts0) :
    Sat pan (fun r => r.2 <:+ ts.tail) (expect t ts) := by
  unfold expect
  sat
macro_rules | `(tactic| sat_call) => `(tactic| exact expect_sat (by assumption) (by suff))

theorem parseInterleaveAction_sat (E : Env heads dt pan ts0) (hs : ts <:+ ts0) :
    Sat pan (fun r => r.2 <:+ ts) (parseInterleaveAction ts) := by
  unfold parseInterleaveAction
  sat
macro_rules | `(tactic| sat_call) => `(tactic| exact parseInterleaveAction_sat (by assumption) (by suff))

theorem parseInterleave_sat (E : Env heads dt pan ts0) (hs : ts <:+ ts0) :
    Sat pan (fun r => r.2 <:+ ts) (parseInterleave ts) := by
  unfold parseInterleave
  sat
macro_rules | `(tactic| sat_call) => `(tactic| exact parseInterleave_sat (by assumption) (by suff))

theorem parseRowDeletionPolicy_sat (E : Env heads dt pan ts0) (hs : ts <:+ ts0) :
    Sat pan (fun r => r.2 <:+ ts) (parseRowDeletionPolicy ts) := by
  unfold parseRowDeletionPolicy
  sat
macro_rules | `(tactic| sat_call) => `(tactic| exact parseRowDeletionPolicy_sat (by assumption) (by suff))

theorem optionsLoop_sat (E : Env heads dt pan ts0) {n : Nat} {os : List TableOption} {rdp : Option TableOption}
    (hn : ts.length < n) (hs : ts <:+ ts0) :
    Sat pan (fun r => r.2.2 <:+ ts) (optionsLoop n os rdp ts) := by
  induction n generalizing os rdp ts with
  | zero => omega
  | succ n ih =>
    have ih' : ∀ ts' os rdp, ts' <:+ ts.tail → curT ts ≠ .EOF → Sat pan (fun r => r.2.2 <:+ ts) (optionsLoop n os rdp ts') :=
      fun ts' os rdp h hc => (ih (fuel_tail hn h hc) (by suff)).imp (fun _ hr => by suff)
    unfold optionsLoop
    sat

theorem parseCreateTable_sat (E : Env [.OPEN_PAREN, .COMMA, .CLOSE_PAREN] (· = .CHECK) pan ts0) (hs : ts <:+ ts0) :
    Sat pan (fun r => r.2 <:+ ts ∧ NodupNames r.1.constraints) (parseCreateTable ts) := by
  unfold parseCreateTable
  sat
  rename_i hc
  refine Sat.bind (tableLoop_sat E (by simp) (by simp) fuel_start (by suff) ?_
    ⟨List.nodup_nil, .inr (by intro c hc; cases hc)⟩) ?_
  · rename_i s _ _
    exact fun he => E.head s.tail.tail (by suff) (by simp at hc; simp [hc]) (decide_eq_true he)
  rintro ⟨_, _, _⟩ ⟨_, _⟩
  dsimp only at *
  refine Sat.bind (optionsLoop_sat E fuel_start (by suff)) ?_
  rintro ⟨_, _, _⟩ _
  dsimp only at *
  sat

theorem parseUsing_sat (E : Env heads dt pan ts0) (hs : ts <:+ ts0) :
    Sat pan (fun r => r.2 <:+ ts) (parseUsing ts) := by
  unfold parseUsing
  sat
macro_rules | `(tactic| sat_call) => `(tactic| exact parseUsing_sat (by assumption) (by suff))

theorem parseUnique_sat (E : Env heads dt pan ts0) (hs : ts <:+ ts0) :
    Sat pan (fun r => r.2 <:+ ts) (parseUnique ts) := by
  unfold parseUnique
  sat
macro_rules | `(tactic| sat_call) => `(tactic| exact parseUnique_sat (by assumption) (by suff))

theorem parseCreateIndex_sat (E : Env heads dt pan ts0) (hs : ts <:+ ts0) :
    Sat pan (fun r => r.2 <:+ ts) (parseCreateIndex ts) := by
  unfold parseCreateIndex
  sat
macro_rules | `(tactic| sat_call) => `(tactic| exact parseCreateIndex_sat (by assumption) (by suff))

theorem parseCreate_sat (E : Env [.OPEN_PAREN, .COMMA, .CLOSE_PAREN] (· = .CHECK) pan ts0) (hs : ts <:+ ts0) :
    Sat pan (fun r => r.2 <:+ ts.tail ∧ ∀ t, r.1 = .createTable t → NodupNames t.constraints) (parseCreate ts) := by
  unfold parseCreate
  refine E.next_bind hs ?_
  split
  · refine Sat.bind (parseCreateTable_sat E (by suff)) ?_
    rintro ⟨_, _⟩ ⟨_, h⟩
    dsimp only at *
    refine Sat.ok ⟨by suff, fun t ht => ?_⟩
    cases ht; exact h
  · split
    · refine Sat.bind (parseCreateIndex_sat E (by suff)) ?_
      rintro ⟨_, _⟩ _
      dsimp only at *
      exact Sat.ok ⟨by suff, fun t ht => by cases ht⟩
    · exact Sat.err (by simp)

/-- Parsing never runs out of fuel, panics only for the reasons of `Env`, and constraint names are unique in tables. -/
theorem parseTokens_sat (E : Env [.OPEN_PAREN, .COMMA, .CLOSE_PAREN] (· = .CHECK) pan ts) :
    Sat pan (fun l => ∀ s ∈ l, ∀ t, s = .createTable t → NodupNames t.constraints) (parseTokens parseCreate ts) :=
  Ddl.parseTokens_sat E (fun _ hs => parseCreate_sat E hs)

end
end Ddl.Sp
