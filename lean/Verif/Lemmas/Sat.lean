import Verif.ParserBase

/-!
# Reasoning about parsers: outcome predicate and proof automation

`Sat pan Q r`: `r` is not out of fuel, panics only if `pan`, a returned value satisfies `Q`, and an error is not
`ErrNoDifference`.
-/

namespace Ddl

def Sat {α : Type} (pan : Prop) (Q : α → Prop) : Res α → Prop
  | .ok a => Q a
  | .err e => e ≠ .noDifference
  | .panic _ => pan
  | .outOfFuel => False

section
variable {α β : Type} {pan : Prop} {Q : α → Prop} {R : β → Prop}

theorem Sat.ok {a : α} (h : Q a) : Sat pan Q (.ok a) := h

theorem Sat.err {e : Err} (h : e ≠ .noDifference) : Sat pan Q (.err e : Res α) := h

theorem Sat.panic {p : Panic} (h : pan) : Sat pan Q (.panic p : Res α) := h

theorem Sat.bind {r : Res α} {f : α → Res β} (h : Sat pan Q r) (hf : ∀ a, Q a → Sat pan R (f a)) :
    Sat pan R (r >>= f) := by
  cases r with
  | ok a => exact hf a h
  | err e => exact h
  | panic p => exact h
  | outOfFuel => exact h.elim

theorem Sat.and {Q' : α → Prop} {r : Res α} (h : Sat pan Q r) (h' : Sat pan Q' r) : Sat pan (fun a => Q a ∧ Q' a) r := by
  cases r with
  | ok a => exact ⟨h, h'⟩
  | err e => exact h
  | panic p => exact h
  | outOfFuel => exact h

theorem Sat.weaken {pan' : Prop} {r : Res α} (h : Sat pan Q r) (hp : pan → pan') : Sat pan' Q r := by
  cases r with
  | ok a => exact h
  | err e => exact h
  | panic p => exact hp h
  | outOfFuel => exact h

theorem Sat.imp {Q' : α → Prop} {r : Res α} (h : Sat pan Q r) (hq : ∀ a, Q a → Q' a) : Sat pan Q' r := by
  cases r with
  | ok a => exact hq a h
  | err e => exact h
  | panic p => exact h
  | outOfFuel => exact h

end

/-- What a parser may assume about the whole token list: if it contains the panic marker, or one of the keywords `heads` directly
followed by a token with `dt`, then panics are excused. -/
structure Env (heads : List TokType) (dt : TokType → Bool) (pan : Prop) (ts0 : List Token) : Prop where
  marker : (∃ t ∈ ts0, t.type = .PANIC) → pan
  head : ∀ s, s <:+ ts0 → curT s ∈ heads → dt (peekT s) = true → pan

theorem curT_mem {ts : List Token} {T : TokType} (h : curT ts = T) (hT : T ≠ .EOF) : ∃ t ∈ ts, t.type = T := by
  cases ts with
  | nil => exact absurd h.symm hT
  | cons t r => exact ⟨t, List.mem_cons_self, h⟩

theorem Env.next_panic {heads : List TokType} {dt : TokType → Bool} {pan : Prop} {ts0 ts : List Token} (E : Env heads dt pan ts0)
    (hs : ts <:+ ts0) (h : peekT ts.tail = .PANIC) : pan := by
  obtain ⟨t, ht, he⟩ := curT_mem h (by decide)
  exact E.marker ⟨t, hs.subset (List.mem_of_mem_tail (List.mem_of_mem_tail ht)), he⟩

section
variable {β : Type} {heads : List TokType} {dt : TokType → Bool} {pan : Prop} {ts0 ts : List Token} {R : β → Prop}

theorem Env.next (E : Env heads dt pan ts0) (hs : ts <:+ ts0) : Sat pan (fun ts' => ts' = ts.tail) (next ts) := by
  unfold Ddl.next
  split
  · exact E.next_panic hs (by assumption)
  · exact Sat.ok rfl

theorem Env.next_bind (E : Env heads dt pan ts0) (hs : ts <:+ ts0) {f : List Token → Res β} (h : Sat pan R (f ts.tail)) :
    Sat pan R (Ddl.next ts >>= f) :=
  (E.next hs).bind (fun _ he => he ▸ h)

theorem Sat.checkCur_bind {l : List TokType} {f : Unit → Res β} (h : curT ts ∈ l → Sat pan R (f ())) :
    Sat pan R (checkCur l ts >>= f) := by
  unfold checkCur; split
  · exact h (by assumption)
  · exact Sat.err (by simp)

theorem Sat.checkPeek_bind {l : List TokType} {f : Unit → Res β} (h : peekT ts ∈ l → Sat pan R (f ())) :
    Sat pan R (checkPeek l ts >>= f) := by
  unfold checkPeek; split
  · exact h (by assumption)
  · exact Sat.err (by simp)

end

theorem fuel_tail {ts ts' : List Token} {n : Nat} (hn : ts.length < n + 1) (h : ts' <:+ ts.tail) (hc : curT ts ≠ .EOF) :
    ts'.length < n := by
  have := h.length_le
  cases ts with
  | nil => exact absurd rfl hc
  | cons t r => simp at *; omega

theorem fuel_start {ts : List Token} : ts.length < ts.length + 1 := Nat.lt_succ_self _

theorem suffix_tail {l m : List Token} (h : l <:+ m) : l.tail <:+ m.tail := by
  rcases List.suffix_iff_eq_append.1 h with he
  cases l with
  | nil => simp
  | cons x l =>
    cases hm : m.take (m.length - (x :: l).length) with
    | nil => rw [hm] at he; rw [← he]; exact List.suffix_refl _
    | cons y r =>
      rw [hm] at he; rw [← he]
      exact ⟨r ++ [x], by simp⟩

/-- Solves goals `ts' <:+ ts` from a chain of suffix hypotheses. -/
syntax "suff" : tactic
macro_rules
  | `(tactic| suff) => `(tactic| first
    | exact List.suffix_refl _
    | assumption
    | (refine List.IsSuffix.trans (List.tail_suffix _) ?_; suff)
    | (apply List.IsSuffix.trans; assumption; suff)
    | (refine suffix_tail ?_; suff))

/-- Solves goals `curT ts ≠ .EOF` from hypotheses about `curT ts`. -/
macro "neof" : tactic => `(tactic| (intro he; simp_all (config := {decide := true})))

/-- Side conditions of recursive calls; extended where needed. -/
syntax "sat_side" : tactic
macro_rules | `(tactic| sat_side) => `(tactic| assumption)

/-- One known parser call; extended after each lemma. -/
syntax "sat_call" : tactic
set_option hygiene false in
macro_rules | `(tactic| sat_call) => `(tactic| (apply ih' <;> first | suff | sat_side | neof))

/-- One step through a parser body. -/
syntax "sat_step" : tactic
macro_rules
  | `(tactic| sat_step) => `(tactic| first
    | exact Sat.err (by simp)
    | (refine Sat.ok ?_; first | suff | exact ⟨by suff, by assumption⟩)
    | (refine Env.next_bind (by assumption) (by suff) ?_)
    | (refine Sat.checkCur_bind (fun _ => ?_))
    | (refine Sat.checkPeek_bind (fun _ => ?_))
    | (refine Sat.bind (by sat_call) ?_; rintro ⟨_, _⟩ _; try dsimp only at *)
    | sat_call
    | (refine Sat.imp (by sat_call) ?_; rintro ⟨_, _⟩ _; try dsimp only at *; suff)
    | split)

theorem parseIfNotExists_sat {heads : List TokType} {dt : TokType → Bool} {pan : Prop} {ts0 ts : List Token}
    (E : Env heads dt pan ts0) (hs : ts <:+ ts0) : Sat pan (fun r => r.2 <:+ ts) (parseIfNotExists ts) := by
  unfold parseIfNotExists
  repeat' sat_step
macro_rules | `(tactic| sat_call) => `(tactic| exact parseIfNotExists_sat (by assumption) (by suff))

macro "sat" : tactic => `(tactic| repeat' sat_step)


theorem parseLoop_sat {S : Type} {P : S → Prop} {create : List Token → Res (S × List Token)} {heads : List TokType}
    {dt : TokType → Bool} {pan : Prop} {ts0 ts : List Token} (E : Env heads dt pan ts0)
    (hc : ∀ ts, ts <:+ ts0 → Sat pan (fun r => r.2 <:+ ts.tail ∧ P r.1) (create ts)) {n : Nat} (hn : ts.length < n)
    (hs : ts <:+ ts0) : Sat pan (fun l => ∀ s ∈ l, P s) (parseLoop create n ts) := by
  induction n generalizing ts with
  | zero => omega
  | succ n ih =>
    have ih' : ∀ ts', ts' <:+ ts.tail → curT ts ≠ .EOF → Sat pan (fun l => ∀ s ∈ l, P s) (parseLoop create n ts') :=
      fun ts' h he => ih (fuel_tail hn h he) (by suff)
    unfold parseLoop
    split
    · refine (hc ts hs).bind ?_
      rintro ⟨stmt, ts1⟩ ⟨h1, h2⟩
      dsimp only at *
      refine E.next_bind (by suff) ?_
      refine (ih' _ (by suff) (by neof)).bind ?_
      intro l hl
      refine Sat.ok ?_
      intro s hs
      rcases List.mem_cons.1 hs with rfl | hs
      · exact h2
      · exact hl s hs
    · sat
      exact Sat.ok (by simp)

theorem parseTokens_sat {S : Type} {P : S → Prop} {create : List Token → Res (S × List Token)} {heads : List TokType}
    {dt : TokType → Bool} {pan : Prop} {ts : List Token} (E : Env heads dt pan ts)
    (hc : ∀ ts', ts' <:+ ts → Sat pan (fun r => r.2 <:+ ts'.tail ∧ P r.1) (create ts')) :
    Sat pan (fun l => ∀ s ∈ l, P s) (parseTokens create ts) := by
  unfold parseTokens start
  split
  · rename_i h
    refine E.marker ?_
    rcases h with h | h
    · exact curT_mem h (by decide)
    · obtain ⟨t, ht, he⟩ := curT_mem h (by decide)
      exact ⟨t, List.mem_of_mem_tail ht, he⟩
  · exact parseLoop_sat E hc fuel_start (List.suffix_refl _)

end Ddl
