import Verif.Lemmas.Post
import Verif.Lemmas.LexSpec
import Verif.Lemmas.AheadLoop

/-! # What holds of the tokens left, as long as the parser goes on -/

set_option autoImplicit false

namespace Ddl
open Spec

/-- KeptByNext by every step to the next token. -/
def KeptByNext (J : List Token → Prop) : Prop := ∀ ts r, J ts → next ts = .ok r → J r

section
variable {β : Type} {R : β → Prop} {J : List Token → Prop} {ts : List Token}

theorem KeptByNext.next_bind (hJ : KeptByNext J) (h : J ts) {f : List Token → Res β} (hf : J ts.tail → Post R (f ts.tail)) : Post R (next ts >>= f) := by
  cases e : next ts with
  | ok r =>
    have hr : r = ts.tail := by
      unfold next at e
      split at e
      · cases e
      · cases e; rfl
    subst hr
    exact hf (hJ ts _ h e)
  | err _ => exact trivial
  | panic _ => exact trivial
  | outOfFuel => exact trivial

end

/-- A known call with two, three or four results; extended after each lemma. -/
syntax "keep_call" : tactic
@[inherit_doc tacticKeep_call]
syntax "keep_call3" : tactic
@[inherit_doc tacticKeep_call]
syntax "keep_call4" : tactic
set_option hygiene false in
macro_rules | `(tactic| keep_call) => `(tactic| (apply ih; assumption))
set_option hygiene false in
macro_rules | `(tactic| keep_call3) => `(tactic| (apply ih3; assumption))
macro_rules | `(tactic| keep_call4) => `(tactic| fail)

/-- One step through a parser body. -/
syntax "keep_step" : tactic
macro_rules
  | `(tactic| keep_step) => `(tactic| first
    | exact trivial
    | exact Post.ok (by assumption)
    | refine KeptByNext.next_bind (by assumption) (by assumption) (fun _ => ?_)
    | refine Post.checkCur_bind (fun _ => ?_)
    | refine Post.checkPeek_bind (fun _ => ?_)
    | (refine Post.bind (by keep_call4) ?_; rintro ⟨_, _, _, _⟩ _; try dsimp only at *)
    | (refine Post.bind (by keep_call3) ?_; rintro ⟨_, _, _⟩ _; try dsimp only at *)
    | (refine Post.bind (by keep_call) ?_; rintro ⟨_, _⟩ _; try dsimp only at *)
    | keep_call
    | keep_call3
    | split)

macro "keep" : tactic => `(tactic| repeat' keep_step)

theorem parseIfNotExists_keep {J : List Token → Prop} (hJ : KeptByNext J) {ts : List Token} (h : J ts) : Post (fun r => J r.2) (parseIfNotExists ts) := by
  unfold parseIfNotExists
  keep
macro_rules | `(tactic| keep_call) => `(tactic| exact parseIfNotExists_keep (by assumption) (by assumption))

/-- A panic behind at least two tokens, none of which is an end. -/
def Trapped (ts : List Token) : Prop := 3 ≤ ts.length ∧ (∃ t ∈ ts.getLast?, t.type = .PANIC) ∧ ∀ t ∈ ts, t.type ≠ .EOF

theorem trapped_kept : KeptByNext Trapped := by
  rintro ts r ⟨h1, ⟨t, h2, h3⟩, h4⟩ e
  unfold next at e
  split at e
  · cases e
  · rename_i hp
    cases e
    match ts, h1 with
    | [a, b, c], _ =>
      simp at h2
      subst h2
      exact absurd h3 hp
    | a :: b :: c :: x :: r, _ =>
      refine ⟨by simp, ⟨t, ?_, h3⟩, fun t ht => h4 t (List.mem_cons_of_mem _ ht)⟩
      simpa using h2

theorem parseLoop_trapped {S : Type} {create : List Token → Res (S × List Token)}
    (hc : ∀ ts, Trapped ts → Post (fun r => Trapped r.2) (create ts)) (n : Nat) :
    ∀ ts, Trapped ts → Post (fun _ => False) (parseLoop create n ts) := by
  induction n with
  | zero => exact fun _ _ => trivial
  | succ n ih =>
    intro ts h
    unfold parseLoop
    split
    · refine (hc ts h).bind ?_
      rintro ⟨s, r⟩ h
      refine trapped_kept.next_bind h fun h => (ih _ h).bind fun _ h => h.elim
    · split
      · exact trapped_kept.next_bind h fun h => ih _ h
      · split
        · rename_i he
          obtain ⟨h1, -, h4⟩ := h
          cases ts with
          | nil => simp at h1
          | cons t r => exact absurd he (h4 t (by simp))
        · exact trivial

theorem parseTokens_trapped {S : Type} {create : List Token → Res (S × List Token)}
    (hc : ∀ ts, Trapped ts → Post (fun r => Trapped r.2) (create ts)) {ts : List Token} (h2 : ∃ t ∈ ts.getLast?, t.type = .PANIC)
    (h4 : ∀ t ∈ ts, t.type ≠ .EOF) : Post (fun _ => False) (parseTokens create ts) := by
  unfold parseTokens start
  split
  · exact trivial
  · rename_i hp
    obtain ⟨t, h2, h3⟩ := h2
    refine parseLoop_trapped hc _ ts ⟨?_, ⟨t, h2, h3⟩, h4⟩
    match ts with
    | [] => cases h2
    | [a] => simp at h2; subst h2; exact absurd (.inl h3) hp
    | [a, b] => simp at h2; subst h2; exact absurd (.inr h3) hp
    | _ :: _ :: _ :: _ => simp

end Ddl
