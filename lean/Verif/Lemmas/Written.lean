import Verif.Spec.Written
import Verif.Lemmas.Grammar
import Verif.Lemmas.LexSpec

/-! # Reading statements as they are written -/

set_option autoImplicit false

namespace Ddl
open Spec Spec.Written

/-- The statement is read from the tokens: up to its end, or up to the token before. -/
structure Consumes {S : Type} (create : List Token → Res (S × List Token)) (ts : List Token) (x : S) : Prop where
  first : ∀ r, curT (ts ++ r) = .CREATE
  reads : ∀ rest, NoPanic (ts ++ rest) → (rest = [] ∨ curT rest = .SEMICOLON) →
    ∃ r, create (ts ++ rest) = .ok (x, r) ∧ NoPanic r ∧ (r = rest ∨ ∃ k, r = k :: rest)

theorem writes_of_lex_eq {d : Dialect} {s : Str} {ts : List Token} (h : lex d s = ts) (hp : ∀ t ∈ ts, t.type ≠ .PANIC) : Writes d true s ts := by
  subst h
  exact writes_of_lex d s hp

theorem noPanic_of_writes {d : Dialect} {fin : Bool} {s : Str} {ts : List Token} (h : Writes d fin s ts) : NoPanic ts := by
  have nil : NoPanic [] := by simp [NoPanic]
  have cons : ∀ {t : Token} {b : List Token}, t.type ≠ .PANIC → NoPanic b → NoPanic (t :: b) := fun ha hb x hx => by
    rcases List.mem_cons.1 hx with rfl | h
    · exact ha
    · exact hb x h
  have key : ∀ p ∈ keywords d, p.2 ≠ .PANIC := by cases d <;> decide
  have sym : ∀ p ∈ symbols, p.2 ≠ .PANIC := by decide
  induction h with
  | nil => exact nil
  | blank _ _ _ _ _ ih => exact ih
  | comment _ _ _ _ _ _ ih => exact ih
  | word w t s ts _ _ ht _ _ ih =>
    refine cons ?_ ih
    rcases ht with h | ⟨rfl, _⟩
    · exact key _ h
    · simp
  | quoted _ _ _ _ _ _ _ _ _ ih => exact cons (by simp) ih
  | concat _ _ _ _ ih => exact cons (by simp) ih
  | pipe _ _ _ _ _ ih => exact cons (by simp) ih
  | annotation _ _ _ _ ih => exact cons (by simp) ih
  | typecast _ _ _ _ _ ih => exact cons (by simp) ih
  | colon _ _ _ _ _ ih => exact cons (by simp) ih
  | symbol c t s ts hc _ _ ih => exact cons (sym _ hc) ih
  | nul _ _ _ ih => exact cons (by simp) ih
  | illegal _ _ _ _ _ ih => exact cons (by simp) ih

theorem script_loop {S : Type} {create : List Token → Res (S × List Token)} {Statement : List Token → S → Prop}
    (hs : ∀ ts x, Statement ts x → Consumes create ts x) {ts : List Token} {l : List S} (h : Script Statement ts l) : NoPanic ts → ∀ n, ts.length + 1 ≤ n →
    parseLoop create n ts = .ok l := by
  induction h with
  | nil =>
    intro _ n hn
    obtain ⟨n, rfl⟩ : ∃ m, n = m + 1 := ⟨n - 1, by omega⟩
    rfl
  | last ts x h =>
    intro hp n hn
    have hc := hs _ _ h
    have h1 : 1 ≤ ts.length := by
      cases ts with
      | nil => exact absurd (hc.first []) (by decide)
      | cons => simp
    obtain ⟨n, rfl⟩ : ∃ m, n = m + 2 := ⟨n - 2, by omega⟩
    obtain ⟨r, e, hr, hr'⟩ := hc.reads [] (by simpa using hp) (.inl rfl)
    have hf := hc.first []
    simp only [List.append_nil] at e hf
    rw [parseLoop, if_pos hf, e]
    have : next r = .ok [] := by
      rw [hr.next]
      rcases hr' with rfl | ⟨k, rfl⟩ <;> rfl
    simp only [bind_ok, this]
    rfl
  | cons ts rest k x l h hk _ ih =>
    intro hp n hn
    have hc := hs _ _ h
    have h1 : 1 ≤ ts.length := by
      cases ts with
      | nil => exact absurd (hc.first []) (by decide)
      | cons => simp
    simp only [List.length_append, List.length_cons] at hn
    obtain ⟨n, rfl⟩ : ∃ m, n = m + 2 := ⟨n - 2, by omega⟩
    obtain ⟨r, e, hr, hr'⟩ := hc.reads (k :: rest) hp (.inr (by simp [hk]))
    rw [parseLoop, if_pos (hc.first _), e]
    rcases hr' with rfl | ⟨j, rfl⟩
    · simp [next_cons hr, ih hr.of_cons (n + 1) (by omega)]
    · simp only [bind_ok, next_cons hr]
      rw [parseLoop, if_neg (by simp [hk]), if_pos (by simp [hk]), next_cons hr.of_cons]
      simp [ih hr.of_cons.of_cons n (by omega)]

theorem script_read {S : Type} {create : List Token → Res (S × List Token)} {Statement : List Token → S → Prop}
    (hs : ∀ ts x, Statement ts x → Consumes create ts x) {ts : List Token} {l : List S} (h : Script Statement ts l) (hp : NoPanic ts) :
    parseTokens create ts = .ok l := by
  rw [parseTokens, hp.start]
  exact script_loop hs h hp _ (Nat.le_refl _)

end Ddl
