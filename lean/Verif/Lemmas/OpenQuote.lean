import Verif.Lemmas.KeepPg
import Verif.Lemmas.KeepCrdb
import Verif.Lemmas.KeepMy
import Verif.Lemmas.KeepSp
import Verif.Lemmas.Source

/-! # Texts with an open quote -/

set_option autoImplicit false

namespace Ddl
open Spec

namespace OpenQuote

theorem keywords_plain (d : Dialect) : ∀ x ∈ keywords d, x.2 ≠ .PANIC ∧ x.2 ≠ .EOF := by cases d <;> decide +kernel

theorem symbols_plain : ∀ x ∈ symbols, x.2 ≠ .PANIC ∧ x.2 ≠ .EOF := by decide +kernel

theorem readQuoted_suffix (q : Char) : ∀ (r b rest : Str), readQuoted q r = some (b, rest) → rest <:+ r := by
  intro r
  induction r with
  | nil => intro b rest h; cases h
  | cons c r ih =>
    intro b rest h
    rw [readQuoted] at h
    split at h
    · cases h; exact List.suffix_cons _ _
    · split at h
      · cases h
      · rename_i b' rs e
        cases h
        exact (ih _ _ e).trans (List.suffix_cons _ _)

theorem lexOp_suffix {d : Dialect} {c : Char} {r : Str} {x : Token × Str} (h : lexOp d c r = some x) :
    x.2 <:+ r ∧ x.1.type ≠ .PANIC ∧ x.1.type ≠ .EOF := by
  unfold lexOp at h
  split at h
  · simp at h
  · simp at h
  · split at h
    · split at h <;> (simp only [Option.some.injEq] at h; subst h; simp [newToken])
    · split at h
      · split at h <;> (simp only [Option.some.injEq] at h; subst h; simp [newToken])
        exact (List.suffix_cons _ _).trans (List.suffix_cons _ _)
      · simp at h

/-- A token: the lexer panics only at the end of the text, and finds an end only at a NUL byte. -/
theorem lexHead_ends (d : Dialect) (c : Char) (r : Str) (hc : c ≠ NUL) :
    (lexHead d c r).2 <:+ r ∧ ((lexHead d c r).1.type = .PANIC → (lexHead d c r).2 = []) ∧ (lexHead d c r).1.type ≠ .EOF := by
  unfold lexHead
  split
  · split
    · simp
    · rename_i b rest h
      exact ⟨readQuoted_suffix _ _ _ _ h, by simp, by simp⟩
  · split
    · rename_i x h
      obtain ⟨h1, h2, h3⟩ := lexOp_suffix h
      exact ⟨h1, fun h => absurd h h2, h3⟩
    · split
      · rename_i t h
        have := symbols_plain _ ((symbol_iff c t).1 h)
        exact ⟨List.suffix_refl _, fun h => absurd h this.1, this.2⟩
      · split
        · rename_i hl
          have hs : (readIdentifier (c :: r)).2 <:+ r := by
            simp only [readIdentifier, List.dropWhile_cons, hl, if_true]
            exact List.dropWhile_suffix _
          have : (lookupIdent d (readIdentifier (c :: r)).1) ≠ .PANIC ∧ (lookupIdent d (readIdentifier (c :: r)).1) ≠ .EOF := by
            rcases wordType_lookup d (readIdentifier (c :: r)).1 with hw | ⟨hw, -⟩
            · exact keywords_plain d _ hw
            · rw [hw]; simp
          exact ⟨hs, fun h => absurd h this.1, this.2⟩
        · exact ⟨List.suffix_refl _, by simp [newToken], by simp [newToken]⟩

theorem lexLoop_ends (d : Dialect) : ∀ (n : Nat) (s : Str), (∀ c ∈ s, c ≠ NUL) →
    (∀ t ∈ lexLoop d n s, t.type ≠ .EOF) ∧ ((∃ t ∈ lexLoop d n s, t.type = .PANIC) → ∃ t ∈ (lexLoop d n s).getLast?, t.type = .PANIC) := by
  intro n
  induction n with
  | zero => intro s _; simp [lexLoop]
  | succ n ih =>
    intro s h0
    have h0' : ∀ c ∈ skipWhitespace s, c ≠ NUL := fun c hc => h0 c ((List.dropWhile_suffix _).subset hc)
    rw [lexLoop]
    split
    · simp
    · rename_i c r e
      rw [e] at h0'
      split
      · exact ih _ fun c hc => h0' c ((List.dropWhile_suffix _).subset hc)
      · obtain ⟨h1, h2, h3⟩ := lexHead_ends d c r (h0' c (by simp))
        have ih := ih (lexHead d c r).2 fun x hx => h0' x (List.mem_cons_of_mem _ (h1.subset hx))
        dsimp only
        refine ⟨?_, ?_⟩
        · intro t ht
          rcases List.mem_cons.1 ht with rfl | ht
          · exact h3
          · exact ih.1 t ht
        · rintro ⟨t, ht, hp⟩
          rcases List.mem_cons.1 ht with rfl | ht
          · rw [h2 hp]
            refine ⟨_, ?_, hp⟩
            cases n <;> simp [lexLoop, skipWhitespace]
          · obtain ⟨u, hu, hq⟩ := ih.2 ⟨t, ht, hp⟩
            refine ⟨u, ?_, hq⟩
            cases hl : lexLoop d n (lexHead d c r).2 with
            | nil => rw [hl] at ht; cases ht
            | cons x y => rw [hl] at hu; rw [List.getLast?_cons_cons]; exact hu

/-- A text that is accepted has no open quote. -/
theorem writes_of_ok {S : Type} {create : List Token → Res (S × List Token)} {d : Dialect}
    (hc : ∀ ts, (∃ t ∈ ts.getLast?, t.type = .PANIC) → (∀ t ∈ ts, t.type ≠ .EOF) → Post (fun _ => False) (parseTokens create ts))
    {s : Str} {l : List S} (h0 : ∀ c ∈ s, c ≠ nul) (h : parseTokens create (lex d s) = .ok l) : ∃ ts, Writes d true s ts := by
  by_cases hp : ∃ t ∈ lex d s, t.type = .PANIC
  · obtain ⟨h1, h2⟩ := lexLoop_ends d (s.length + 1) s h0
    exact ((hc _ (h2 hp) h1).get h).elim
  · exact ⟨_, writes_of_lex d s fun t ht e => hp ⟨t, ht, e⟩⟩

end OpenQuote
end Ddl
