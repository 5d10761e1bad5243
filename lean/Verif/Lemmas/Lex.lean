import Verif.Lexer

/-! # Lemmas about the lexer -/

namespace Ddl

theorem length_dropWhile_le {α : Type} (p : α → Bool) (l : List α) : (l.dropWhile p).length ≤ l.length :=
  (List.dropWhile_sublist p).length_le

theorem readQuoted_length (q : Char) : ∀ (s body rest : Str), readQuoted q s = some (body, rest) →
    rest.length < s.length
  | [], _, _, h => by simp [readQuoted] at h
  | c :: r, body, rest, h => by
    rw [readQuoted] at h
    split at h
    · simp only [Option.some.injEq, Prod.mk.injEq] at h
      simp [← h.2]
    · split at h
      · simp at h
      · rename_i b rs heq
        simp only [Option.some.injEq, Prod.mk.injEq] at h
        have := readQuoted_length q r b rs heq
        simp only [List.length_cons]
        rw [← h.2]; omega

theorem lexOp_length (d : Dialect) (c : Char) (r : Str) (x : Token × Str) (h : lexOp d c r = some x) :
    x.2.length ≤ r.length := by
  unfold lexOp at h
  split at h
  · simp at h
  · simp at h
  · split at h
    · split at h <;> (simp only [Option.some.injEq] at h; subst h; simp)
    · split at h
      · split at h <;> (simp only [Option.some.injEq] at h; subst h; simp; try omega)
      · simp at h

theorem lexHead_length (d : Dialect) (c : Char) (r : Str) : (lexHead d c r).2.length ≤ r.length := by
  unfold lexHead
  split
  · split
    · simp
    · rename_i body rest h
      have := readQuoted_length c r body rest h
      simp only; omega
  · split
    · rename_i x h
      exact lexOp_length d c r x h
    · split
      · simp
      · split
        · simp
        · split
          · rename_i hl
            simp only [readIdentifier, List.dropWhile_cons, hl, if_true]
            exact length_dropWhile_le _ _
          · simp

theorem lexLoop_fuel_aux (d : Dialect) : ∀ (n m : Nat) (s : Str), s.length < n → s.length < m →
    lexLoop d n s = lexLoop d m s
  | 0, _, _, h, _ => absurd h (Nat.not_lt_zero _)
  | _, 0, _, _, h => absurd h (Nat.not_lt_zero _)
  | n + 1, m + 1, s, hn, hm => by
    rw [lexLoop, lexLoop]
    have hl := length_dropWhile_le isWs s
    split
    · rfl
    · rename_i c r heq
      unfold skipWhitespace at heq
      rw [heq, List.length_cons] at hl
      split
      · rename_i hc
        have h2 : (skipComment (c :: r)).length ≤ r.length := by
          simp only [skipComment, List.dropWhile_cons]
          have : (c != '\n' && c != NUL) = true := by rw [hc.1]; decide
          rw [if_pos this]
          exact length_dropWhile_le _ _
        exact lexLoop_fuel_aux d n m _ (by omega) (by omega)
      · have h3 := lexHead_length d c r
        simp only
        rw [lexLoop_fuel_aux d n m _ (by omega) (by omega)]

/-- The fuel of `lex` never runs out: any larger amount gives the same tokens. -/
theorem lexLoop_fuel (d : Dialect) (n : Nat) (s : Str) (h : s.length < n) : lexLoop d n s = lex d s :=
  lexLoop_fuel_aux d n _ s h (Nat.lt_succ_self _)

@[simp] theorem lex_nil (d : Dialect) : lex d [] = [] := rfl

theorem lex_ws (d : Dialect) (c : Char) (r : Str) (h : isWs c = true) : lex d (c :: r) = lex d r := by
  rw [← lexLoop_fuel d ((c :: r).length + 1) r (by simp; omega)]
  rw [lex, lexLoop, lexLoop]
  simp [skipWhitespace, h]

theorem lex_comment (d : Dialect) (r : Str) : lex d ('-' :: '-' :: r) = lex d (skipComment r) := by
  have hlen : (skipComment r).length ≤ r.length := length_dropWhile_le _ _
  rw [← lexLoop_fuel d ('-' :: '-' :: r).length (skipComment r) (by simp; omega)]
  rw [lex, lexLoop]
  have hw : isWs '-' = false := by decide
  have e : skipWhitespace ('-' :: '-' :: r) = '-' :: '-' :: r := by simp [skipWhitespace, hw]
  have e2 : skipComment ('-' :: '-' :: r) = skipComment r := by
    have : ('-' != '\n' && '-' != NUL) = true := by decide
    simp only [skipComment, List.dropWhile_cons, this, if_true]
  rw [e]
  simp only [List.head?_cons, and_self, if_true, e2]

theorem lex_tok (d : Dialect) (c : Char) (r : Str) (hw : isWs c = false) (hc : ¬ (c = '-' ∧ r.head? = some '-')) :
    lex d (c :: r) = (lexHead d c r).1 :: lex d (lexHead d c r).2 := by
  have hlen := lexHead_length d c r
  rw [← lexLoop_fuel d (c :: r).length (lexHead d c r).2 (by simp; omega)]
  rw [lex, lexLoop]
  have e : skipWhitespace (c :: r) = c :: r := by simp [skipWhitespace, hw]
  rw [e]
  simp only [hc, if_false]

end Ddl
