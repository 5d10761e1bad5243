import Verif.Lemmas.LexAppend
import Verif.Lemmas.LexVisible

/-!
# Properties of tokenisation: C12 (token level), C39

The parse-level form of C12 is in `Verif/Props/Parsing.lean`.
-/

namespace Ddl.Props
open Ddl Spec

/-- C39/C12 basis: the lexer and the lexical grammar of `Verif/Spec/Lex.lean` agree on every text without an unterminated
quote: the tokens the lexer returns are *the* tokens that the text writes. -/
theorem C39_lexer_iff_grammar (d : Dialect) (s : Str) (ts : List Token) :
    Writes d true s ts ↔ (lex d s = ts ∧ ∀ t ∈ ts, t.type ≠ .PANIC) := by
  constructor
  · intro h
    refine ⟨lex_of_writes h, ?_⟩
    have hk : ∀ d ∈ [Dialect.postgres, .cockroachdb, .mysql, .spanner], ∀ p ∈ keywords d, p.2 ≠ .PANIC := by
      decide +kernel
    have hs : ∀ p ∈ symbols, p.2 ≠ .PANIC := by decide
    have hd : d ∈ [Dialect.postgres, .cockroachdb, .mysql, .spanner] := by cases d <;> decide
    intro t ht
    induction h with
    | nil => simp at ht
    | blank c s ts hc _ ih => exact ih ht
    | comment body s ts hb hs _ ih => exact ih ht
    | word w t' s ts hn hw hty hs' _ ih =>
      rcases List.mem_cons.1 ht with rfl | ht
      · rcases hty with h | h
        · exact hk d hd _ h
        · rw [h.1]; simp
      · exact ih ht
    | symbol c t' s ts hc hm _ ih =>
      rcases List.mem_cons.1 ht with rfl | ht
      · exact hs _ hc
      · exact ih ht
    | _ =>
      rename_i ih
      rcases List.mem_cons.1 ht with rfl | ht
      · simp
      · exact ih ht
  · rintro ⟨rfl, h⟩
    exact writes_of_lex d s h

/-- C39 (partial): if no quote is left open and every illegal character is ASCII, the literals of the tokens concatenated
in order are exactly the text without blanks, comments and NUL bytes.
Missing for the full claim: bytes >= 0x80 outside quotes and comments, see `C39_lossless_fails`. -/
theorem C39_lossless_partial (d : Dialect) (s : Str) (hq : ∀ t ∈ lex d s, t.type ≠ .PANIC)
    (ha : ∀ t ∈ lex d s, t.type = .ILLEGAL → ∀ c ∈ t.lit, c.toNat < 128) :
    ((lex d s).map (·.lit)).flatten = visible d .code s :=
  lits_of_writes (writes_of_lex d s hq) ha

example : (∀ t ∈ lex .postgres s%"a \"b -- c\" ?-- d\n||x", t.type ≠ .PANIC) ∧
    visible .postgres .code s%"a \"b -- c\" ?-- d\n||x" = s%"a\"b -- c\"?||x" := by decide

/-- C39 is violated by the code: a byte >= 0x80 outside quotes is re-encoded, so the token text is not the source text. -/
theorem C39_lossless_fails : ∃ s : Str, (∀ t ∈ lex .postgres s, t.type ≠ .PANIC) ∧
    ((lex .postgres s).map (·.lit)).flatten ≠ visible .postgres .code s :=
  ⟨[Char.ofNat 0xE9], by decide⟩

/-- C12 (token level): a run of blanks and comments `w` placed between a complete text `a` and any text `b` (so that
nothing is glued together with or without it) does not change the tokens. -/
theorem C12_blanks_lex (d : Dialect) (a w b : Str) (ts : List Token) (ha : Writes d false a ts) (hw : BlankRun w)
    (hab : NoMerge a b) (haw : NoMerge a w) : lex d (a ++ w ++ b) = lex d (a ++ b) := by
  rw [lex_append ha hab]
  by_cases hn : w = []
  · subst hn
    rw [List.append_nil, lex_append ha hab]
  · have haw' : NoMerge a (w ++ b) := by
      intro x y hx hy
      refine haw x y hx ?_
      cases w with
      | nil => exact absurd rfl hn
      | cons c r => simpa using hy
    rw [List.append_assoc, lex_append ha haw', lex_append (writes_blankRun hw) (noMerge_blankRun hw b)]
    rfl

/-- A non-trivial instance: a comment with SQL inside it, put behind a keyword. -/
example : lex .postgres (s%"CREATE" ++ s%" -- TABLE \"x\n\t" ++ s%" TABLE t ();") =
    lex .postgres (s%"CREATE" ++ s%" TABLE t ();") := by
  refine C12_blanks_lex .postgres s%"CREATE" s%" -- TABLE \"x\n\t" s%" TABLE t ();" [⟨.CREATE, s%"CREATE"⟩] ?_ ?_ ?_ ?_
  · exact .word s%"CREATE" .CREATE [] [] (by decide) (by decide) (Or.inl (by decide +kernel)) (by intro c _; simp [NotNext]) .nil
  · exact .blank _ _ (by decide) (.comment s%" TABLE \"x" s%"\t" (by decide) (.blank _ _ (by decide) .nil))
  · intro x y hx hy; cases hx; cases hy; decide
  · intro x y hx hy; cases hx; cases hy; decide

end Ddl.Props
