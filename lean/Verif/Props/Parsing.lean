import Verif.Lemmas.PgSat
import Verif.Lemmas.CrdbSat
import Verif.Lemmas.MySat
import Verif.Lemmas.SpSat
import Verif.Lemmas.LexAppend
import Verif.Spec.Tokens
import Verif.Props.Lexing

/-! # Properties of parsing: C10, C11, C12, C15 -/

set_option autoImplicit false

namespace Ddl.Props
open Ddl Spec

private theorem envTrue (heads : List TokType) (dt : TokType → Bool) (ts : List Token) : Env heads dt True ts :=
  ⟨fun _ => trivial, fun _ _ _ _ => trivial⟩

/-- C10: lexing and parsing terminate on every text in every dialect.  The loops of the model carry a bound on the number of
rounds; a larger bound does not change what the lexer returns, and the parsers never reach their bounds. -/
theorem C10_terminates (s : Str) :
    (∀ d n, s.length < n → lexLoop d n s = lex d s) ∧
    Pg.parse s ≠ .outOfFuel ∧ Crdb.parse s ≠ .outOfFuel ∧ My.parse s ≠ .outOfFuel ∧ Sp.parse s ≠ .outOfFuel := by
  refine ⟨fun d n h => lexLoop_fuel d n s h, ?_, ?_, ?_, ?_⟩
  · intro h
    have := Pg.parseTokens_sat (envTrue _ _ (lex .postgres s))
    rw [show parseTokens Pg.parseCreate (lex .postgres s) = .outOfFuel from h] at this
    exact this
  · intro h
    have := Crdb.parseTokens_sat (envTrue _ _ (lex .cockroachdb s))
    rw [show parseTokens Crdb.parseCreate (lex .cockroachdb s) = .outOfFuel from h] at this
    exact this
  · intro h
    have := My.parseTokens_sat (envTrue [] (fun _ => false) (lex .mysql s))
    rw [show parseTokens My.parseCreate (lex .mysql s) = .outOfFuel from h] at this
    exact this
  · intro h
    have := Sp.parseTokens_sat (envTrue _ _ (lex .spanner s))
    rw [show parseTokens Sp.parseCreate (lex .spanner s) = .outOfFuel from h] at this
    exact this

/-- Nested parentheses, which the parsers read recursively. -/
example : (Pg.parse s%"CREATE TABLE t (a INTEGER CHECK ((a > (1)) AND (((a)) < 3)), b TEXT);").isOk = true ∧
    Pg.parse s%"CREATE TABLE t (a INTEGER CHECK ((a > (1))" = .err .unexpectedCurrentToken := by
  decide +kernel

private theorem env_of (heads : List TokType) (dt : TokType → Bool) (types : List TokType)
    (hdt : ∀ t, dt t = true → t ∈ types) (hh : .EOF ∉ heads) (hty : .EOF ∉ types) (d : Dialect) (s : Str) (ts : List Token)
    (hw : Writes d true s ts) (hf : ¬ Follows ts heads types) : Env heads dt False ts := by
  refine ⟨?_, ?_⟩
  · rintro ⟨t, ht, he⟩
    exact ((C39_lexer_iff_grammar d s ts).1 hw).2 t ht he
  · rintro suf ⟨l, rfl⟩ h1 h2
    cases suf with
    | nil => exact hh h1
    | cons x suf =>
      cases suf with
      | nil => exact hty (hdt _ h2)
      | cons y r => exact hf ⟨l, x, y, r, rfl, h1, hdt _ h2⟩

/-- C11 (partial, PostgreSQL): a text that follows the lexical grammar and has no type keyword directly behind `DEFAULT`
makes the parser return a DDL or an error.  Missing: the other texts, see `C11_postgres_panics`. -/
theorem C11_postgres_no_panic_partial (s : Str) (ts : List Token) (hw : Writes .postgres true s ts)
    (hf : ¬ Follows ts [.DEFAULT] pgTypes) : (∃ l, Pg.parse s = .ok l) ∨ ∃ e, Pg.parse s = .err e := by
  have E := env_of [.DEFAULT] Pg.isDataType pgTypes (by intro t; simp [Pg.isDataType, pgTypes]) (by decide) (by decide)
    .postgres s ts hw hf
  have := Pg.parseTokens_sat E
  unfold Pg.parse
  rw [lex_of_writes hw]
  revert this
  cases parseTokens Pg.parseCreate ts with
  | ok l => exact fun _ => .inl ⟨l, rfl⟩
  | err e => exact fun _ => .inr ⟨e, rfl⟩
  | panic p => exact fun h => h.elim
  | outOfFuel => exact fun h => h.elim

/-- C11 (partial, CockroachDB): as for PostgreSQL, and no type keyword directly behind `AS`, `STORED` or `VIRTUAL`.
Missing: the other texts, see `C11_cockroachdb_panics`. -/
theorem C11_cockroachdb_no_panic_partial (s : Str) (ts : List Token) (hw : Writes .cockroachdb true s ts)
    (hf : ¬ Follows ts [.DEFAULT, .AS, .STORED, .VIRTUAL] crdbTypes) :
    (∃ l, Crdb.parse s = .ok l) ∨ ∃ e, Crdb.parse s = .err e := by
  have E := env_of [.DEFAULT, .AS, .STORED, .VIRTUAL] Crdb.isDataType crdbTypes (by intro t; simp [Crdb.isDataType, crdbTypes])
    (by decide) (by decide) .cockroachdb s ts hw hf
  have := Crdb.parseTokens_sat E
  unfold Crdb.parse
  rw [lex_of_writes hw]
  revert this
  cases parseTokens Crdb.parseCreate ts with
  | ok l => exact fun _ => .inl ⟨l, rfl⟩
  | err e => exact fun _ => .inr ⟨e, rfl⟩
  | panic p => exact fun h => h.elim
  | outOfFuel => exact fun h => h.elim

/-- C11 (partial, MySQL): a text that follows the lexical grammar makes the parser return a DDL or an error.
Missing: unterminated quotes, see `C11_mysql_panics`. -/
theorem C11_mysql_no_panic_partial (s : Str) (ts : List Token) (hw : Writes .mysql true s ts) :
    (∃ l, My.parse s = .ok l) ∨ ∃ e, My.parse s = .err e := by
  have E := env_of [] (fun _ => false) [] (by simp) (by simp) (by simp) .mysql s ts hw (by rintro ⟨_, _, _, _, _, h, _⟩; simp at h)
  have := My.parseTokens_sat E
  unfold My.parse
  rw [lex_of_writes hw]
  revert this
  cases parseTokens My.parseCreate ts with
  | ok l => exact fun _ => .inl ⟨l, rfl⟩
  | err e => exact fun _ => .inr ⟨e, rfl⟩
  | panic p => exact fun h => h.elim
  | outOfFuel => exact fun h => h.elim

/-- C11 (partial, Spanner): a text that follows the lexical grammar and has no `CHECK` directly behind a parenthesis or comma (where
it would be an unnamed table constraint) makes the parser return a DDL or an error.
Missing: the other texts, see `C11_spanner_panics`. -/
theorem C11_spanner_no_panic_partial (s : Str) (ts : List Token) (hw : Writes .spanner true s ts)
    (hf : ¬ Follows ts [.OPEN_PAREN, .COMMA, .CLOSE_PAREN] [.CHECK]) :
    (∃ l, Sp.parse s = .ok l) ∨ ∃ e, Sp.parse s = .err e := by
  have E := env_of [.OPEN_PAREN, .COMMA, .CLOSE_PAREN] (· = .CHECK) [.CHECK] (by intro t; simp) (by decide) (by decide)
    .spanner s ts hw hf
  have := Sp.parseTokens_sat E
  unfold Sp.parse
  rw [lex_of_writes hw]
  revert this
  cases parseTokens Sp.parseCreate ts with
  | ok l => exact fun _ => .inl ⟨l, rfl⟩
  | err e => exact fun _ => .inr ⟨e, rfl⟩
  | panic p => exact fun h => h.elim
  | outOfFuel => exact fun h => h.elim

private def follows (A B : List TokType) : List Token → Bool
  | x :: y :: r => (decide (x.type ∈ A) && decide (y.type ∈ B)) || follows A B (y :: r)
  | _ => false

private theorem follows_of {A B : List TokType} {ts : List Token} (h : follows A B ts = false) : ¬ Follows ts A B := by
  rintro ⟨l, x, y, r, rfl, h1, h2⟩
  induction l with
  | nil => simp [follows, h1, h2] at h
  | cons z l ih =>
    cases l with
    | nil =>
      refine ih ?_
      have : follows A B (z :: x :: y :: r) = false := h
      rw [follows, Bool.or_eq_false_iff] at this
      exact this.2
    | cons w l => simp only [List.cons_append, follows, Bool.or_eq_false_iff] at h; exact ih h.2

/-- The hypotheses hold for a text with default, casts, quotes, comment and check constraints; and for malformed ones. -/
example : ∀ s ∈ [s%"CREATE TABLE t (a TEXT DEFAULT 'x'::TEXT CHECK (a <> ''), \"b\" INT); -- c\nCREATE INDEX i ON t (a)",
      s%"CREATE TABLE ( , DEFAULT ("],
    (∃ ts, Writes .postgres true s ts ∧ ¬ Follows ts [.DEFAULT] pgTypes) := by
  intro s hs
  have : (∀ t ∈ lex .postgres s, t.type ≠ .PANIC) ∧ follows [.DEFAULT] pgTypes (lex .postgres s) = false := by
    revert s; decide +kernel
  exact ⟨_, writes_of_lex .postgres s this.1, follows_of this.2⟩

example : ∃ ts, Writes .cockroachdb true s%"CREATE TABLE t (a INT8 AS (b + 1) STORED, b INT8 DEFAULT 1:::INT8)" ts ∧
    ¬ Follows ts [.DEFAULT, .AS, .STORED, .VIRTUAL] crdbTypes :=
  ⟨_, writes_of_lex .cockroachdb _ (by decide +kernel), follows_of (by decide +kernel)⟩

example : ∃ ts, Writes .spanner true s%"CREATE TABLE t (a STRING(10) NOT NULL, CONSTRAINT c CHECK (a > 1)) PRIMARY KEY (a)" ts ∧
    ¬ Follows ts [.OPEN_PAREN, .COMMA, .CLOSE_PAREN] [.CHECK] :=
  ⟨_, writes_of_lex .spanner _ (by decide +kernel), follows_of (by decide +kernel)⟩

/-- C11 is violated (PostgreSQL): an unterminated quote and a type keyword directly behind `DEFAULT` crash the parser. -/
theorem C11_postgres_panics :
    Pg.parse s%"CREATE TABLE \"t" = .panic .sliceBounds ∧
    Pg.parse s%"CREATE TABLE t (a TEXT DEFAULT TEXT)" = .panic .nilDeref := by
  decide +kernel

/-- C11 is violated (CockroachDB): as for PostgreSQL, and a type keyword directly behind `AS`, or behind `STORED` following `AS`. -/
theorem C11_cockroachdb_panics :
    Crdb.parse s%"CREATE TABLE \"t" = .panic .sliceBounds ∧
    Crdb.parse s%"CREATE TABLE t (a STRING DEFAULT STRING)" = .panic .nilDeref ∧
    Crdb.parse s%"CREATE TABLE t (a STRING AS STRING)" = .panic .nilDeref ∧
    Crdb.parse s%"CREATE TABLE t (a STRING AS STORED STRING)" = .panic .nilDeref := by
  decide +kernel

/-- C11 is violated (MySQL): an unterminated quote crashes the parser. -/
theorem C11_mysql_panics : My.parse s%"CREATE TABLE `t" = .panic .sliceBounds := by decide +kernel

/-- C11 is violated (Spanner): an unterminated quote, and an unnamed table-level `CHECK` beside another constraint. -/
theorem C11_spanner_panics :
    Sp.parse s%"CREATE TABLE `t" = .panic .sliceBounds ∧
    Sp.parse s%"CREATE TABLE t (a INT64, CHECK (a > 1), CHECK (a < 9)) PRIMARY KEY (a)" = .panic .nilDeref := by
  decide +kernel

/-- C12: a run of blanks and comments `w` between a complete text `a` and any text `b` (so that nothing is glued together with or
without it) does not change what is parsed. -/
theorem C12_blanks (a w b : Str) (hw : BlankRun w) (hab : NoMerge a b) (haw : NoMerge a w) :
    ((∃ ts, Writes .postgres false a ts) → Pg.parse (a ++ w ++ b) = Pg.parse (a ++ b)) ∧
    ((∃ ts, Writes .cockroachdb false a ts) → Crdb.parse (a ++ w ++ b) = Crdb.parse (a ++ b)) ∧
    ((∃ ts, Writes .mysql false a ts) → My.parse (a ++ w ++ b) = My.parse (a ++ b)) ∧
    ((∃ ts, Writes .spanner false a ts) → Sp.parse (a ++ w ++ b) = Sp.parse (a ++ b)) := by
  refine ⟨?_, ?_, ?_, ?_⟩ <;> rintro ⟨ts, ha⟩
  · unfold Pg.parse; rw [C12_blanks_lex _ a w b ts ha hw hab haw]
  · unfold Crdb.parse; rw [C12_blanks_lex _ a w b ts ha hw hab haw]
  · unfold My.parse; rw [C12_blanks_lex _ a w b ts ha hw hab haw]
  · unfold Sp.parse; rw [C12_blanks_lex _ a w b ts ha hw hab haw]

/-- C12, at the end of the text: a comment that is not closed by a line break changes nothing either. -/
theorem C12_final_comment (a body : Str) (hb : ∀ c ∈ body, c ≠ '\n' ∧ c ≠ nul) (hm : a.getLast? ≠ some '-') :
    ((∃ ts, Writes .postgres false a ts) → Pg.parse (a ++ s%"--" ++ body) = Pg.parse a) ∧
    ((∃ ts, Writes .cockroachdb false a ts) → Crdb.parse (a ++ s%"--" ++ body) = Crdb.parse a) ∧
    ((∃ ts, Writes .mysql false a ts) → My.parse (a ++ s%"--" ++ body) = My.parse a) ∧
    ((∃ ts, Writes .spanner false a ts) → Sp.parse (a ++ s%"--" ++ body) = Sp.parse a) := by
  have key : ∀ d ts, Writes d false a ts → lex d (a ++ s%"--" ++ body) = lex d a := by
    intro d ts ha
    have hc : Writes d true (s%"--" ++ body ++ []) [] := .comment body [] [] hb (.inr (.inr ⟨rfl, rfl⟩)) .nil
    have hn : NoMerge a (s%"--" ++ body ++ []) := by
      intro x y hx hy
      cases hy
      refine ⟨?_, ?_, by simp, by simp⟩
      · rintro ⟨_, h⟩; revert h; unfold WordChar; decide
      · rintro ⟨rfl, _⟩; exact hm hx
    have h1 := lex_append ha hn
    rw [lex_of_writes hc] at h1
    rw [lex_of_writes ha]
    simpa using h1
  refine ⟨?_, ?_, ?_, ?_⟩ <;> rintro ⟨ts, ha⟩
  · unfold Pg.parse; rw [key _ ts ha]
  · unfold Crdb.parse; rw [key _ ts ha]
  · unfold My.parse; rw [key _ ts ha]
  · unfold Sp.parse; rw [key _ ts ha]

/-- Any text that follows the lexical grammar is complete once a line break is put behind it. -/
example : ∃ ts, Writes .postgres false s%"CREATE TABLE t (a INT DEFAULT '--'); -- x;\n" ts :=
  ⟨_, (writes_of_lex .postgres s%"CREATE TABLE t (a INT DEFAULT '--'); -- x;" (by decide +kernel)).newline⟩

/-- C15 (first half): in every table returned by a parser no two constraints share a name. -/
theorem C15_unique_names (s : Str) :
    (∀ l t, Pg.parse s = .ok l → .createTable t ∈ l → (t.constraints.map (fun c => c.name.name)).Nodup) ∧
    (∀ l t, Crdb.parse s = .ok l → .createTable t ∈ l → (t.constraints.map (fun c => c.name.name)).Nodup) ∧
    (∀ l t, My.parse s = .ok l → .createTable t ∈ l → (t.constraints.map (fun c => c.name.name)).Nodup) ∧
    (∀ l t, Sp.parse s = .ok l → .createTable t ∈ l → (t.constraints.map (fun c => c.name.map (·.name))).Nodup) := by
  refine ⟨?_, ?_, ?_, ?_⟩ <;> intro l t h ht
  · have := Pg.parseTokens_sat (envTrue _ _ (lex .postgres s))
    rw [show parseTokens Pg.parseCreate (lex .postgres s) = .ok l from h] at this
    exact this _ ht t rfl
  · have := Crdb.parseTokens_sat (envTrue _ _ (lex .cockroachdb s))
    rw [show parseTokens Crdb.parseCreate (lex .cockroachdb s) = .ok l from h] at this
    exact this _ ht t rfl
  · have := My.parseTokens_sat (envTrue [] (fun _ => false) (lex .mysql s))
    rw [show parseTokens My.parseCreate (lex .mysql s) = .ok l from h] at this
    exact this _ ht t rfl
  · have := Sp.parseTokens_sat (envTrue _ _ (lex .spanner s))
    rw [show parseTokens Sp.parseCreate (lex .spanner s) = .ok l from h] at this
    exact this _ ht t rfl

/-- A text in which a name is given to three constraints; the last one is kept. -/
example : (match Pg.parse s%"CREATE TABLE t (a INT, CONSTRAINT c UNIQUE (b), UNIQUE (a), CONSTRAINT c PRIMARY KEY (a), CONSTRAINT c UNIQUE (a));" with
    | .ok [.createTable t] => t.constraints.map Pg.Constraint.str
    | _ => []) = [s%"CONSTRAINT c UNIQUE (a)", s%"CONSTRAINT t_unique_a UNIQUE (a)"] := by
  decide +kernel

end Ddl.Props
