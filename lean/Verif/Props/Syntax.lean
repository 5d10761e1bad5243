import Verif.Lemmas.Grammar

/-! # Properties of the syntax the parsers accept: C37 -/

namespace Ddl.Props
open Ddl Spec
set_option autoImplicit false

/-! ## C37: trailing garbage is refused

The parsers of all dialects leave the token behind a `CREATE INDEX` statement current, and the loop of `Parse` skips it unseen.
So one garbage token is accepted (`C37_…_fails`), and everything behind it is checked (`C37_…_partial`). -/

/-- C37 fails for PostgreSQL: any token in place of the separator behind a `CREATE INDEX` gives the same result. -/
theorem C37_postgres_fails (s s' : Str) (idx rest : List Token) (x y : Token) (hi : CompleteIndex false idx)
    (hs : lex .postgres s = idx ++ x :: rest) (hs' : lex .postgres s' = idx ++ y :: rest)
    (hp : NoPanic (lex .postgres s)) (hp' : y.type ≠ .PANIC) : Pg.parse s = Pg.parse s' := by
  rw [hs] at hp
  have hq := noPanic_swap hp hp'
  obtain ⟨i, e⟩ := Pg.parseCreate_index hi
  rw [Pg.parse, Pg.parse, hs, hs', parseTokens_first hi.curT hp (e _ hp), parseTokens_first hi.curT hq (e _ hq)]
  simp

/-- The text `CREATE INDEX i ON t (a) junk` is accepted by the PostgreSQL parser, like the one with a semicolon. -/
example : lex .postgres s%"CREATE INDEX i ON t (a) junk" = lex .postgres s%"CREATE INDEX i ON t (a)" ++ ⟨.IDENT, s%"junk"⟩ :: [] ∧
    lex .postgres s%"CREATE INDEX i ON t (a);" = lex .postgres s%"CREATE INDEX i ON t (a)" ++ ⟨.SEMICOLON, s%";"⟩ :: [] ∧
    CompleteIndex false (lex .postgres s%"CREATE INDEX i ON t (a)") ∧
    ∃ l, Pg.parse s%"CREATE INDEX i ON t (a) junk" = .ok l ∧ l.length = 1 :=
  ⟨by decide +kernel, by decide +kernel, ⟨false, false, [none], by decide +kernel⟩, by
    exact ⟨_, rfl, rfl⟩⟩

/-- C37 for PostgreSQL, except the first token behind the statement: from the second one on, garbage is an error. 
Missing: the first token behind the statement, see `C37_postgres_fails`. -/
theorem C37_postgres_partial (s : Str) (idx rest : List Token) (x y : Token) (hi : CompleteIndex false idx)
    (hs : lex .postgres s = idx ++ x :: y :: rest) (hp : NoPanic (lex .postgres s))
    (hy : y.type ∉ [.CREATE, .CLOSE_PAREN, .SEMICOLON, .EOF]) : Pg.parse s = .err .unexpectedCurrentToken := by
  rw [hs] at hp
  obtain ⟨i, e⟩ := Pg.parseCreate_index hi
  rw [Pg.parse, hs, parseTokens_first hi.curT hp (e _ hp), parseLoop_garbage (by simp; omega) hy]
  rfl

example : lex .postgres s%"CREATE INDEX i ON t (a) some junk" =
      lex .postgres s%"CREATE INDEX i ON t (a)" ++ ⟨.IDENT, s%"some"⟩ :: ⟨.IDENT, s%"junk"⟩ :: [] ∧
    NoPanic (lex .postgres s%"CREATE INDEX i ON t (a) some junk") := by
  refine ⟨by decide +kernel, ?_⟩
  unfold NoPanic
  decide +kernel

/-- C37 fails for CockroachDB: any token in place of the separator behind a `CREATE INDEX` gives the same result. A `USING` clause may follow in this dialect, so `USING` is not garbage. -/
theorem C37_cockroachdb_fails (s s' : Str) (idx rest : List Token) (x y : Token) (hi : CompleteIndex true idx)
    (hs : lex .cockroachdb s = idx ++ x :: rest) (hs' : lex .cockroachdb s' = idx ++ y :: rest) (hx : x.type ≠ .USING) (hy : y.type ≠ .USING)
    (hp : NoPanic (lex .cockroachdb s)) (hp' : y.type ≠ .PANIC) : Crdb.parse s = Crdb.parse s' := by
  rw [hs] at hp
  have hq := noPanic_swap hp hp'
  obtain ⟨i, e⟩ := Crdb.parseCreate_index hi
  rw [Crdb.parse, Crdb.parse, hs, hs', parseTokens_first hi.curT hp (e _ hp (by simpa using hx)), parseTokens_first hi.curT hq (e _ hq (by simpa using hy))]
  simp

/-- The text `CREATE INDEX i ON t (a) junk` is accepted by the CockroachDB parser, like the one with a semicolon. -/
example : lex .cockroachdb s%"CREATE INDEX i ON t (a) junk" = lex .cockroachdb s%"CREATE INDEX i ON t (a)" ++ ⟨.IDENT, s%"junk"⟩ :: [] ∧
    lex .cockroachdb s%"CREATE INDEX i ON t (a);" = lex .cockroachdb s%"CREATE INDEX i ON t (a)" ++ ⟨.SEMICOLON, s%";"⟩ :: [] ∧
    CompleteIndex true (lex .cockroachdb s%"CREATE INDEX i ON t (a)") ∧
    ∃ l, Crdb.parse s%"CREATE INDEX i ON t (a) junk" = .ok l ∧ l.length = 1 :=
  ⟨by decide +kernel, by decide +kernel, ⟨false, false, [none], by decide +kernel⟩, by
    exact ⟨_, rfl, rfl⟩⟩

/-- C37 for CockroachDB, except the first token behind the statement: from the second one on, garbage is an error. A `USING` clause may follow in this dialect, so `USING` is not garbage. 
Missing: the first token behind the statement, see `C37_cockroachdb_fails`. -/
theorem C37_cockroachdb_partial (s : Str) (idx rest : List Token) (x y : Token) (hi : CompleteIndex true idx)
    (hs : lex .cockroachdb s = idx ++ x :: y :: rest) (hx : x.type ≠ .USING) (hp : NoPanic (lex .cockroachdb s))
    (hy : y.type ∉ [.CREATE, .CLOSE_PAREN, .SEMICOLON, .EOF]) : Crdb.parse s = .err .unexpectedCurrentToken := by
  rw [hs] at hp
  obtain ⟨i, e⟩ := Crdb.parseCreate_index hi
  rw [Crdb.parse, hs, parseTokens_first hi.curT hp (e _ hp (by simpa using hx)), parseLoop_garbage (by simp; omega) hy]
  rfl

example : lex .cockroachdb s%"CREATE INDEX i ON t (a) some junk" =
      lex .cockroachdb s%"CREATE INDEX i ON t (a)" ++ ⟨.IDENT, s%"some"⟩ :: ⟨.IDENT, s%"junk"⟩ :: [] ∧
    NoPanic (lex .cockroachdb s%"CREATE INDEX i ON t (a) some junk") := by
  refine ⟨by decide +kernel, ?_⟩
  unfold NoPanic
  decide +kernel

/-- C37 fails for MySQL: any token in place of the separator behind a `CREATE INDEX` gives the same result. -/
theorem C37_mysql_fails (s s' : Str) (idx rest : List Token) (x y : Token) (hi : CompleteIndex true idx)
    (hs : lex .mysql s = idx ++ x :: rest) (hs' : lex .mysql s' = idx ++ y :: rest)
    (hp : NoPanic (lex .mysql s)) (hp' : y.type ≠ .PANIC) : My.parse s = My.parse s' := by
  rw [hs] at hp
  have hq := noPanic_swap hp hp'
  obtain ⟨i, e⟩ := My.parseCreate_index hi
  rw [My.parse, My.parse, hs, hs', parseTokens_first hi.curT hp (e _ hp), parseTokens_first hi.curT hq (e _ hq)]
  simp

/-- The text `CREATE INDEX i ON t (a) junk` is accepted by the MySQL parser, like the one with a semicolon. -/
example : lex .mysql s%"CREATE INDEX i ON t (a) junk" = lex .mysql s%"CREATE INDEX i ON t (a)" ++ ⟨.IDENT, s%"junk"⟩ :: [] ∧
    lex .mysql s%"CREATE INDEX i ON t (a);" = lex .mysql s%"CREATE INDEX i ON t (a)" ++ ⟨.SEMICOLON, s%";"⟩ :: [] ∧
    CompleteIndex true (lex .mysql s%"CREATE INDEX i ON t (a)") ∧
    ∃ l, My.parse s%"CREATE INDEX i ON t (a) junk" = .ok l ∧ l.length = 1 :=
  ⟨by decide +kernel, by decide +kernel, ⟨false, false, [none], by decide +kernel⟩, by
    exact ⟨_, rfl, rfl⟩⟩

/-- C37 for MySQL, except the first token behind the statement: from the second one on, garbage is an error. 
Missing: the first token behind the statement, see `C37_mysql_fails`. -/
theorem C37_mysql_partial (s : Str) (idx rest : List Token) (x y : Token) (hi : CompleteIndex true idx)
    (hs : lex .mysql s = idx ++ x :: y :: rest) (hp : NoPanic (lex .mysql s))
    (hy : y.type ∉ [.CREATE, .CLOSE_PAREN, .SEMICOLON, .EOF]) : My.parse s = .err .unexpectedCurrentToken := by
  rw [hs] at hp
  obtain ⟨i, e⟩ := My.parseCreate_index hi
  rw [My.parse, hs, parseTokens_first hi.curT hp (e _ hp), parseLoop_garbage (by simp; omega) hy]
  rfl

example : lex .mysql s%"CREATE INDEX i ON t (a) some junk" =
      lex .mysql s%"CREATE INDEX i ON t (a)" ++ ⟨.IDENT, s%"some"⟩ :: ⟨.IDENT, s%"junk"⟩ :: [] ∧
    NoPanic (lex .mysql s%"CREATE INDEX i ON t (a) some junk") := by
  refine ⟨by decide +kernel, ?_⟩
  unfold NoPanic
  decide +kernel

/-- C37 fails for Spanner: any token in place of the separator behind a `CREATE INDEX` gives the same result. -/
theorem C37_spanner_fails (s s' : Str) (idx rest : List Token) (x y : Token) (hi : CompleteIndex true idx)
    (hs : lex .spanner s = idx ++ x :: rest) (hs' : lex .spanner s' = idx ++ y :: rest)
    (hp : NoPanic (lex .spanner s)) (hp' : y.type ≠ .PANIC) : Sp.parse s = Sp.parse s' := by
  rw [hs] at hp
  have hq := noPanic_swap hp hp'
  obtain ⟨i, e⟩ := Sp.parseCreate_index hi
  rw [Sp.parse, Sp.parse, hs, hs', parseTokens_first hi.curT hp (e _ hp), parseTokens_first hi.curT hq (e _ hq)]
  simp

/-- The text `CREATE INDEX i ON t (a) junk` is accepted by the Spanner parser, like the one with a semicolon. -/
example : lex .spanner s%"CREATE INDEX i ON t (a) junk" = lex .spanner s%"CREATE INDEX i ON t (a)" ++ ⟨.IDENT, s%"junk"⟩ :: [] ∧
    lex .spanner s%"CREATE INDEX i ON t (a);" = lex .spanner s%"CREATE INDEX i ON t (a)" ++ ⟨.SEMICOLON, s%";"⟩ :: [] ∧
    CompleteIndex true (lex .spanner s%"CREATE INDEX i ON t (a)") ∧
    ∃ l, Sp.parse s%"CREATE INDEX i ON t (a) junk" = .ok l ∧ l.length = 1 :=
  ⟨by decide +kernel, by decide +kernel, ⟨false, false, [none], by decide +kernel⟩, by
    exact ⟨_, rfl, rfl⟩⟩

/-- C37 for Spanner, except the first token behind the statement: from the second one on, garbage is an error. 
Missing: the first token behind the statement, see `C37_spanner_fails`. -/
theorem C37_spanner_partial (s : Str) (idx rest : List Token) (x y : Token) (hi : CompleteIndex true idx)
    (hs : lex .spanner s = idx ++ x :: y :: rest) (hp : NoPanic (lex .spanner s))
    (hy : y.type ∉ [.CREATE, .CLOSE_PAREN, .SEMICOLON, .EOF]) : Sp.parse s = .err .unexpectedCurrentToken := by
  rw [hs] at hp
  obtain ⟨i, e⟩ := Sp.parseCreate_index hi
  rw [Sp.parse, hs, parseTokens_first hi.curT hp (e _ hp), parseLoop_garbage (by simp; omega) hy]
  rfl

example : lex .spanner s%"CREATE INDEX i ON t (a) some junk" =
      lex .spanner s%"CREATE INDEX i ON t (a)" ++ ⟨.IDENT, s%"some"⟩ :: ⟨.IDENT, s%"junk"⟩ :: [] ∧
    NoPanic (lex .spanner s%"CREATE INDEX i ON t (a) some junk") := by
  refine ⟨by decide +kernel, ?_⟩
  unfold NoPanic
  decide +kernel

end Ddl.Props
