import Verif.Lemmas.OpenQuote
import Verif.Lemmas.Written

/-! # C11: texts with an open quote -/

set_option autoImplicit false

namespace Ddl.Props
open Ddl Spec

/-- C11 for PostgreSQL, the other side: whatever text is accepted follows the lexical grammar, so all its quotes are closed.  A text with an open quote
is never taken for a schema.  NUL bytes are left out: the parser stops there. -/
theorem C11_postgres_accepted (s : Str) (l : List Pg.PStmt) (h0 : ∀ c ∈ s, c ≠ nul) (h : Pg.parse s = .ok l) : ∃ ts, Writes .postgres true s ts :=
  OpenQuote.writes_of_ok (fun _ => Pg.parseTokens_open) h0 h

set_option maxRecDepth 4000 in
/-- The hypotheses can be met by a text with quotes; with one of them left open the text is not accepted. -/
example : (∀ c ∈ s%"CREATE TABLE \"t\" (a TEXT DEFAULT 'x')", c ≠ nul) ∧ (∃ t, Pg.parse s%"CREATE TABLE \"t\" (a TEXT DEFAULT 'x')" = .ok [.createTable t]) ∧
    Pg.parse s%"CREATE TABLE t (a TEXT DEFAULT 'x)" = .panic .sliceBounds :=
  ⟨by decide +kernel, ⟨_, rfl⟩, by decide +kernel⟩

/-- C11 for CockroachDB, the other side: whatever text is accepted follows the lexical grammar, so all its quotes are closed.  A text with an open quote
is never taken for a schema.  NUL bytes are left out: the parser stops there. -/
theorem C11_cockroachdb_accepted (s : Str) (l : List Crdb.CStmt) (h0 : ∀ c ∈ s, c ≠ nul) (h : Crdb.parse s = .ok l) : ∃ ts, Writes .cockroachdb true s ts :=
  OpenQuote.writes_of_ok (fun _ => Crdb.parseTokens_open) h0 h

set_option maxRecDepth 4000 in
/-- The hypotheses can be met by a text with quotes; with one of them left open the text is not accepted. -/
example : (∀ c ∈ s%"CREATE TABLE \"t\" (a STRING DEFAULT 'x')", c ≠ nul) ∧ (∃ t, Crdb.parse s%"CREATE TABLE \"t\" (a STRING DEFAULT 'x')" = .ok [.createTable t]) ∧
    Crdb.parse s%"CREATE TABLE t (a STRING DEFAULT 'x)" = .panic .sliceBounds :=
  ⟨by decide +kernel, ⟨_, rfl⟩, by decide +kernel⟩

/-- C11 for MySQL, the other side: whatever text is accepted follows the lexical grammar, so all its quotes are closed.  A text with an open quote
is never taken for a schema.  NUL bytes are left out: the parser stops there. -/
theorem C11_mysql_accepted (s : Str) (l : List My.MStmt) (h0 : ∀ c ∈ s, c ≠ nul) (h : My.parse s = .ok l) : ∃ ts, Writes .mysql true s ts :=
  OpenQuote.writes_of_ok (fun _ => My.parseTokens_open) h0 h

set_option maxRecDepth 4000 in
/-- The hypotheses can be met by a text with quotes; with one of them left open the text is not accepted. -/
example : (∀ c ∈ s%"CREATE TABLE `t` (a INT COMMENT 'x')", c ≠ nul) ∧ (∃ t, My.parse s%"CREATE TABLE `t` (a INT COMMENT 'x')" = .ok [.createTable t]) ∧
    My.parse s%"CREATE TABLE t (a INT COMMENT 'x)" = .panic .sliceBounds :=
  ⟨by decide +kernel, ⟨_, rfl⟩, by decide +kernel⟩

/-- C11 for Spanner, the other side: whatever text is accepted follows the lexical grammar, so all its quotes are closed.  A text with an open quote
is never taken for a schema.  NUL bytes are left out: the parser stops there. -/
theorem C11_spanner_accepted (s : Str) (l : List Sp.SStmt) (h0 : ∀ c ∈ s, c ≠ nul) (h : Sp.parse s = .ok l) : ∃ ts, Writes .spanner true s ts :=
  OpenQuote.writes_of_ok (fun _ => Sp.parseTokens_open) h0 h

set_option maxRecDepth 4000 in
/-- The hypotheses can be met by a text with quotes; with one of them left open the text is not accepted. -/
example : (∀ c ∈ s%"CREATE TABLE `t` (a STRING(8) DEFAULT ('x')) PRIMARY KEY (a)", c ≠ nul) ∧ (∃ t, Sp.parse s%"CREATE TABLE `t` (a STRING(8) DEFAULT ('x')) PRIMARY KEY (a)" = .ok [.createTable t]) ∧
    Sp.parse s%"CREATE TABLE t (a STRING(8) DEFAULT ('x)) PRIMARY KEY (a)" = .panic .sliceBounds :=
  ⟨by decide +kernel, ⟨_, rfl⟩, by decide +kernel⟩

/-- NUL bytes have to be left out: behind one, a quote may be open. -/
theorem C11_accepted_nul_fails : ¬ ∀ (s : Str) (l : List Pg.PStmt), Pg.parse s = .ok l → ∃ ts, Writes .postgres true s ts := by
  intro h
  obtain ⟨ts, hw⟩ := h [nul, 'a', 'b', '\''] [] (by decide +kernel)
  have := lex_of_writes hw
  have e : lex .postgres [nul, 'a', 'b', '\''] = [⟨.EOF, []⟩, ⟨.IDENT, s%"ab"⟩, ⟨.PANIC, []⟩] := by decide +kernel
  have hn := noPanic_of_writes hw
  rw [← this, e] at hn
  exact hn ⟨.PANIC, []⟩ (by simp) rfl

end Ddl.Props
