import Verif.Lemmas.Follow
import Verif.Lemmas.Variants
import Verif.Lemmas.DecideApply

/-!
# Statements are read independently of what precedes and follows them: C55
-/

namespace Ddl.Props
open Ddl Spec
set_option autoImplicit false

/-! ## PostgreSQL -/

/-- C55 (PostgreSQL), partial: if `a` is read as the statements `A`, then `a`, a semicolon and `b` are read as `A` followed by what `b` alone is
read as, with the same outcome.  `Writes .postgres false a ts` says that the quotes of `a` are closed and that `a` does not end within a
comment.  Missing: texts `a` with the byte 0, for which it fails (`C55_postgres_nul_fails`), and texts `b` that make the parser panic. -/
theorem C55_postgres_partial (a b : Str) (ts : List Token) (A : List Pg.PStmt) (hw : Writes .postgres false a ts) (h0 : ∀ c ∈ a, c ≠ nul)
    (ha : Pg.parse a = .ok A) (hb : ∀ p, Pg.parse b ≠ .panic p) : Adds A (Pg.parse b) (Pg.parse (a ++ s%";" ++ b)) :=
  Pg.parse_follow hw h0 ha hb

/-- C55 (PostgreSQL), partial: any number of texts, each with a semicolon behind it, are read as the statements of all of them in that order. -/
theorem C55_postgres_all_partial (l : List (Str × List Pg.PStmt))
    (h : ∀ x ∈ l, (∃ ts, Writes .postgres false x.1 ts) ∧ (∀ c ∈ x.1, c ≠ nul) ∧ Pg.parse x.1 = .ok x.2) :
    Pg.parse (l.flatMap (fun x => x.1 ++ s%";")) = .ok (l.flatMap (·.2)) :=
  parse_all (parse := Pg.parse) (by decide +kernel) Pg.parse_follow h

set_option maxRecDepth 8000 in
/-- A table and an index that is written in another file; and behind the table a text that cannot be read. -/
example : ∃ a ts A B b e, Writes .postgres false a ts ∧ (∀ c ∈ a, c ≠ nul) ∧ Pg.parse a = .ok A ∧ A.length = 1 ∧
    Pg.parse s%"CREATE INDEX i ON t (id)" = .ok B ∧ Pg.parse (a ++ s%";" ++ s%"CREATE INDEX i ON t (id)") = .ok (A ++ B) ∧ B.length = 1 ∧
    Pg.parse b = .err e ∧ Pg.parse (a ++ s%";" ++ b) = .err e := by
  have hw : Writes .postgres false (s%"CREATE TABLE t (id INTEGER)" ++ s%"\n") _ :=
    (writes_of_lex .postgres s%"CREATE TABLE t (id INTEGER)" (by decide +kernel)).newline
  refine ⟨_, _, valueOf (Pg.parse s%"CREATE TABLE t (id INTEGER)\n"), valueOf (Pg.parse s%"CREATE INDEX i ON t (id)"), s%"CREATE TABLE u (id", .unexpectedCurrentToken,
    hw, ?_, ?_, ?_, ?_, ?_, ?_, ?_, ?_⟩ <;> decide +kernel

set_option maxRecDepth 8000 in
/-- C55 fails (PostgreSQL): what follows the byte 0 is not read, and no error is reported. -/
theorem C55_postgres_nul_fails : ∃ (a b : Str) (A B : List Pg.PStmt), Pg.parse a = .ok A ∧ Pg.parse b = .ok B ∧ B ≠ [] ∧ Pg.parse (a ++ s%";" ++ b) = .ok A := by
  refine ⟨s%"CREATE TABLE t (id INTEGER);" ++ [nul], s%"CREATE TABLE u (id INTEGER)", valueOf (Pg.parse (s%"CREATE TABLE t (id INTEGER);" ++ [nul])),
    valueOf (Pg.parse s%"CREATE TABLE u (id INTEGER)"), ?_⟩
  decide +kernel

set_option maxRecDepth 8000 in
/-- C55 fails (PostgreSQL) in the other direction: within parentheses a semicolon does not end the statement.  Neither part can be read, together
they are one table. -/
theorem C55_postgres_semicolon_fails : ∃ (a b : Str) (A : List Pg.PStmt), Pg.parse a = .err .unexpectedCurrentToken ∧
    Pg.parse b = .err .unexpectedCurrentToken ∧ Pg.parse (a ++ s%";" ++ b) = .ok A ∧ A.length = 1 := by
  refine ⟨s%"CREATE TABLE t (id INTEGER DEFAULT (1", s%"2))", valueOf (Pg.parse s%"CREATE TABLE t (id INTEGER DEFAULT (1;2))"), ?_⟩
  decide +kernel

/-! ## CockroachDB -/

/-- C55 (CockroachDB), partial: if `a` is read as the statements `A`, then `a`, a semicolon and `b` are read as `A` followed by what `b` alone is
read as, with the same outcome.  `Writes .cockroachdb false a ts` says that the quotes of `a` are closed and that `a` does not end within a
comment.  Missing: texts `a` with the byte 0, for which it fails (`C55_cockroachdb_nul_fails`), and texts `b` that make the parser panic. -/
theorem C55_cockroachdb_partial (a b : Str) (ts : List Token) (A : List Crdb.CStmt) (hw : Writes .cockroachdb false a ts) (h0 : ∀ c ∈ a, c ≠ nul)
    (ha : Crdb.parse a = .ok A) (hb : ∀ p, Crdb.parse b ≠ .panic p) : Adds A (Crdb.parse b) (Crdb.parse (a ++ s%";" ++ b)) :=
  Crdb.parse_follow hw h0 ha hb

/-- C55 (CockroachDB), partial: any number of texts, each with a semicolon behind it, are read as the statements of all of them in that order. -/
theorem C55_cockroachdb_all_partial (l : List (Str × List Crdb.CStmt))
    (h : ∀ x ∈ l, (∃ ts, Writes .cockroachdb false x.1 ts) ∧ (∀ c ∈ x.1, c ≠ nul) ∧ Crdb.parse x.1 = .ok x.2) :
    Crdb.parse (l.flatMap (fun x => x.1 ++ s%";")) = .ok (l.flatMap (·.2)) :=
  parse_all (parse := Crdb.parse) (by decide +kernel) Crdb.parse_follow h

set_option maxRecDepth 8000 in
/-- A table and an index that is written in another file; and behind the table a text that cannot be read. -/
example : ∃ a ts A B b e, Writes .cockroachdb false a ts ∧ (∀ c ∈ a, c ≠ nul) ∧ Crdb.parse a = .ok A ∧ A.length = 1 ∧
    Crdb.parse s%"CREATE INDEX i ON t (id)" = .ok B ∧ Crdb.parse (a ++ s%";" ++ s%"CREATE INDEX i ON t (id)") = .ok (A ++ B) ∧ B.length = 1 ∧
    Crdb.parse b = .err e ∧ Crdb.parse (a ++ s%";" ++ b) = .err e := by
  have hw : Writes .cockroachdb false (s%"CREATE TABLE t (id INT8)" ++ s%"\n") _ :=
    (writes_of_lex .cockroachdb s%"CREATE TABLE t (id INT8)" (by decide +kernel)).newline
  refine ⟨_, _, valueOf (Crdb.parse s%"CREATE TABLE t (id INT8)\n"), valueOf (Crdb.parse s%"CREATE INDEX i ON t (id)"), s%"CREATE TABLE u (id", .unexpectedCurrentToken,
    hw, ?_, ?_, ?_, ?_, ?_, ?_, ?_, ?_⟩ <;> decide +kernel

set_option maxRecDepth 8000 in
/-- C55 fails (CockroachDB): what follows the byte 0 is not read, and no error is reported. -/
theorem C55_cockroachdb_nul_fails : ∃ (a b : Str) (A B : List Crdb.CStmt), Crdb.parse a = .ok A ∧ Crdb.parse b = .ok B ∧ B ≠ [] ∧ Crdb.parse (a ++ s%";" ++ b) = .ok A := by
  refine ⟨s%"CREATE TABLE t (id INT8);" ++ [nul], s%"CREATE TABLE u (id INT8)", valueOf (Crdb.parse (s%"CREATE TABLE t (id INT8);" ++ [nul])),
    valueOf (Crdb.parse s%"CREATE TABLE u (id INT8)"), ?_⟩
  decide +kernel

set_option maxRecDepth 8000 in
/-- C55 fails (CockroachDB) in the other direction: within parentheses a semicolon does not end the statement.  Neither part can be read, together
they are one table. -/
theorem C55_cockroachdb_semicolon_fails : ∃ (a b : Str) (A : List Crdb.CStmt), Crdb.parse a = .err .unexpectedCurrentToken ∧
    Crdb.parse b = .err .unexpectedCurrentToken ∧ Crdb.parse (a ++ s%";" ++ b) = .ok A ∧ A.length = 1 := by
  refine ⟨s%"CREATE TABLE t (id INT8 DEFAULT (1", s%"2))", valueOf (Crdb.parse s%"CREATE TABLE t (id INT8 DEFAULT (1;2))"), ?_⟩
  decide +kernel

/-! ## MySQL -/

/-- C55 (MySQL), partial: if `a` is read as the statements `A`, then `a`, a semicolon and `b` are read as `A` followed by what `b` alone is
read as, with the same outcome.  `Writes .mysql false a ts` says that the quotes of `a` are closed and that `a` does not end within a
comment.  Missing: texts `a` with the byte 0, for which it fails (`C55_mysql_nul_fails`), and texts `b` that make the parser panic. -/
theorem C55_mysql_partial (a b : Str) (ts : List Token) (A : List My.MStmt) (hw : Writes .mysql false a ts) (h0 : ∀ c ∈ a, c ≠ nul)
    (ha : My.parse a = .ok A) (hb : ∀ p, My.parse b ≠ .panic p) : Adds A (My.parse b) (My.parse (a ++ s%";" ++ b)) :=
  My.parse_follow hw h0 ha hb

/-- C55 (MySQL), partial: any number of texts, each with a semicolon behind it, are read as the statements of all of them in that order. -/
theorem C55_mysql_all_partial (l : List (Str × List My.MStmt))
    (h : ∀ x ∈ l, (∃ ts, Writes .mysql false x.1 ts) ∧ (∀ c ∈ x.1, c ≠ nul) ∧ My.parse x.1 = .ok x.2) :
    My.parse (l.flatMap (fun x => x.1 ++ s%";")) = .ok (l.flatMap (·.2)) :=
  parse_all (parse := My.parse) (by decide +kernel) My.parse_follow h

set_option maxRecDepth 8000 in
/-- A table and an index that is written in another file; and behind the table a text that cannot be read. -/
example : ∃ a ts A B b e, Writes .mysql false a ts ∧ (∀ c ∈ a, c ≠ nul) ∧ My.parse a = .ok A ∧ A.length = 1 ∧
    My.parse s%"CREATE INDEX i ON t (id)" = .ok B ∧ My.parse (a ++ s%";" ++ s%"CREATE INDEX i ON t (id)") = .ok (A ++ B) ∧ B.length = 1 ∧
    My.parse b = .err e ∧ My.parse (a ++ s%";" ++ b) = .err e := by
  have hw : Writes .mysql false (s%"CREATE TABLE t (id INTEGER)" ++ s%"\n") _ :=
    (writes_of_lex .mysql s%"CREATE TABLE t (id INTEGER)" (by decide +kernel)).newline
  refine ⟨_, _, valueOf (My.parse s%"CREATE TABLE t (id INTEGER)\n"), valueOf (My.parse s%"CREATE INDEX i ON t (id)"), s%"CREATE TABLE u (id", .unexpectedCurrentToken,
    hw, ?_, ?_, ?_, ?_, ?_, ?_, ?_, ?_⟩ <;> decide +kernel

set_option maxRecDepth 8000 in
/-- C55 fails (MySQL): what follows the byte 0 is not read, and no error is reported. -/
theorem C55_mysql_nul_fails : ∃ (a b : Str) (A B : List My.MStmt), My.parse a = .ok A ∧ My.parse b = .ok B ∧ B ≠ [] ∧ My.parse (a ++ s%";" ++ b) = .ok A := by
  refine ⟨s%"CREATE TABLE t (id INTEGER);" ++ [nul], s%"CREATE TABLE u (id INTEGER)", valueOf (My.parse (s%"CREATE TABLE t (id INTEGER);" ++ [nul])),
    valueOf (My.parse s%"CREATE TABLE u (id INTEGER)"), ?_⟩
  decide +kernel

set_option maxRecDepth 8000 in
/-- C55 fails (MySQL) in the other direction: within parentheses a semicolon does not end the statement.  Neither part can be read, together
they are one table. -/
theorem C55_mysql_semicolon_fails : ∃ (a b : Str) (A : List My.MStmt), My.parse a = .err .unexpectedCurrentToken ∧
    My.parse b = .err .unexpectedCurrentToken ∧ My.parse (a ++ s%";" ++ b) = .ok A ∧ A.length = 1 := by
  refine ⟨s%"CREATE TABLE t (id INTEGER DEFAULT (1", s%"2))", valueOf (My.parse s%"CREATE TABLE t (id INTEGER DEFAULT (1;2))"), ?_⟩
  decide +kernel

/-! ## Spanner -/

/-- C55 (Spanner), partial: if `a` is read as the statements `A`, then `a`, a semicolon and `b` are read as `A` followed by what `b` alone is
read as, with the same outcome.  `Writes .spanner false a ts` says that the quotes of `a` are closed and that `a` does not end within a
comment.  Missing: texts `a` with the byte 0, for which it fails (`C55_spanner_nul_fails`), and texts `b` that make the parser panic. -/
theorem C55_spanner_partial (a b : Str) (ts : List Token) (A : List Sp.SStmt) (hw : Writes .spanner false a ts) (h0 : ∀ c ∈ a, c ≠ nul)
    (ha : Sp.parse a = .ok A) (hb : ∀ p, Sp.parse b ≠ .panic p) : Adds A (Sp.parse b) (Sp.parse (a ++ s%";" ++ b)) :=
  Sp.parse_follow hw h0 ha hb

/-- C55 (Spanner), partial: any number of texts, each with a semicolon behind it, are read as the statements of all of them in that order. -/
theorem C55_spanner_all_partial (l : List (Str × List Sp.SStmt))
    (h : ∀ x ∈ l, (∃ ts, Writes .spanner false x.1 ts) ∧ (∀ c ∈ x.1, c ≠ nul) ∧ Sp.parse x.1 = .ok x.2) :
    Sp.parse (l.flatMap (fun x => x.1 ++ s%";")) = .ok (l.flatMap (·.2)) :=
  parse_all (parse := Sp.parse) (by decide +kernel) Sp.parse_follow h

set_option maxRecDepth 8000 in
/-- A table and an index that is written in another file; and behind the table a text that cannot be read. -/
example : ∃ a ts A B b e, Writes .spanner false a ts ∧ (∀ c ∈ a, c ≠ nul) ∧ Sp.parse a = .ok A ∧ A.length = 1 ∧
    Sp.parse s%"CREATE INDEX i ON t (id)" = .ok B ∧ Sp.parse (a ++ s%";" ++ s%"CREATE INDEX i ON t (id)") = .ok (A ++ B) ∧ B.length = 1 ∧
    Sp.parse b = .err e ∧ Sp.parse (a ++ s%";" ++ b) = .err e := by
  have hw : Writes .spanner false (s%"CREATE TABLE t (id INT64) PRIMARY KEY (id)" ++ s%"\n") _ :=
    (writes_of_lex .spanner s%"CREATE TABLE t (id INT64) PRIMARY KEY (id)" (by decide +kernel)).newline
  refine ⟨_, _, valueOf (Sp.parse s%"CREATE TABLE t (id INT64) PRIMARY KEY (id)\n"), valueOf (Sp.parse s%"CREATE INDEX i ON t (id)"), s%"CREATE TABLE u (id", .unexpectedCurrentToken,
    hw, ?_, ?_, ?_, ?_, ?_, ?_, ?_, ?_⟩ <;> decide +kernel

set_option maxRecDepth 8000 in
/-- C55 fails (Spanner): what follows the byte 0 is not read, and no error is reported. -/
theorem C55_spanner_nul_fails : ∃ (a b : Str) (A B : List Sp.SStmt), Sp.parse a = .ok A ∧ Sp.parse b = .ok B ∧ B ≠ [] ∧ Sp.parse (a ++ s%";" ++ b) = .ok A := by
  refine ⟨s%"CREATE TABLE t (id INT64) PRIMARY KEY (id);" ++ [nul], s%"CREATE TABLE u (id INT64) PRIMARY KEY (id)", valueOf (Sp.parse (s%"CREATE TABLE t (id INT64) PRIMARY KEY (id);" ++ [nul])),
    valueOf (Sp.parse s%"CREATE TABLE u (id INT64) PRIMARY KEY (id)"), ?_⟩
  decide +kernel

set_option maxRecDepth 8000 in
/-- C55 fails (Spanner) in the other direction: within parentheses a semicolon does not end the statement.  Neither part can be read, together
they are one table. -/
theorem C55_spanner_semicolon_fails : ∃ (a b : Str) (A : List Sp.SStmt), Sp.parse a = .err .unexpectedCurrentToken ∧
    Sp.parse b = .err .unexpectedCurrentToken ∧ Sp.parse (a ++ s%";" ++ b) = .ok A ∧ A.length = 1 := by
  refine ⟨s%"CREATE TABLE t (id INT64 DEFAULT (1", s%"2)) PRIMARY KEY (id)", valueOf (Sp.parse s%"CREATE TABLE t (id INT64 DEFAULT (1;2)) PRIMARY KEY (id)"), ?_⟩
  decide +kernel

end Ddl.Props
