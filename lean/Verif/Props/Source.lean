import Verif.Lemmas.SourcePg
import Verif.Lemmas.SourceCrdb
import Verif.Lemmas.SourceMy
import Verif.Lemmas.SourceSp

/-! # Nothing is read that is not written (C65) -/

set_option autoImplicit false

namespace Ddl.Props
open Spec Spec.Written Spec.Source

/-- C65 for PostgreSQL: whatever text is accepted, what was read from it is in it: the text is a sequence of statements, and each column, constraint,
index, type, default value and attribute read comes from a phrase of its own.  Nothing that is between them is lost but commas, single tokens behind a
statement and behind two kinds of constraints, and the text behind a NUL byte. -/
theorem C65_postgres (s : Str) (l : List Pg.PStmt) (h : Pg.parse s = .ok l) : Scripted Pg.Source.Statement (lex .postgres s) l :=
  (Pg.Source.parse_source s).get h

set_option maxRecDepth 8000 in
set_option maxHeartbeats 1000000 in
/-- The hypothesis can be met by a text with most kinds of phrases. -/
example : ∃ (t : Pg.CreateTable) (x : Pg.CreateIndex), Pg.parse s%"CREATE TABLE t (a INTEGER NOT NULL DEFAULT 1 PRIMARY KEY,, b CHARACTER VARYING(10) CHECK (b <> '') UNIQUE, c TEXT REFERENCES u (id) ON DELETE CASCADE, UNIQUE (a, b)); CREATE UNIQUE INDEX i ON t (a);" = .ok [.createTable t, .createIndex x] ∧
    t.columns.length = 3 ∧ t.constraints.length = 4 ∧ x.isUnique = true :=
  ⟨_, _, rfl, by decide +kernel, by decide +kernel, by decide +kernel⟩

set_option maxRecDepth 8000 in
/-- C65 fails without those exceptions: the token behind a `CHECK` or a `REFERENCES` of a column is passed over, even if it is `UNIQUE`. -/
theorem C65_postgres_skipped_fails : ¬ ∀ (s : Str) (l : List Pg.PStmt), Pg.parse s = .ok l → (∃ t ∈ lex .postgres s, t.type = .UNIQUE) →
    l.any Pg.Source.unique = true := by
  intro h
  have := h s%"CREATE TABLE t (a TEXT CHECK (a <> '') UNIQUE, c TEXT)" _ rfl ⟨⟨.UNIQUE, s%"UNIQUE"⟩, by decide +kernel, rfl⟩
  revert this
  decide +kernel

/-- C65 for CockroachDB: as for PostgreSQL.  There are also computed columns, hidden ones, indexes within tables, and methods of indexes. -/
theorem C65_cockroachdb (s : Str) (l : List Crdb.CStmt) (h : Crdb.parse s = .ok l) : Scripted Crdb.Source.Statement (lex .cockroachdb s) l :=
  (Crdb.Source.parse_source s).get h

set_option maxRecDepth 8000 in
set_option maxHeartbeats 1000000 in
/-- The hypothesis can be met by a text with most kinds of phrases. -/
example : ∃ (t : Crdb.CreateTable) (x : Crdb.CreateIndex), Crdb.parse s%"CREATE TABLE t (a INT8 AS (b + 1) STORED NOT NULL, b DOUBLE PRECISION NOT VISIBLE UNIQUE, c STRING(8) DEFAULT 1::STRING REFERENCES u (k) ON DELETE NO ACTION, INDEX i (b DESC) USING hash, d UUID, PRIMARY KEY (a, b)); CREATE UNIQUE INDEX i ON t (a);" = .ok [.createTable t, .createIndex x] ∧
    t.columns.length = 4 ∧ t.constraints.length = 4 ∧ x.isUnique = true :=
  ⟨_, _, rfl, by decide +kernel, by decide +kernel, by decide +kernel⟩

set_option maxRecDepth 8000 in
/-- C65 fails without those exceptions: the token behind a `CHECK` or a `REFERENCES` of a column is passed over, even if it is `UNIQUE`. -/
theorem C65_cockroachdb_skipped_fails : ¬ ∀ (s : Str) (l : List Crdb.CStmt), Crdb.parse s = .ok l → (∃ t ∈ lex .cockroachdb s, t.type = .UNIQUE) →
    l.any Crdb.Source.unique = true := by
  intro h
  have := h s%"CREATE TABLE t (a STRING CHECK (a <> '') UNIQUE, c STRING)" _ rfl ⟨⟨.UNIQUE, s%"UNIQUE"⟩, by decide +kernel, rfl⟩
  revert this
  decide +kernel

/-- C65 for MySQL: as for PostgreSQL.  There are also character sets, collations, `AUTO_INCREMENT`, actions and comments of columns, indexes within tables, and
options of tables. -/
theorem C65_mysql (s : Str) (l : List My.MStmt) (h : My.parse s = .ok l) : Scripted My.Source.Statement (lex .mysql s) l :=
  (My.Source.parse_source s).get h

set_option maxRecDepth 8000 in
set_option maxHeartbeats 1000000 in
/-- The hypothesis can be met by a text with most kinds of phrases. -/
example : ∃ (t : My.CreateTable) (x : My.CreateIndex), My.parse s%"CREATE TABLE t (id BIGINT NOT NULL AUTO_INCREMENT COMMENT 'key', b VARCHAR(8) DEFAULT 1 NOT NULL CHECK (b > 2), c BOOLEAN, INDEX i (b DESC), PRIMARY KEY (id)) ENGINE=x; CREATE UNIQUE INDEX i ON t (c);" = .ok [.createTable t, .createIndex x] ∧
    t.columns.length = 3 ∧ t.constraints.length = 3 ∧ x.isUnique = true :=
  ⟨_, _, rfl, by decide +kernel, by decide +kernel, by decide +kernel⟩

set_option maxRecDepth 8000 in
/-- C65 fails without those exceptions: the token behind a `CHECK` or a `REFERENCES` of a column is passed over, even if it is `UNIQUE`. -/
theorem C65_mysql_skipped_fails : ¬ ∀ (s : Str) (l : List My.MStmt), My.parse s = .ok l → (∃ t ∈ lex .mysql s, t.type = .UNIQUE) →
    l.any My.Source.unique = true := by
  intro h
  have := h s%"CREATE TABLE t (a TEXT CHECK (a <> '') UNIQUE, c TEXT)" _ rfl ⟨⟨.UNIQUE, s%"UNIQUE"⟩, by decide +kernel, rfl⟩
  revert this
  decide +kernel

/-- C65 for Spanner: as for PostgreSQL.  There are also options of columns, and behind the columns the primary key, the table it is interleaved in and the row
deletion policy. -/
theorem C65_spanner (s : Str) (l : List Sp.SStmt) (h : Sp.parse s = .ok l) : Scripted Sp.Source.Statement (lex .spanner s) l :=
  (Sp.Source.parse_source s).get h

set_option maxRecDepth 8000 in
set_option maxHeartbeats 1000000 in
/-- The hypothesis can be met by a text with most kinds of phrases. -/
example : ∃ (t : Sp.CreateTable) (x : Sp.CreateIndex), Sp.parse s%"CREATE TABLE t (a INT64 NOT NULL DEFAULT (1), c INT64 CHECK (c > 0), b STRING(MAX) OPTIONS (x = 1), CONSTRAINT f FOREIGN KEY (a) REFERENCES u (k)) PRIMARY KEY (a), INTERLEAVE IN PARENT u ON DELETE CASCADE; CREATE UNIQUE INDEX i ON t (c);" = .ok [.createTable t, .createIndex x] ∧
    t.columns.length = 3 ∧ t.constraints.length = 2 ∧ x.isUnique = true :=
  ⟨_, _, rfl, by decide +kernel, by decide +kernel, by decide +kernel⟩

set_option maxRecDepth 8000 in
/-- C65 fails without those exceptions: the token behind a `CHECK` or a `REFERENCES` of a column is passed over, even if it is `DEFAULT`. -/
theorem C65_spanner_skipped_fails : ¬ ∀ (s : Str) (l : List Sp.SStmt), Sp.parse s = .ok l → (∃ t ∈ lex .spanner s, t.type = .DEFAULT) →
    l.any Sp.Source.defaults = true := by
  intro h
  have := h s%"CREATE TABLE t (a INT64 CHECK (a > 0) DEFAULT, c INT64) PRIMARY KEY (c)" _ rfl ⟨⟨.DEFAULT, s%"DEFAULT"⟩, by decide +kernel, rfl⟩
  revert this
  decide +kernel

set_option maxRecDepth 8000 in
/-- C65 fails for what is not a statement at all: brackets and a token behind each statement are passed over, in place of `INDEX` behind `UNIQUE` there may be
anything, and commas may be missing or repeated. -/
theorem C65_statements_fails : (∃ x, Pg.parse s%") CREATE UNIQUE BOGUS i ON t (a a) TABLE" = .ok [.createIndex x]) ∧
    (∃ x, My.parse s%") CREATE UNIQUE BOGUS i ON t (a a) TABLE" = .ok [.createIndex x]) ∧
    (∃ x, Crdb.parse s%") CREATE UNIQUE BOGUS i ON t (a a) TABLE" = .ok [.createIndex x]) ∧
    (∃ x, Sp.parse s%") CREATE UNIQUE BOGUS i ON t (a a) TABLE" = .ok [.createIndex x]) ∧
    ∃ t : Pg.CreateTable, Pg.parse s%"CREATE TABLE t (a TEXT,, c TEXT d TEXT)" = .ok [.createTable t] ∧ t.columns.length = 3 :=
  ⟨⟨_, rfl⟩, ⟨_, rfl⟩, ⟨_, rfl⟩, ⟨_, rfl⟩, ⟨_, rfl, by decide +kernel⟩⟩

end Ddl.Props
