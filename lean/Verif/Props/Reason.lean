import Verif.Lemmas.Reason
import Verif.Pg.Parser
import Verif.Crdb.Parser
import Verif.My.Parser
import Verif.Sp.Parser

/-! # Every statement of a migration has a reason: C79

`HasReason` and the reasons for changes of a table (`reasons`, `alterReason`) are in `Verif/Spec/Reason.lean`, `tableDefs` in
`Verif/Spec/Once.lean`.  `sd` is `simplediff.Diff(a, b).String()`, arbitrary. -/

namespace Ddl.Props
open Ddl Spec
set_option autoImplicit false

/-- C79 (PostgreSQL): every statement of a migration between two schemas has a reason: what it creates, adds or sets is so defined in the new schema and not in the
old one, what it drops or removes is in the old schema and not, or not so, in the new one. -/
theorem C79_postgres (sd : Str → Str → Str) (b a r : List Pg.PStmt) (h : diff (Pg.ops sd) (some b) (some a) = .ok r) :
    ∀ s ∈ r, HasReason (Pg.ops sd) Pg.reasons b a s :=
  diff_reason (fun _ _ _ _ _ hn hl => Pg.table_reason hn hl) h

set_option maxRecDepth 8000 in
example : ∃ b a r, Pg.parse s%"CREATE TABLE t (a INT NOT NULL, b TEXT, CONSTRAINT k FOREIGN KEY (a) REFERENCES x (y)); CREATE TABLE old (a INT); CREATE INDEX i ON t (a);" = .ok b ∧
    Pg.parse s%"CREATE TABLE t (a TEXT DEFAULT 'x', c INT, CONSTRAINT k FOREIGN KEY (a, c) REFERENCES x (y, z)); CREATE TABLE fresh (a INT); CREATE INDEX i ON t (c);" = .ok a ∧
    diff (Pg.ops fun _ _ => []) (some b) (some a) = .ok r ∧ r.length = 11 := by
  exact ⟨_, _, _, rfl, rfl, rfl, by decide +kernel⟩

/-- C79 (CockroachDB): as for PostgreSQL, if no constraint becomes an index and no index another constraint. Missing: such schemas, for which it fails. -/
theorem C79_cockroachdb_partial (sd : Str → Str → Str) (b a r : List Crdb.CStmt) (hk : Crdb.SameKinds b a) (h : diff (Crdb.ops sd) (some b) (some a) = .ok r) :
    ∀ s ∈ r, HasReason (Crdb.ops sd) Crdb.reasons b a s :=
  diff_reason (fun t t' _ ht ht' hn hl => Crdb.table_reason hn (hk t ht t' ht' hn) hl) h

set_option maxRecDepth 8000 in
example : ∃ b a r, Crdb.parse s%"CREATE TABLE t (a INT NOT NULL, b TEXT, UNIQUE INDEX u (a)); CREATE TABLE old (a INT); CREATE INDEX i ON t (a);" = .ok b ∧
    Crdb.parse s%"CREATE TABLE t (a TEXT, c INT, UNIQUE INDEX u (a, c)); CREATE TABLE fresh (a INT); CREATE INDEX i ON t (c);" = .ok a ∧
    diff (Crdb.ops fun _ _ => []) (some b) (some a) = .ok r ∧ r.length = 10 ∧ Crdb.SameKinds b a := by
  exact ⟨_, _, _, rfl, rfl, rfl, by decide +kernel, by unfold Crdb.SameKinds; decide +kernel⟩

set_option maxRecDepth 8000 in
/-- C79 (CockroachDB) fails if a foreign key becomes an index of the same name: an index is dropped that the old schema does not have. -/
theorem C79_cockroachdb_fails : ∃ b a r n, Crdb.parse s%"CREATE TABLE t (a INT, CONSTRAINT i FOREIGN KEY (a) REFERENCES x (y));" = .ok b ∧
    Crdb.parse s%"CREATE TABLE t (a INT, UNIQUE INDEX i (a));" = .ok a ∧
    diff (Crdb.ops fun _ _ => []) (some b) (some a) = .ok r ∧
    r.map (stmtStr (Crdb.ops fun _ _ => [])) = [s%"DROP INDEX i;\n", s%"CREATE UNIQUE INDEX i ON t (a);\n"] ∧
    .dropIndex [] false n ∈ r ∧ ¬ HasReason (Crdb.ops fun _ _ => []) Crdb.reasons b a (.dropIndex [] false n) :=
  ⟨_, _, _, _, rfl, rfl, rfl, by decide +kernel, .head _, by simp only [HasReason, Crdb.reasons, Differs]; decide +kernel⟩

set_option maxRecDepth 8000 in
/-- C79 (CockroachDB) fails if an index becomes a foreign key of the same name: a constraint is dropped that the old schema does not have. -/
theorem C79_cockroachdb_constraint_fails : ∃ b a r n i, Crdb.parse s%"CREATE TABLE t (a INT, UNIQUE INDEX i (a));" = .ok b ∧
    Crdb.parse s%"CREATE TABLE t (a INT, CONSTRAINT i FOREIGN KEY (a) REFERENCES x (y));" = .ok a ∧
    diff (Crdb.ops fun _ _ => []) (some b) (some a) = .ok r ∧
    r.map (stmtStr (Crdb.ops fun _ _ => [])) = [s%"ALTER TABLE t DROP CONSTRAINT i;\n", s%"ALTER TABLE t ADD CONSTRAINT i FOREIGN KEY (a) REFERENCES x (y);\n"] ∧
    .alterTable ⟨[], n, .dropConstraint i⟩ ∈ r ∧ ¬ HasReason (Crdb.ops fun _ _ => []) Crdb.reasons b a (.alterTable ⟨[], n, .dropConstraint i⟩) :=
  ⟨_, _, _, _, _, rfl, rfl, rfl, by decide +kernel, .head _, by simp only [HasReason, Crdb.reasons, Crdb.alterReason, Differs]; decide +kernel⟩

/-- C79 (MySQL): as for PostgreSQL, if no constraint becomes an index and no index another constraint, and without the character set of a column, which
`MODIFY` does not mention. Missing: such schemas and the character set, for which it fails. -/
theorem C79_mysql_partial (sd : Str → Str → Str) (b a r : List My.MStmt) (hk : My.SameKinds b a) (h : diff (My.ops sd) (some b) (some a) = .ok r) :
    ∀ s ∈ r, HasReason (My.ops sd) My.reasons b a s :=
  diff_reason (fun t t' _ ht ht' hn hl => My.table_reason hn (hk t ht t' ht' hn) hl) h

set_option maxRecDepth 8000 in
example : ∃ b a r, My.parse s%"CREATE TABLE t (a INT NOT NULL, b TEXT, UNIQUE KEY u (a)) ENGINE=InnoDB; CREATE TABLE old (a INT); CREATE INDEX i ON t (a);" = .ok b ∧
    My.parse s%"CREATE TABLE t (a TEXT, c INT, UNIQUE KEY u (a, c)) ENGINE=MyISAM; CREATE TABLE fresh (a INT); CREATE INDEX i ON t (c);" = .ok a ∧
    diff (My.ops fun _ _ => []) (some b) (some a) = .ok r ∧ r.length = 10 ∧ My.SameKinds b a := by
  exact ⟨_, _, _, rfl, rfl, rfl, by decide +kernel, by unfold My.SameKinds; decide +kernel⟩

set_option maxRecDepth 8000 in
/-- C79 (MySQL) fails if a foreign key becomes an index of the same name: an index is dropped that the old schema does not have. -/
theorem C79_mysql_fails : ∃ b a r n, My.parse s%"CREATE TABLE t (a INT, CONSTRAINT i FOREIGN KEY (a) REFERENCES x (y));" = .ok b ∧
    My.parse s%"CREATE TABLE t (a INT, UNIQUE KEY i (a));" = .ok a ∧
    diff (My.ops fun _ _ => []) (some b) (some a) = .ok r ∧
    r.map (stmtStr (My.ops fun _ _ => [])) = [s%"DROP INDEX i;\n", s%"CREATE UNIQUE INDEX i ON t (a);\n"] ∧
    .dropIndex [] false n ∈ r ∧ ¬ HasReason (My.ops fun _ _ => []) My.reasons b a (.dropIndex [] false n) :=
  ⟨_, _, _, _, rfl, rfl, rfl, by decide +kernel, .head _, by simp only [HasReason, My.reasons, Differs]; decide +kernel⟩

set_option maxRecDepth 8000 in
/-- C79 (MySQL) fails if an index becomes a foreign key of the same name: a constraint is dropped that the old schema does not have. -/
theorem C79_mysql_constraint_fails : ∃ b a r n i, My.parse s%"CREATE TABLE t (a INT, UNIQUE KEY i (a));" = .ok b ∧
    My.parse s%"CREATE TABLE t (a INT, CONSTRAINT i FOREIGN KEY (a) REFERENCES x (y));" = .ok a ∧
    diff (My.ops fun _ _ => []) (some b) (some a) = .ok r ∧
    r.map (stmtStr (My.ops fun _ _ => [])) = [s%"ALTER TABLE t DROP CONSTRAINT i;\n", s%"ALTER TABLE t ADD CONSTRAINT i FOREIGN KEY (a) REFERENCES x (y);\n"] ∧
    .alterTable ⟨[], n, .dropConstraint i⟩ ∈ r ∧ ¬ HasReason (My.ops fun _ _ => []) My.reasons b a (.alterTable ⟨[], n, .dropConstraint i⟩) :=
  ⟨_, _, _, _, _, rfl, rfl, rfl, by decide +kernel, .head _, by simp only [HasReason, My.reasons, My.alterReason, Differs]; decide +kernel⟩

set_option maxRecDepth 8000 in
/-- C79 (MySQL) fails for the character set of a column: it is the reason for `MODIFY`, which then says nothing about it. -/
theorem C79_mysql_character_set_fails : ∃ b a r n m, My.parse s%"CREATE TABLE t (a TEXT CHARACTER SET latin1);" = .ok b ∧
    My.parse s%"CREATE TABLE t (a TEXT CHARACTER SET utf8mb4);" = .ok a ∧
    diff (My.ops fun _ _ => []) (some b) (some a) = .ok r ∧ r = [.alterTable ⟨[], n, .modifyColumn m⟩] ∧
    (∀ t ∈ tableDefs a, ∀ c ∈ t.columns, m.characterSet ≠ c.characterSet) ∧ stmtStr (My.ops fun _ _ => []) (.alterTable ⟨[], n, .modifyColumn m⟩) = s%"ALTER TABLE t MODIFY a TEXT NULL;\n" :=
  ⟨_, _, _, _, _, rfl, rfl, rfl, rfl, by decide +kernel, by decide +kernel⟩

/-- C79 (Spanner): as for PostgreSQL; a table is dropped and created again only if its key or its options differ. -/
theorem C79_spanner (sd : Str → Str → Str) (b a r : List Sp.SStmt) (h : diff (Sp.ops sd) (some b) (some a) = .ok r) :
    ∀ s ∈ r, HasReason (Sp.ops sd) Sp.reasons b a s :=
  diff_reason (fun _ _ _ _ _ hn hl => Sp.table_reason hn hl) h

set_option maxRecDepth 8000 in
example : ∃ b a r, Sp.parse s%"CREATE TABLE t (a INT64 NOT NULL, b STRING(10), CONSTRAINT k FOREIGN KEY (b) REFERENCES x (y)) PRIMARY KEY (a); CREATE TABLE v (a INT64, b INT64) PRIMARY KEY (a); CREATE INDEX i ON t (a);" = .ok b ∧
    Sp.parse s%"CREATE TABLE t (a INT64, c INT64, CONSTRAINT k FOREIGN KEY (c) REFERENCES x (y)) PRIMARY KEY (a); CREATE TABLE v (a INT64, b INT64) PRIMARY KEY (b); CREATE INDEX i ON t (c);" = .ok a ∧
    diff (Sp.ops fun _ _ => []) (some b) (some a) = .ok r ∧ r.length = 9 := by
  exact ⟨_, _, _, rfl, rfl, rfl, by decide +kernel⟩

end Ddl.Props
