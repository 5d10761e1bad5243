import Verif.Lemmas.NoDiff
import Verif.Lemmas.DecideSchema
import Verif.Lemmas.DecideSchemaCrdb
import Verif.Lemmas.DecideSchemaMy
import Verif.Lemmas.DecideTame
import Verif.Lemmas.DecideContent

/-! # When exactly `ddlctl diff` reports no difference (CockroachDB, MySQL, Spanner): C59

`CreateTable.Alike`, `CreateIndex.Alike` and `Comparable` are in `Verif/Spec/NoDiff.lean`, `SameSchema`, `SameTable` and `SameIndex` in
`Verif/Spec/Content.lean`, `Told` in `Verif/Spec/Objects.lean`.  `sd` is `simplediff.Diff(a, b).String()`, arbitrary.  For PostgreSQL
see `Verif/Props/NoDifference.lean`. -/

namespace Ddl.Props
open Ddl Spec
set_option autoImplicit false

/-- C59 (partial): for CockroachDB there is no difference between two schemas exactly if every table and index of either schema has an
alike one in the other schema.  Missing: schemas whose texts are ambiguous; and alike is less than same, see the theorems
`C59_cockroachdb_…_fails`. -/
theorem C59_cockroachdb_partial (sd : Str → Str → Str) {b a : List Crdb.CStmt} (cb : CreateOnly (Crdb.ops sd) b)
    (ca : CreateOnly (Crdb.ops sd) a) (da : DistinctObjects (Crdb.ops sd) a) (tb : Crdb.Comparable b) (ta : Crdb.Comparable a)
    (hn : ∀ t, .createTable t ∈ a → Crdb.DistinctNames t) (told : Told (Crdb.ops sd) b a) :
    diff (Crdb.ops sd) (some b) (some a) = .err .noDifference ↔ SameSchema Crdb.CreateTable.Alike Crdb.CreateIndex.Alike b a :=
  Crdb.noDiff_iff cb ca da tb ta hn told

set_option maxRecDepth 8000 in
set_option maxHeartbeats 1000000 in
example : ∃ s s' b a, Crdb.parse s = .ok b ∧ Crdb.parse s' = .ok a ∧ CreateOnly (Crdb.ops fun _ _ => []) b ∧
    CreateOnly (Crdb.ops fun _ _ => []) a ∧ DistinctObjects (Crdb.ops fun _ _ => []) a ∧ Crdb.Comparable b ∧ Crdb.Comparable a ∧
    (∀ t, .createTable t ∈ a → Crdb.DistinctNames t) ∧ Told (Crdb.ops fun _ _ => []) b a ∧
    diff (Crdb.ops fun _ _ => []) (some b) (some a) = .err .noDifference ∧ b ≠ a := by
  refine ⟨s%"CREATE TABLE t (a INT8 NOT NULL DEFAULT 1, b STRING(10), h INT4 NOT VISIBLE NOT NULL AS (a) VIRTUAL, CONSTRAINT p PRIMARY KEY (a),
      UNIQUE INDEX u (b ASC)); CREATE TABLE v (x INT4 CHECK (x > 0), y INT8); CREATE INDEX i ON t (a, b DESC)",
    s%"CREATE INDEX IF NOT EXISTS i ON \"t\" (\"a\" ASC, b DESC); CREATE TABLE \"v\" (x INT4 CHECK (x > 0), y INT8 NOT VISIBLE);
      CREATE TABLE t (b STRING(10), a INT8 NOT NULL DEFAULT 1, CONSTRAINT p PRIMARY KEY (\"a\"), UNIQUE INDEX u (b))",
    _, _, rfl, rfl, by decide +kernel, by decide +kernel, by decide +kernel, ⟨by decide +kernel, by decide +kernel⟩,
    ⟨by decide +kernel, by decide +kernel⟩, by decide +kernel, by decide +kernel, by decide +kernel, by decide +kernel⟩

set_option maxRecDepth 8000 in
set_option maxHeartbeats 1000000 in
example : ∃ s s' b a, Crdb.parse s = .ok b ∧ Crdb.parse s' = .ok a ∧ CreateOnly (Crdb.ops fun _ _ => []) b ∧
    CreateOnly (Crdb.ops fun _ _ => []) a ∧ DistinctObjects (Crdb.ops fun _ _ => []) a ∧ Crdb.Comparable b ∧ Crdb.Comparable a ∧
    (∀ t, .createTable t ∈ a → Crdb.DistinctNames t) ∧ Told (Crdb.ops fun _ _ => []) b a ∧
    diff (Crdb.ops fun _ _ => []) (some b) (some a) ≠ .err .noDifference := by
  refine ⟨s%"CREATE TABLE t (a INT8 NOT NULL, b STRING(10)); CREATE INDEX i ON t (a)",
    s%"CREATE INDEX i ON t (a); CREATE TABLE t (b STRING(10), a INT8)",
    _, _, rfl, rfl, by decide +kernel, by decide +kernel, by decide +kernel, ⟨by decide +kernel, by decide +kernel⟩,
    ⟨by decide +kernel, by decide +kernel⟩, by decide +kernel, by decide +kernel, by decide +kernel⟩

/-- Both texts are read by the dialect, their definitions have distinct names, there is no difference, and yet they do not define the
same. -/
abbrev MissedCrdb (sd : Str → Str → Str) (s s' : Str) : Prop :=
  ∃ b a, Crdb.parse s = .ok b ∧ Crdb.parse s' = .ok a ∧ DistinctObjects (Crdb.ops sd) a ∧ (∀ t, .createTable t ∈ a → Crdb.DistinctNames t) ∧
    diff (Crdb.ops sd) (some b) (some a) = .err .noDifference ∧ ¬ SameSchema Crdb.SameTable Crdb.SameIndex b a

/-- C59 is violated: whether a column is visible is not compared. -/
theorem C59_cockroachdb_visibility_fails (sd : Str → Str → Str) :
    MissedCrdb sd s%"CREATE TABLE t (a INT8)"
      s%"CREATE TABLE t (a INT8 NOT VISIBLE)" :=
  ⟨_, _, rfl, rfl, show DistinctObjects (Crdb.ops fun _ _ => []) _ by decide +kernel, by decide +kernel, rfl, by decide +kernel⟩

/-- C59 is violated: how a column is computed is not compared. -/
theorem C59_cockroachdb_computed_fails (sd : Str → Str → Str) :
    MissedCrdb sd s%"CREATE TABLE t (a INT8, b INT8 AS (a) STORED)"
      s%"CREATE TABLE t (a INT8, b INT8 AS (a + 1) STORED)" :=
  ⟨_, _, rfl, rfl, show DistinctObjects (Crdb.ops fun _ _ => []) _ by decide +kernel, by decide +kernel, rfl, by decide +kernel⟩

/-- C59 is violated: a hidden virtual column that is gone is no difference. -/
theorem C59_cockroachdb_hidden_fails (sd : Str → Str → Str) :
    MissedCrdb sd s%"CREATE TABLE t (a INT8, h INT8 NOT VISIBLE AS (a) VIRTUAL)"
      s%"CREATE TABLE t (a INT8)" :=
  ⟨_, _, rfl, rfl, show DistinctObjects (Crdb.ops fun _ _ => []) _ by decide +kernel, by decide +kernel, rfl, by decide +kernel⟩

/-- C59 is violated: a quoted identifier is confused with the columns it spells. -/
theorem C59_cockroachdb_quoted_fails (sd : Str → Str → Str) :
    MissedCrdb sd s%"CREATE TABLE t (a INT8, b INT8, INDEX k (a, b))"
      s%"CREATE TABLE t (a INT8, b INT8, INDEX k (\"a ASC, b\"))" :=
  ⟨_, _, rfl, rfl, show DistinctObjects (Crdb.ops fun _ _ => []) _ by decide +kernel, by decide +kernel, rfl, by decide +kernel⟩

/-- C59 (partial): for MySQL there is no difference between two schemas exactly if every table and index of either schema has an alike
one in the other schema.  Missing: schemas whose texts are ambiguous; and alike is less than same, see the theorems `C59_mysql_…_fails`. -/
theorem C59_mysql_partial (sd : Str → Str → Str) {b a : List My.MStmt} (cb : CreateOnly (My.ops sd) b)
    (ca : CreateOnly (My.ops sd) a) (da : DistinctObjects (My.ops sd) a) (tb : My.Comparable b) (ta : My.Comparable a)
    (hn : ∀ t, .createTable t ∈ a → My.DistinctNames t) (told : Told (My.ops sd) b a) :
    diff (My.ops sd) (some b) (some a) = .err .noDifference ↔ SameSchema My.CreateTable.Alike My.CreateIndex.Alike b a :=
  My.noDiff_iff cb ca da tb ta hn told

set_option maxRecDepth 8000 in
set_option maxHeartbeats 1000000 in
example : ∃ s s' b a, My.parse s = .ok b ∧ My.parse s' = .ok a ∧ CreateOnly (My.ops fun _ _ => []) b ∧
    CreateOnly (My.ops fun _ _ => []) a ∧ DistinctObjects (My.ops fun _ _ => []) a ∧ My.Comparable b ∧ My.Comparable a ∧
    (∀ t, .createTable t ∈ a → My.DistinctNames t) ∧ Told (My.ops fun _ _ => []) b a ∧
    diff (My.ops fun _ _ => []) (some b) (some a) = .err .noDifference ∧ b ≠ a := by
  refine ⟨s%"CREATE TABLE t (a BIGINT NOT NULL DEFAULT 1, b VARCHAR(10) COLLATE utf8mb4_bin COMMENT 'x', PRIMARY KEY (a), UNIQUE KEY u (b),
      CONSTRAINT f FOREIGN KEY (a) REFERENCES p (x) ON DELETE CASCADE, CONSTRAINT c CHECK (a > 0)) ENGINE=InnoDB AUTO_INCREMENT=5 COMMENT='x';
    CREATE TABLE v (x INTEGER); CREATE INDEX i ON t (a, b DESC)",
    s%"CREATE INDEX `i` ON t USING HASH (a ASC, b DESC); CREATE TABLE v (x INTEGER);
    CREATE TABLE `t` (b VARCHAR(10) COLLATE utf8mb4_bin COMMENT 'x', a BIGINT NOT NULL DEFAULT 1, CONSTRAINT c CHECK (a > 0),
      UNIQUE KEY u (`b` ASC), CONSTRAINT f FOREIGN KEY (a) REFERENCES `p` (x), PRIMARY KEY (a)) AUTO_INCREMENT=7 ENGINE=InnoDB",
    _, _, rfl, rfl, by decide +kernel, by decide +kernel, by decide +kernel, ⟨by decide +kernel, by decide +kernel⟩,
    ⟨by decide +kernel, by decide +kernel⟩, by decide +kernel, by decide +kernel, by decide +kernel, by decide +kernel⟩

set_option maxRecDepth 8000 in
set_option maxHeartbeats 1000000 in
example : ∃ s s' b a, My.parse s = .ok b ∧ My.parse s' = .ok a ∧ CreateOnly (My.ops fun _ _ => []) b ∧
    CreateOnly (My.ops fun _ _ => []) a ∧ DistinctObjects (My.ops fun _ _ => []) a ∧ My.Comparable b ∧ My.Comparable a ∧
    (∀ t, .createTable t ∈ a → My.DistinctNames t) ∧ Told (My.ops fun _ _ => []) b a ∧
    diff (My.ops fun _ _ => []) (some b) (some a) ≠ .err .noDifference := by
  refine ⟨s%"CREATE TABLE t (a BIGINT, b INTEGER) ENGINE=InnoDB",
    s%"CREATE TABLE t (b INTEGER, a BIGINT) ENGINE=MyISAM",
    _, _, rfl, rfl, by decide +kernel, by decide +kernel, by decide +kernel, ⟨by decide +kernel, by decide +kernel⟩,
    ⟨by decide +kernel, by decide +kernel⟩, by decide +kernel, by decide +kernel, by decide +kernel⟩

/-- Both texts are read by the dialect, their definitions have distinct names, there is no difference, and yet they do not define the
same. -/
abbrev MissedMy (sd : Str → Str → Str) (s s' : Str) : Prop :=
  ∃ b a, My.parse s = .ok b ∧ My.parse s' = .ok a ∧ DistinctObjects (My.ops sd) a ∧ (∀ t, .createTable t ∈ a → My.DistinctNames t) ∧
    diff (My.ops sd) (some b) (some a) = .err .noDifference ∧ ¬ SameSchema My.SameTable My.SameIndex b a

/-- C59 is violated: the action of a foreign key is not compared. -/
theorem C59_mysql_action_fails (sd : Str → Str → Str) :
    MissedMy sd s%"CREATE TABLE t (a BIGINT, CONSTRAINT f FOREIGN KEY (a) REFERENCES p (x) ON DELETE CASCADE)"
      s%"CREATE TABLE t (a BIGINT, CONSTRAINT f FOREIGN KEY (a) REFERENCES p (x))" :=
  ⟨_, _, rfl, rfl, show DistinctObjects (My.ops fun _ _ => []) _ by decide +kernel, by decide +kernel, rfl, by decide +kernel⟩

/-- C59 is violated: an option of the table that is gone is no difference. -/
theorem C59_mysql_option_fails (sd : Str → Str → Str) :
    MissedMy sd s%"CREATE TABLE t (a BIGINT) COMMENT='x'"
      s%"CREATE TABLE t (a BIGINT)" :=
  ⟨_, _, rfl, rfl, show DistinctObjects (My.ops fun _ _ => []) _ by decide +kernel, by decide +kernel, rfl, by decide +kernel⟩

/-- C59 is violated: another index method is no difference. -/
theorem C59_mysql_method_fails (sd : Str → Str → Str) :
    MissedMy sd s%"CREATE INDEX i ON t USING BTREE (a)"
      s%"CREATE INDEX i ON t USING HASH (a)" :=
  ⟨_, _, rfl, rfl, show DistinctObjects (My.ops fun _ _ => []) _ by decide +kernel, by decide +kernel, rfl, by decide +kernel⟩

/-- C59 is violated: a quoted identifier with a comma is confused with two columns. -/
theorem C59_mysql_quoted_fails (sd : Str → Str → Str) :
    MissedMy sd s%"CREATE TABLE t (a BIGINT, `a, b` BIGINT, b BIGINT, KEY k (a, b))"
      s%"CREATE TABLE t (a BIGINT, `a, b` BIGINT, b BIGINT, KEY k (`a, b`))" :=
  ⟨_, _, rfl, rfl, show DistinctObjects (My.ops fun _ _ => []) _ by decide +kernel, by decide +kernel, rfl, by decide +kernel⟩

/-- C59 (partial): for Spanner there is no difference between two schemas exactly if every table and index of either schema has an
alike one in the other schema.  Missing: schemas whose texts are ambiguous; and alike is less than same, see the theorems
`C59_spanner_…_fails`. -/
theorem C59_spanner_partial (sd : Str → Str → Str) {b a : List Sp.SStmt} (cb : CreateOnly (Sp.ops sd) b)
    (ca : CreateOnly (Sp.ops sd) a) (da : DistinctObjects (Sp.ops sd) a) (tb : Sp.Comparable b) (ta : Sp.Comparable a)
    (hn : ∀ t, .createTable t ∈ a → Sp.DistinctNames t) (told : Told (Sp.ops sd) b a) :
    diff (Sp.ops sd) (some b) (some a) = .err .noDifference ↔ SameSchema Sp.CreateTable.Alike Sp.CreateIndex.Alike b a :=
  Sp.noDiff_iff cb ca da tb ta hn told

set_option maxRecDepth 8000 in
set_option maxHeartbeats 1000000 in
example : ∃ s s' b a, Sp.parse s = .ok b ∧ Sp.parse s' = .ok a ∧ CreateOnly (Sp.ops fun _ _ => []) b ∧
    CreateOnly (Sp.ops fun _ _ => []) a ∧ DistinctObjects (Sp.ops fun _ _ => []) a ∧ Sp.Comparable b ∧ Sp.Comparable a ∧
    (∀ t, .createTable t ∈ a → Sp.DistinctNames t) ∧ Told (Sp.ops fun _ _ => []) b a ∧
    diff (Sp.ops fun _ _ => []) (some b) (some a) = .err .noDifference ∧ b ≠ a := by
  refine ⟨s%"CREATE TABLE t (a INT64 NOT NULL DEFAULT (1), b STRING(10) OPTIONS (allow_commit_timestamp=true), d TIMESTAMP,
      CONSTRAINT f FOREIGN KEY (a) REFERENCES p (x), CONSTRAINT c CHECK (a > 0)) PRIMARY KEY (a),
      ROW DELETION POLICY (OLDER_THAN(d, INTERVAL 30 DAY));
    CREATE TABLE v (x INT64) PRIMARY KEY (x); CREATE INDEX i ON t (a, b DESC)",
    s%"CREATE INDEX `i` ON t USING x (a ASC, b DESC); CREATE TABLE v (x INT64) PRIMARY KEY (`x`);
    CREATE TABLE `t` (d TIMESTAMP, b STRING(10) OPTIONS (allow_commit_timestamp=true), a INT64 NOT NULL DEFAULT (1),
      CONSTRAINT c CHECK (a > 0), CONSTRAINT f FOREIGN KEY (a) REFERENCES `p` (x ASC)) PRIMARY KEY (a),
      ROW DELETION POLICY (OLDER_THAN(d, INTERVAL 30 DAY))",
    _, _, rfl, rfl, by decide +kernel, by decide +kernel, by decide +kernel, ⟨by decide +kernel, by decide +kernel⟩,
    ⟨by decide +kernel, by decide +kernel⟩, by decide +kernel, by decide +kernel, by decide +kernel, by decide +kernel⟩

set_option maxRecDepth 8000 in
set_option maxHeartbeats 1000000 in
example : ∃ s s' b a, Sp.parse s = .ok b ∧ Sp.parse s' = .ok a ∧ CreateOnly (Sp.ops fun _ _ => []) b ∧
    CreateOnly (Sp.ops fun _ _ => []) a ∧ DistinctObjects (Sp.ops fun _ _ => []) a ∧ Sp.Comparable b ∧ Sp.Comparable a ∧
    (∀ t, .createTable t ∈ a → Sp.DistinctNames t) ∧ Told (Sp.ops fun _ _ => []) b a ∧
    diff (Sp.ops fun _ _ => []) (some b) (some a) ≠ .err .noDifference := by
  refine ⟨s%"CREATE TABLE t (a INT64, b INT64) PRIMARY KEY (a)",
    s%"CREATE TABLE t (b INT64 NOT NULL, a INT64) PRIMARY KEY (a)",
    _, _, rfl, rfl, by decide +kernel, by decide +kernel, by decide +kernel, ⟨by decide +kernel, by decide +kernel⟩,
    ⟨by decide +kernel, by decide +kernel⟩, by decide +kernel, by decide +kernel, by decide +kernel⟩

/-- Both texts are read by the dialect, their definitions have distinct names, there is no difference, and yet they do not define the
same. -/
abbrev MissedSp (sd : Str → Str → Str) (s s' : Str) : Prop :=
  ∃ b a, Sp.parse s = .ok b ∧ Sp.parse s' = .ok a ∧ DistinctObjects (Sp.ops sd) a ∧ (∀ t, .createTable t ∈ a → Sp.DistinctNames t) ∧
    diff (Sp.ops sd) (some b) (some a) = .err .noDifference ∧ ¬ SameSchema Sp.SameTable Sp.SameIndex b a

/-- C59 is violated: another index method is no difference. -/
theorem C59_spanner_method_fails (sd : Str → Str → Str) :
    MissedSp sd s%"CREATE INDEX i ON t USING x (a)"
      s%"CREATE INDEX i ON t USING y (a)" :=
  ⟨_, _, rfl, rfl, show DistinctObjects (Sp.ops fun _ _ => []) _ by decide +kernel, by decide +kernel, rfl, by decide +kernel⟩

/-- C59 is violated: a quoted identifier is confused with the columns it spells. -/
theorem C59_spanner_quoted_fails (sd : Str → Str → Str) :
    MissedSp sd s%"CREATE INDEX i ON t (a, b)"
      s%"CREATE INDEX i ON t (`a ASC, b`)" :=
  ⟨_, _, rfl, rfl, show DistinctObjects (Sp.ops fun _ _ => []) _ by decide +kernel, by decide +kernel, rfl, by decide +kernel⟩

/-- C59 is violated: a quoted identifier in the primary key is confused with the columns it spells. -/
theorem C59_spanner_primary_key_fails (sd : Str → Str → Str) :
    MissedSp sd s%"CREATE TABLE t (a INT64, b INT64) PRIMARY KEY (a, b)"
      s%"CREATE TABLE t (a INT64, b INT64) PRIMARY KEY (`a , b`)" :=
  ⟨_, _, rfl, rfl, show DistinctObjects (Sp.ops fun _ _ => []) _ by decide +kernel, by decide +kernel, rfl, by decide +kernel⟩

end Ddl.Props
