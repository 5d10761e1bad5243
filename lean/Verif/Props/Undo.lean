import Verif.Lemmas.Undo

/-! # Migrations can be undone, and do not depend on the way: C68

`Migrates`, `Undone`, `AnyPath`, `Known` and `Way` are in `Verif/Spec/Undo.lean`, the databases in `Verif/Spec/Db.lean` and
`Verif/Spec/Schema*.lean`.  `sd` is `simplediff.Diff(a, b).String()`, arbitrary. -/

namespace Ddl.Props
open Ddl Spec
set_option autoImplicit false

/-- C68 (partial), PostgreSQL: the migration from `b` to `a` works, and the migration from `a` to `b` leads back to the database of `b`, and
only there.  Missing: the changes excluded by `NoHazard`, in both directions, see `C68_postgres_undo_fails`. -/
theorem C68_postgres_undo_partial (sd : Str → Str → Str) {b a : List Pg.PStmt} {B A : Pg.Db.Catalog} (kb : Pg.Db.Known sd b B) (ka : Pg.Db.Known sd a A)
    (w : Pg.Db.NoHazard b a) (w' : Pg.Db.NoHazard a b) : Undone (Pg.ops sd) Pg.Db.Execs b a B :=
  undone_of Pg.Db.execs_functional (Pg.Db.migrates kb ka w) (Pg.Db.migrates ka kb w')

/-- C68 (partial), PostgreSQL: going from `b` to `m` and then to `a` gives the database that going from `b` to `a` gives.  Missing: the
changes excluded by `NoHazard`, see `C68_postgres_path_fails`. -/
theorem C68_postgres_path_partial (sd : Str → Str → Str) {b m a : List Pg.PStmt} {B M A : Pg.Db.Catalog} (kb : Pg.Db.Known sd b B) (km : Pg.Db.Known sd m M)
    (ka : Pg.Db.Known sd a A) (w : Pg.Db.NoHazard b m) (w' : Pg.Db.NoHazard m a) (w'' : Pg.Db.NoHazard b a) :
    AnyPath (Pg.ops sd) Pg.Db.Execs b m a B :=
  anyPath_of Pg.Db.execs_functional (Pg.Db.migrates kb km w) (Pg.Db.migrates km ka w') (Pg.Db.migrates kb ka w'')

set_option maxRecDepth 8000 in
set_option maxHeartbeats 1000000 in
example : ∃ b m a B M A l l', Pg.Db.Known (fun _ _ => []) b B ∧ Pg.Db.Known (fun _ _ => []) m M ∧ Pg.Db.Known (fun _ _ => []) a A ∧ Pg.Db.NoHazard b m ∧
    Pg.Db.NoHazard m a ∧ Pg.Db.NoHazard b a ∧ Pg.Db.NoHazard a b ∧
    diff (Pg.ops fun _ _ => []) (some b) (some a) = .ok l ∧ diff (Pg.ops fun _ _ => []) (some a) (some b) = .ok l' ∧ l.length = 12 ∧ l'.length = 12 :=
  ⟨_, _, _, _, _, _, _, _, ⟨⟨s%"CREATE TABLE u (x INT, y INT NOT NULL);
    CREATE TABLE t (a INT, b TEXT DEFAULT 'q', d INT, CONSTRAINT k UNIQUE (a));
    CREATE TABLE gone (z INT); CREATE INDEX i ON t (a)",
      ⟨_, writes_of_lex .postgres _ (by decide +kernel), by decide +kernel⟩, by decide +kernel, rfl⟩, by decide +kernel, by decide +kernel,
      (Pg.Db.loads (by decide +kernel)).choose_spec⟩,
    ⟨⟨s%"CREATE TABLE u (x BIGINT, y INT);
    CREATE TABLE t (a INT, b VARCHAR(20), CONSTRAINT k UNIQUE (a, b));
    CREATE INDEX i ON t (a)",
      ⟨_, writes_of_lex .postgres _ (by decide +kernel), by decide +kernel⟩, by decide +kernel, rfl⟩, by decide +kernel, by decide +kernel,
      (Pg.Db.loads (by decide +kernel)).choose_spec⟩,
    ⟨⟨s%"CREATE TABLE u (x BIGINT, y INT, v INT DEFAULT 3);
    CREATE TABLE t (a INT, b VARCHAR(20), e INT);
    CREATE TABLE fresh (z INT NOT NULL); CREATE UNIQUE INDEX i ON t (a, b)",
      ⟨_, writes_of_lex .postgres _ (by decide +kernel), by decide +kernel⟩, by decide +kernel, rfl⟩, by decide +kernel, by decide +kernel,
      (Pg.Db.loads (by decide +kernel)).choose_spec⟩,
    Pg.Db.noHazard_of (by decide +kernel), Pg.Db.noHazard_of (by decide +kernel), Pg.Db.noHazard_of (by decide +kernel),
    Pg.Db.noHazard_of (by decide +kernel), rfl, rfl, by decide +kernel, by decide +kernel⟩

/-- C68 is violated, PostgreSQL: the migration works, but not the one back. -/
theorem C68_postgres_undo_fails (sd : Str → Str → Str) : ∃ b a B A, Pg.parse s%"CREATE TABLE u (a INT)" = .ok b ∧
    Pg.parse s%"CREATE TABLE u (a INT); CREATE TABLE t (a INT); CREATE INDEX i ON t (a)" = .ok a ∧
    Pg.Db.Known sd b B ∧ Pg.Db.Known sd a A ∧ Migrates (Pg.ops sd) Pg.Db.Execs b a B A ∧ (∀ D, ¬ Migrates (Pg.ops sd) Pg.Db.Execs a b A D) ∧
    ¬ Undone (Pg.ops sd) Pg.Db.Execs b a B :=
  Pg.Db.undo_fails ⟨⟨_, writes_of_lex .postgres _ (by decide +kernel), by decide +kernel⟩, by decide +kernel, rfl⟩
    ⟨⟨_, writes_of_lex .postgres _ (by decide +kernel), by decide +kernel⟩, by decide +kernel, rfl⟩
    (by decide +kernel) (by decide +kernel) (by decide +kernel) (by decide +kernel) (by decide +kernel) (by decide +kernel) (by decide +kernel) rfl
    fun _ h _ => Pg.Db.not_dropTable_dropIndex h (.tail _ (.head _)) (.tail _ (.tail _ (.head _))) rfl

/-- C68 is violated, PostgreSQL: the migration works in two steps, but not in one. -/
theorem C68_postgres_path_fails (sd : Str → Str → Str) : ∃ b m a B M A, Pg.parse s%"CREATE TABLE t (a INT)" = .ok b ∧
    Pg.parse s%"CREATE TABLE t (a INT, b INT)" = .ok m ∧ Pg.parse s%"CREATE TABLE t (a INT, b INT); CREATE INDEX i ON t (b)" = .ok a ∧
    Pg.Db.Known sd b B ∧ Pg.Db.Known sd m M ∧ Pg.Db.Known sd a A ∧ Migrates (Pg.ops sd) Pg.Db.Execs b m B M ∧ Migrates (Pg.ops sd) Pg.Db.Execs m a M A ∧
    (∀ D, ¬ Migrates (Pg.ops sd) Pg.Db.Execs b a B D) ∧ ¬ AnyPath (Pg.ops sd) Pg.Db.Execs b m a B :=
  Pg.Db.path_fails ⟨⟨_, writes_of_lex .postgres _ (by decide +kernel), by decide +kernel⟩, by decide +kernel, rfl⟩
    ⟨⟨_, writes_of_lex .postgres _ (by decide +kernel), by decide +kernel⟩, by decide +kernel, rfl⟩
    ⟨⟨_, writes_of_lex .postgres _ (by decide +kernel), by decide +kernel⟩, by decide +kernel, rfl⟩
    (by decide +kernel) (by decide +kernel) (by decide +kernel) (by decide +kernel) (by decide +kernel) (by decide +kernel) (by decide +kernel)
    (by decide +kernel) (by decide +kernel) (by decide +kernel) (by decide +kernel) rfl
    fun _ h _ => Pg.Db.not_createIndex h (.head _) rfl (.head _) (by decide +kernel) rfl

/-- C68 (partial), CockroachDB: the migration from `b` to `a` works, and the migration from `a` to `b` leads back to the database of `b`, and
only there.  Missing: the changes excluded by `Way`, in both directions, see `C68_cockroachdb_undo_fails`. -/
theorem C68_cockroachdb_undo_partial (sd : Str → Str → Str) {b a : List Crdb.CStmt} {B A : Crdb.Run.Db} (kb : Crdb.Run.Known sd b B) (ka : Crdb.Run.Known sd a A)
    (w : Crdb.Run.Way sd b a) (w' : Crdb.Run.Way sd a b) : Undone (Crdb.ops sd) (Runs Crdb.Run.Exec) b a B :=
  undone_of Crdb.Run.runs_functional (Crdb.Run.migrates kb ka w) (Crdb.Run.migrates ka kb w')

/-- C68 (partial), CockroachDB: going from `b` to `m` and then to `a` gives the database that going from `b` to `a` gives.  Missing: the
changes excluded by `Way`, see `C68_cockroachdb_path_fails`. -/
theorem C68_cockroachdb_path_partial (sd : Str → Str → Str) {b m a : List Crdb.CStmt} {B M A : Crdb.Run.Db} (kb : Crdb.Run.Known sd b B) (km : Crdb.Run.Known sd m M)
    (ka : Crdb.Run.Known sd a A) (w : Crdb.Run.Way sd b m) (w' : Crdb.Run.Way sd m a) (w'' : Crdb.Run.Way sd b a) :
    AnyPath (Crdb.ops sd) (Runs Crdb.Run.Exec) b m a B :=
  anyPath_of Crdb.Run.runs_functional (Crdb.Run.migrates kb km w) (Crdb.Run.migrates km ka w') (Crdb.Run.migrates kb ka w'')

set_option maxRecDepth 8000 in
set_option maxHeartbeats 1000000 in
example : ∃ b m a B M A l l', Crdb.parse s%"CREATE TABLE u (x INT8, y INT8 NOT NULL);
    CREATE TABLE t (a INT8, b STRING DEFAULT 'q', d INT8, UNIQUE INDEX k (a));
    CREATE TABLE gone (z INT8); CREATE INDEX i ON t (a)" = .ok b ∧
    Crdb.parse s%"CREATE TABLE u (x INT8, y INT8);
    CREATE TABLE t (a INT8, b VARCHAR(20));
    CREATE INDEX i ON t (a)" = .ok m ∧
    Crdb.parse s%"CREATE TABLE u (x INT8, y INT8, v INT8 DEFAULT 3);
    CREATE TABLE t (a INT8, b VARCHAR(20), e INT8, INDEX l (b));
    CREATE TABLE fresh (z INT8 NOT NULL); CREATE UNIQUE INDEX i ON t (a, b)" = .ok a ∧
    Crdb.Run.Known (fun _ _ => []) b B ∧ Crdb.Run.Known (fun _ _ => []) m M ∧ Crdb.Run.Known (fun _ _ => []) a A ∧ Crdb.Run.Way (fun _ _ => []) b m ∧
    Crdb.Run.Way (fun _ _ => []) m a ∧ Crdb.Run.Way (fun _ _ => []) b a ∧ Crdb.Run.Way (fun _ _ => []) a b ∧
    diff (Crdb.ops fun _ _ => []) (some b) (some a) = .ok l ∧ diff (Crdb.ops fun _ _ => []) (some a) (some b) = .ok l' ∧ l.length = 12 ∧ l'.length = 12 :=
  ⟨_, _, _, _, _, _, _, _, rfl, rfl, rfl, ⟨by decide +kernel, by decide +kernel, by decide +kernel, Crdb.Run.loads (by decide +kernel)⟩,
    ⟨by decide +kernel, by decide +kernel, by decide +kernel, Crdb.Run.loads (by decide +kernel)⟩,
    ⟨by decide +kernel, by decide +kernel, by decide +kernel, Crdb.Run.loads (by decide +kernel)⟩,
    ⟨by decide +kernel, by decide +kernel, Crdb.Run.noSchemaHazard_of (by decide +kernel)⟩, ⟨by decide +kernel, by decide +kernel, Crdb.Run.noSchemaHazard_of (by decide +kernel)⟩,
    ⟨by decide +kernel, by decide +kernel, Crdb.Run.noSchemaHazard_of (by decide +kernel)⟩,
    ⟨by decide +kernel, by decide +kernel, Crdb.Run.noSchemaHazard_of (by decide +kernel)⟩, rfl, rfl, by decide +kernel, by decide +kernel⟩

/-- C68 is violated, CockroachDB: the migration works, but not the one back. -/
theorem C68_cockroachdb_undo_fails (sd : Str → Str → Str) : ∃ b a B A, Crdb.parse s%"CREATE TABLE u (a INT8)" = .ok b ∧
    Crdb.parse s%"CREATE TABLE u (a INT8); CREATE TABLE t (a INT8); CREATE INDEX i ON t (a)" = .ok a ∧
    Crdb.Run.Known sd b B ∧ Crdb.Run.Known sd a A ∧ Migrates (Crdb.ops sd) (Runs Crdb.Run.Exec) b a B A ∧ (∀ D, ¬ Migrates (Crdb.ops sd) (Runs Crdb.Run.Exec) a b A D) ∧
    ¬ Undone (Crdb.ops sd) (Runs Crdb.Run.Exec) b a B :=
  Crdb.Run.undo_fails rfl rfl (Crdb.Run.known_of (by decide +kernel) (by decide +kernel) (by decide +kernel) (by decide +kernel))
    (Crdb.Run.known_of (by decide +kernel) (by decide +kernel) (by decide +kernel) (by decide +kernel)) (Crdb.Run.way_of (by decide +kernel) (by decide +kernel) (by decide +kernel)) rfl
    fun _ => Crdb.Run.not_dropTable_dropIndex (by decide +kernel) s%"i" s%"t" (by decide +kernel) rfl rfl

/-- C68 is violated, CockroachDB: the migration works in two steps, but not in one. -/
theorem C68_cockroachdb_path_fails (sd : Str → Str → Str) : ∃ b m a B M A, Crdb.parse s%"CREATE TABLE t (a INT8)" = .ok b ∧
    Crdb.parse s%"CREATE TABLE t (a INT8, b INT8)" = .ok m ∧ Crdb.parse s%"CREATE TABLE t (a INT8, b INT8); CREATE INDEX i ON t (b)" = .ok a ∧
    Crdb.Run.Known sd b B ∧ Crdb.Run.Known sd m M ∧ Crdb.Run.Known sd a A ∧ Migrates (Crdb.ops sd) (Runs Crdb.Run.Exec) b m B M ∧ Migrates (Crdb.ops sd) (Runs Crdb.Run.Exec) m a M A ∧
    (∀ D, ¬ Migrates (Crdb.ops sd) (Runs Crdb.Run.Exec) b a B D) ∧ ¬ AnyPath (Crdb.ops sd) (Runs Crdb.Run.Exec) b m a B :=
  Crdb.Run.path_fails rfl rfl rfl (Crdb.Run.known_of (by decide +kernel) (by decide +kernel) (by decide +kernel) (by decide +kernel))
    (Crdb.Run.known_of (by decide +kernel) (by decide +kernel) (by decide +kernel) (by decide +kernel))
    (Crdb.Run.known_of (by decide +kernel) (by decide +kernel) (by decide +kernel) (by decide +kernel))
    (Crdb.Run.way_of (by decide +kernel) (by decide +kernel) (by decide +kernel)) (Crdb.Run.way_of (by decide +kernel) (by decide +kernel) (by decide +kernel)) rfl
    fun _ => Crdb.Run.not_createIndex (by decide +kernel) (.head _) rfl (.head _) (by decide +kernel) rfl

/-- C68 (partial), MySQL: the migration from `b` to `a` works, and the migration from `a` to `b` leads back to the database of `b`, and
only there.  Missing: the changes excluded by `Way`, in both directions, see `C68_mysql_undo_fails`. -/
theorem C68_mysql_undo_partial (sd : Str → Str → Str) {b a : List My.MStmt} {B A : My.Run.Db} (kb : My.Run.Known sd b B) (ka : My.Run.Known sd a A)
    (w : My.Run.Way sd b a) (w' : My.Run.Way sd a b) : Undone (My.ops sd) (Runs My.Run.Exec) b a B :=
  undone_of My.Run.runs_functional (My.Run.migrates kb ka w) (My.Run.migrates ka kb w')

/-- C68 (partial), MySQL: going from `b` to `m` and then to `a` gives the database that going from `b` to `a` gives.  Missing: the
changes excluded by `Way`, see `C68_mysql_path_fails`. -/
theorem C68_mysql_path_partial (sd : Str → Str → Str) {b m a : List My.MStmt} {B M A : My.Run.Db} (kb : My.Run.Known sd b B) (km : My.Run.Known sd m M)
    (ka : My.Run.Known sd a A) (w : My.Run.Way sd b m) (w' : My.Run.Way sd m a) (w'' : My.Run.Way sd b a) :
    AnyPath (My.ops sd) (Runs My.Run.Exec) b m a B :=
  anyPath_of My.Run.runs_functional (My.Run.migrates kb km w) (My.Run.migrates km ka w') (My.Run.migrates kb ka w'')

set_option maxRecDepth 8000 in
set_option maxHeartbeats 1000000 in
example : ∃ b m a B M A l l', My.parse s%"CREATE TABLE u (x BIGINT, y BIGINT NOT NULL);
    CREATE TABLE t (a BIGINT, b TEXT, d BIGINT, CONSTRAINT w CHECK (a > 1));
    CREATE TABLE gone (z BIGINT); CREATE INDEX i ON t (a)" = .ok b ∧
    My.parse s%"CREATE TABLE u (x BIGINT, y BIGINT);
    CREATE TABLE t (a BIGINT, b VARCHAR(20));
    CREATE INDEX i ON t (a)" = .ok m ∧
    My.parse s%"CREATE TABLE u (x BIGINT, y BIGINT, v BIGINT DEFAULT 3);
    CREATE TABLE t (a BIGINT, b VARCHAR(20), e BIGINT);
    CREATE TABLE fresh (z BIGINT NOT NULL); CREATE INDEX i ON t (a)" = .ok a ∧
    My.Run.Known (fun _ _ => []) b B ∧ My.Run.Known (fun _ _ => []) m M ∧ My.Run.Known (fun _ _ => []) a A ∧ My.Run.Way (fun _ _ => []) b m ∧
    My.Run.Way (fun _ _ => []) m a ∧ My.Run.Way (fun _ _ => []) b a ∧ My.Run.Way (fun _ _ => []) a b ∧
    diff (My.ops fun _ _ => []) (some b) (some a) = .ok l ∧ diff (My.ops fun _ _ => []) (some a) (some b) = .ok l' ∧ l.length = 8 ∧ l'.length = 8 :=
  ⟨_, _, _, _, _, _, _, _, rfl, rfl, rfl, ⟨by decide +kernel, by decide +kernel, by decide +kernel, My.Run.loads (by decide +kernel)⟩,
    ⟨by decide +kernel, by decide +kernel, by decide +kernel, My.Run.loads (by decide +kernel)⟩,
    ⟨by decide +kernel, by decide +kernel, by decide +kernel, My.Run.loads (by decide +kernel)⟩,
    ⟨by decide +kernel, by decide +kernel, My.Run.noSchemaHazard_of (by decide +kernel)⟩, ⟨by decide +kernel, by decide +kernel, My.Run.noSchemaHazard_of (by decide +kernel)⟩,
    ⟨by decide +kernel, by decide +kernel, My.Run.noSchemaHazard_of (by decide +kernel)⟩,
    ⟨by decide +kernel, by decide +kernel, My.Run.noSchemaHazard_of (by decide +kernel)⟩, rfl, rfl, by decide +kernel, by decide +kernel⟩

set_option maxRecDepth 8000 in
/-- C68 is violated, MySQL: the migration works, but not the one back. -/
theorem C68_mysql_undo_fails (sd : Str → Str → Str) : ∃ b a B A, My.parse s%"CREATE TABLE v (a BIGINT)" = .ok b ∧
    My.parse s%"CREATE TABLE v (a BIGINT); CREATE TABLE t (a BIGINT); CREATE TABLE u (a BIGINT, CONSTRAINT f FOREIGN KEY (a) REFERENCES t (a))" = .ok a ∧
    My.Run.Known sd b B ∧ My.Run.Known sd a A ∧ Migrates (My.ops sd) (Runs My.Run.Exec) b a B A ∧ (∀ D, ¬ Migrates (My.ops sd) (Runs My.Run.Exec) a b A D) ∧
    ¬ Undone (My.ops sd) (Runs My.Run.Exec) b a B :=
  My.Run.undo_fails rfl rfl (My.Run.known_of (by decide +kernel) (by decide +kernel) (by decide +kernel) (by decide +kernel))
    (My.Run.known_of (by decide +kernel) (by decide +kernel) (by decide +kernel) (by decide +kernel)) (My.Run.way_of (by decide +kernel) (by decide +kernel) (by decide +kernel)) rfl
    fun _ => My.Run.not_dropTable_refers (by decide +kernel) (.tail _ (.head _)) (.tail _ (.tail _ (.head _))) (by decide +kernel) (k := s%"f") rfl rfl

/-- C68 is violated, MySQL: the migration works in two steps, but not in one. -/
theorem C68_mysql_path_fails (sd : Str → Str → Str) : ∃ b m a B M A, My.parse s%"CREATE TABLE t (a BIGINT)" = .ok b ∧
    My.parse s%"CREATE TABLE t (a BIGINT, b BIGINT)" = .ok m ∧ My.parse s%"CREATE TABLE t (a BIGINT, b BIGINT); CREATE INDEX i ON t (b)" = .ok a ∧
    My.Run.Known sd b B ∧ My.Run.Known sd m M ∧ My.Run.Known sd a A ∧ Migrates (My.ops sd) (Runs My.Run.Exec) b m B M ∧ Migrates (My.ops sd) (Runs My.Run.Exec) m a M A ∧
    (∀ D, ¬ Migrates (My.ops sd) (Runs My.Run.Exec) b a B D) ∧ ¬ AnyPath (My.ops sd) (Runs My.Run.Exec) b m a B :=
  My.Run.path_fails rfl rfl rfl (My.Run.known_of (by decide +kernel) (by decide +kernel) (by decide +kernel) (by decide +kernel))
    (My.Run.known_of (by decide +kernel) (by decide +kernel) (by decide +kernel) (by decide +kernel))
    (My.Run.known_of (by decide +kernel) (by decide +kernel) (by decide +kernel) (by decide +kernel))
    (My.Run.way_of (by decide +kernel) (by decide +kernel) (by decide +kernel)) (My.Run.way_of (by decide +kernel) (by decide +kernel) (by decide +kernel)) rfl
    fun _ => My.Run.not_createIndex (by decide +kernel) (.head _) rfl (.head _) (by decide +kernel)

/-- C68 (partial), Spanner: the migration from `b` to `a` works, and the migration from `a` to `b` leads back to the database of `b`, and
only there.  Missing: the changes excluded by `Way`, in both directions, see `C68_spanner_undo_fails`. -/
theorem C68_spanner_undo_partial (sd : Str → Str → Str) {b a : List Sp.SStmt} {B A : Sp.Run.Db} (kb : Sp.Run.Known sd b B) (ka : Sp.Run.Known sd a A)
    (w : Sp.Run.Way sd b a) (w' : Sp.Run.Way sd a b) : Undone (Sp.ops sd) (Runs Sp.Run.Exec) b a B :=
  undone_of Sp.Run.runs_functional (Sp.Run.migrates kb ka w) (Sp.Run.migrates ka kb w')

/-- C68 (partial), Spanner: going from `b` to `m` and then to `a` gives the database that going from `b` to `a` gives.  Missing: the
changes excluded by `Way`, see `C68_spanner_path_fails`. -/
theorem C68_spanner_path_partial (sd : Str → Str → Str) {b m a : List Sp.SStmt} {B M A : Sp.Run.Db} (kb : Sp.Run.Known sd b B) (km : Sp.Run.Known sd m M)
    (ka : Sp.Run.Known sd a A) (w : Sp.Run.Way sd b m) (w' : Sp.Run.Way sd m a) (w'' : Sp.Run.Way sd b a) :
    AnyPath (Sp.ops sd) (Runs Sp.Run.Exec) b m a B :=
  anyPath_of Sp.Run.runs_functional (Sp.Run.migrates kb km w) (Sp.Run.migrates km ka w') (Sp.Run.migrates kb ka w'')

set_option maxRecDepth 8000 in
set_option maxHeartbeats 1000000 in
example : ∃ b m a B M A l l', Sp.parse s%"CREATE TABLE u (x INT64, y INT64 NOT NULL) PRIMARY KEY (x);
    CREATE TABLE t (a INT64, b STRING(10), d INT64, CONSTRAINT w CHECK (a > 1)) PRIMARY KEY (a);
    CREATE TABLE gone (z INT64) PRIMARY KEY (z); CREATE INDEX i ON t (a)" = .ok b ∧
    Sp.parse s%"CREATE TABLE u (x INT64, y INT64) PRIMARY KEY (x);
    CREATE TABLE t (a INT64, b STRING(20)) PRIMARY KEY (a);
    CREATE INDEX i ON t (a)" = .ok m ∧
    Sp.parse s%"CREATE TABLE u (x INT64, y INT64, v INT64) PRIMARY KEY (x);
    CREATE TABLE t (a INT64, b STRING(20), e INT64) PRIMARY KEY (a);
    CREATE TABLE fresh (z INT64 NOT NULL) PRIMARY KEY (z); CREATE UNIQUE INDEX i ON t (a, b)" = .ok a ∧
    Sp.Run.Known (fun _ _ => []) b B ∧ Sp.Run.Known (fun _ _ => []) m M ∧ Sp.Run.Known (fun _ _ => []) a A ∧ Sp.Run.Way (fun _ _ => []) b m ∧
    Sp.Run.Way (fun _ _ => []) m a ∧ Sp.Run.Way (fun _ _ => []) b a ∧ Sp.Run.Way (fun _ _ => []) a b ∧
    diff (Sp.ops fun _ _ => []) (some b) (some a) = .ok l ∧ diff (Sp.ops fun _ _ => []) (some a) (some b) = .ok l' ∧ l.length = 10 ∧ l'.length = 10 :=
  ⟨_, _, _, _, _, _, _, _, rfl, rfl, rfl, ⟨by decide +kernel, by decide +kernel, by decide +kernel, Sp.Run.loads (by decide +kernel)⟩,
    ⟨by decide +kernel, by decide +kernel, by decide +kernel, Sp.Run.loads (by decide +kernel)⟩,
    ⟨by decide +kernel, by decide +kernel, by decide +kernel, Sp.Run.loads (by decide +kernel)⟩,
    ⟨by decide +kernel, by decide +kernel, Sp.Run.noSchemaHazard_of (by decide +kernel)⟩, ⟨by decide +kernel, by decide +kernel, Sp.Run.noSchemaHazard_of (by decide +kernel)⟩,
    ⟨by decide +kernel, by decide +kernel, Sp.Run.noSchemaHazard_of (by decide +kernel)⟩,
    ⟨by decide +kernel, by decide +kernel, Sp.Run.noSchemaHazard_of (by decide +kernel)⟩, rfl, rfl, by decide +kernel, by decide +kernel⟩

/-- C68 is violated, Spanner: the migration works, but not the one back. -/
theorem C68_spanner_undo_fails (sd : Str → Str → Str) : ∃ b a B A, Sp.parse s%"CREATE TABLE u (a INT64) PRIMARY KEY (a)" = .ok b ∧
    Sp.parse s%"CREATE TABLE u (a INT64) PRIMARY KEY (a); CREATE TABLE t (a INT64) PRIMARY KEY (a); CREATE INDEX i ON t (a)" = .ok a ∧
    Sp.Run.Known sd b B ∧ Sp.Run.Known sd a A ∧ Migrates (Sp.ops sd) (Runs Sp.Run.Exec) b a B A ∧ (∀ D, ¬ Migrates (Sp.ops sd) (Runs Sp.Run.Exec) a b A D) ∧
    ¬ Undone (Sp.ops sd) (Runs Sp.Run.Exec) b a B :=
  Sp.Run.undo_fails rfl rfl (Sp.Run.known_of (by decide +kernel) (by decide +kernel) (by decide +kernel) (by decide +kernel))
    (Sp.Run.known_of (by decide +kernel) (by decide +kernel) (by decide +kernel) (by decide +kernel)) (Sp.Run.way_of (by decide +kernel) (by decide +kernel) (by decide +kernel)) rfl
    fun _ => Sp.Run.not_dropTable_index (by decide +kernel) (.tail _ (.head _)) (.tail _ (.tail _ (.head _))) rfl

/-- C68 is violated, Spanner: the migration works in two steps, but not in one. -/
theorem C68_spanner_path_fails (sd : Str → Str → Str) : ∃ b m a B M A, Sp.parse s%"CREATE TABLE t (a INT64) PRIMARY KEY (a)" = .ok b ∧
    Sp.parse s%"CREATE TABLE t (a INT64, b INT64) PRIMARY KEY (a)" = .ok m ∧ Sp.parse s%"CREATE TABLE t (a INT64, b INT64) PRIMARY KEY (a); CREATE INDEX i ON t (b)" = .ok a ∧
    Sp.Run.Known sd b B ∧ Sp.Run.Known sd m M ∧ Sp.Run.Known sd a A ∧ Migrates (Sp.ops sd) (Runs Sp.Run.Exec) b m B M ∧ Migrates (Sp.ops sd) (Runs Sp.Run.Exec) m a M A ∧
    (∀ D, ¬ Migrates (Sp.ops sd) (Runs Sp.Run.Exec) b a B D) ∧ ¬ AnyPath (Sp.ops sd) (Runs Sp.Run.Exec) b m a B :=
  Sp.Run.path_fails rfl rfl rfl (Sp.Run.known_of (by decide +kernel) (by decide +kernel) (by decide +kernel) (by decide +kernel))
    (Sp.Run.known_of (by decide +kernel) (by decide +kernel) (by decide +kernel) (by decide +kernel))
    (Sp.Run.known_of (by decide +kernel) (by decide +kernel) (by decide +kernel) (by decide +kernel))
    (Sp.Run.way_of (by decide +kernel) (by decide +kernel) (by decide +kernel)) (Sp.Run.way_of (by decide +kernel) (by decide +kernel) (by decide +kernel)) rfl
    fun _ => Sp.Run.not_createIndex (by decide +kernel) (.head _) rfl (.head _) (by decide +kernel) rfl

end Ddl.Props
