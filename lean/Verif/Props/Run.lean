import Verif.Lemmas.RunSp
import Verif.Lemmas.RunCrdb
import Verif.Lemmas.RunMy
import Verif.Lemmas.RunFails
import Verif.Lemmas.DecideRun

/-! # Executing the alterations of a table gives the new table: C46

The tables, what statements do to them (`Step`), `Good` and `NoHazard` are in `Verif/Spec/Run.lean`.
`sd` is `simplediff.Diff(a, b).String()`, arbitrary.  PostgreSQL, with whole schemas, is C03. -/

namespace Ddl.Props
open Ddl Spec
set_option autoImplicit false

/-! ## Spanner -/

/-- C46 (partial): the statements of `DiffCreateTable`, executed in order, all succeed and turn the table `b` into the table `a`, where
no table is also possible; if there are none, the two are printed alike or are the same table.  Missing: the changes excluded by
`NoHazard`, see `C46_spanner_fails`, tables that are not `Good`, and a new name without the schema of the old one, see
`C46_schema_fails`. -/
theorem C46_spanner_partial (sd : Str → Str → Str) {b a : Option Sp.CreateTable} (hb : ∀ t, b = some t → Sp.Run.Good t)
    (ha : ∀ t, a = some t → Sp.Run.Good t)
    (hz : ∀ t t', b = some t → a = some t' → Sp.Run.NoHazard t t' ∧ (t'.name.schema = none → t.name.schema = none)) :
    (∀ l, Sp.diffCreateTable sd false b a = .ok l → Runs Sp.Run.Step (b.map Sp.Run.tableOf) l (a.map Sp.Run.tableOf)) ∧
    ∀ t t' e, b = some t → a = some t' → Sp.diffCreateTable sd false b a = .err e → t.str = t'.str ∨ Sp.Run.tableOf t = Sp.Run.tableOf t' := by
  refine ⟨fun l => Sp.Run.diff_runs hb ha hz, ?_⟩
  rintro t t' e rfl rfl h
  exact (Classical.em _).imp_right fun hne =>
    Sp.Run.diff_same (hb t rfl) (ha t' rfl) (hz t t' rfl rfl).1 (hz t t' rfl rfl).2 hne h

set_option maxRecDepth 8000 in
example : ∃ t t' l, Sp.parse s%"CREATE TABLE t (a INT64 NOT NULL, b STRING(10) DEFAULT ('x'), c INT64,
      d INT64 OPTIONS (allow_commit_timestamp = true), CONSTRAINT k FOREIGN KEY (a) REFERENCES u (x), CONSTRAINT gone CHECK (c > 0))
      PRIMARY KEY (a)" = .ok [.createTable t] ∧
    Sp.parse s%"CREATE TABLE t (a INT64 NOT NULL, b STRING(20) NOT NULL, d INT64, e INT64,
      CONSTRAINT k FOREIGN KEY (a, e) REFERENCES u (x, y), CONSTRAINT new CHECK (e > 0))
      PRIMARY KEY (a), ROW DELETION POLICY (OLDER_THAN(e, INTERVAL 30 DAY))" = .ok [.createTable t'] ∧
    Sp.Run.Good t ∧ Sp.Run.Good t' ∧ Sp.Run.NoHazard t t' ∧
    Sp.diffCreateTable (fun _ _ => []) false (some t) (some t') = .ok l ∧ l.length = 10 :=
  ⟨_, _, _, rfl, rfl, by decide +kernel, by decide +kernel, by decide +kernel, rfl, by decide +kernel⟩

/-- C46 is violated: a column is dropped before the constraint that mentions it, if this constraint is changed. -/
theorem C46_spanner_fails (sd : Str → Str → Str) : ∃ t t' l,
    Sp.parse s%"CREATE TABLE t (a INT64, b INT64, CONSTRAINT k FOREIGN KEY (a, b) REFERENCES u (x, y)) PRIMARY KEY (a)" = .ok [.createTable t] ∧
    Sp.parse s%"CREATE TABLE t (a INT64, CONSTRAINT k FOREIGN KEY (a) REFERENCES u (x)) PRIMARY KEY (a)" = .ok [.createTable t'] ∧
    Sp.Run.Good t ∧ Sp.Run.Good t' ∧ Sp.diffCreateTable sd false (some t) (some t') = .ok l ∧
    ∀ D, ¬ Runs Sp.Run.Step (some (Sp.Run.tableOf t)) l D :=
  ⟨_, _, _, rfl, rfl, by decide +kernel, by decide +kernel, rfl, fun _ => Sp.Run.not_dropColumn (j := s%"k") rfl (by decide +kernel)⟩

/-! ## CockroachDB -/

/-- C46 (partial) for CockroachDB.  Missing: the changes excluded by `NoHazard`, see the theorems `C46_cockroachdb_…_fails`, tables that
are not `Good`, and a new name without the schema of the old one. -/
theorem C46_cockroachdb_partial (sd : Str → Str → Str) {b a : Option Crdb.CreateTable} (hb : ∀ t, b = some t → Crdb.Run.Good t)
    (ha : ∀ t, a = some t → Crdb.Run.Good t)
    (hz : ∀ t t', b = some t → a = some t' → Crdb.Run.NoHazard t t' ∧ (t'.name.schema = none → t.name.schema = none)) :
    (∀ l, Crdb.diffCreateTable sd false b a = .ok l → Runs Crdb.Run.Step (b.map Crdb.Run.tableOf) l (a.map Crdb.Run.tableOf)) ∧
    ∀ t t' e, b = some t → a = some t' → Crdb.diffCreateTable sd false b a = .err e →
      t.str = t'.str ∨ Crdb.Run.tableOf t = Crdb.Run.tableOf t' := by
  refine ⟨fun l => Crdb.Run.diff_runs hb ha hz, ?_⟩
  rintro t t' e rfl rfl h
  exact (Classical.em _).imp_right fun hne =>
    Crdb.Run.diff_same (hb t rfl) (ha t' rfl) (hz t t' rfl rfl).1 (hz t t' rfl rfl).2 hne h

set_option maxRecDepth 8000 in
example : ∃ t t' l, Crdb.parse s%"CREATE TABLE t (a INT NOT NULL, b STRING DEFAULT 'q', c INT CHECK (c > 0), d INT, v INT NOT NULL AS (a) STORED,
      CONSTRAINT p PRIMARY KEY (a), INDEX i (a), INDEX old (d))" = .ok [.createTable t] ∧
    Crdb.parse s%"CREATE TABLE t (a UUID NOT NULL, b VARCHAR(20) NOT NULL, d INT DEFAULT 3, e INT CHECK (e > 0), v INT NOT NULL AS (a) STORED,
      CONSTRAINT p PRIMARY KEY (a, d), CONSTRAINT f FOREIGN KEY (e) REFERENCES u (x), UNIQUE INDEX i (a, e DESC))" = .ok [.createTable t'] ∧
    Crdb.Run.Good t ∧ Crdb.Run.Good t' ∧ Crdb.Run.NoHazard t t' ∧
    Crdb.diffCreateTable (fun _ _ => []) false (some t) (some t') = .ok l ∧ l.length = 15 :=
  ⟨_, _, _, rfl, rfl, by decide +kernel, by decide +kernel, by decide +kernel, rfl, by decide +kernel⟩

/-- Both texts are one good table each, but a statement of the diff fails. -/
abbrev CrdbStuck (sd : Str → Str → Str) (s s' : Str) : Prop := ∃ t t' l, Crdb.parse s = .ok [.createTable t] ∧ Crdb.parse s' = .ok [.createTable t'] ∧
  Crdb.Run.Good t ∧ Crdb.Run.Good t' ∧ Crdb.diffCreateTable sd false (some t) (some t') = .ok l ∧
  ∀ D, ¬ Runs Crdb.Run.Step (some (Crdb.Run.tableOf t)) l D

/-- Both texts are one good table each, which differ, but no difference is found. -/
abbrev CrdbMissed (sd : Str → Str → Str) (s s' : Str) : Prop := ∃ t t', Crdb.parse s = .ok [.createTable t] ∧ Crdb.parse s' = .ok [.createTable t'] ∧
  Crdb.Run.Good t ∧ Crdb.Run.Good t' ∧ Crdb.diffCreateTable sd false (some t) (some t') = .err .noDifference ∧
  Crdb.Run.tableOf t ≠ Crdb.Run.tableOf t'

/-- C46 is violated: a column is dropped before the index that mentions it, if this index is changed. -/
theorem C46_cockroachdb_dropped_fails (sd : Str → Str → Str) :
    CrdbStuck sd s%"CREATE TABLE t (a INT, b INT, INDEX k (a, b))" s%"CREATE TABLE t (a INT, INDEX k (a))" :=
  ⟨_, _, _, rfl, rfl, by decide +kernel, by decide +kernel, rfl, fun _ => Crdb.Run.not_dropColumn (j := s%"k") rfl (by decide +kernel)⟩

/-- C46 is violated: a hidden virtual column is not dropped. -/
theorem C46_cockroachdb_hidden_fails (sd : Str → Str → Str) :
    CrdbMissed sd s%"CREATE TABLE t (a INT, b INT NOT VISIBLE NOT NULL AS (a) VIRTUAL)" s%"CREATE TABLE t (a INT)" :=
  ⟨_, _, rfl, rfl, by decide +kernel, by decide +kernel, rfl, fun e =>
    absurd (congrFun (congrArg Crdb.Run.Tbl.cols e) s%"b") (by decide +kernel)⟩

/-- C46 is violated: another computation of a column is no difference. -/
theorem C46_cockroachdb_computed_fails (sd : Str → Str → Str) :
    CrdbMissed sd s%"CREATE TABLE t (a INT, b INT, c INT NOT NULL AS (a) STORED)" s%"CREATE TABLE t (a INT, b INT, c INT NOT NULL AS (b) STORED)" :=
  ⟨_, _, rfl, rfl, by decide +kernel, by decide +kernel, rfl, fun e =>
    absurd (congrFun (congrArg Crdb.Run.Tbl.cols e) s%"c") (by decide +kernel)⟩

/-- C46 is violated: an index is dropped as if it were a constraint, if there is a constraint of its name. -/
theorem C46_cockroachdb_kind_fails (sd : Str → Str → Str) :
    CrdbStuck sd s%"CREATE TABLE t (a INT, INDEX k (a))" s%"CREATE TABLE t (a INT, CONSTRAINT k FOREIGN KEY (a) REFERENCES u (x))" :=
  ⟨_, _, _, rfl, rfl, by decide +kernel, by decide +kernel, rfl, fun _ => Crdb.Run.not_dropConstraint rfl⟩

/-! ## MySQL -/

/-- C46 (partial) for MySQL.  Missing: the changes excluded by `NoHazard`, see the theorems `C46_mysql_…_fails`, tables that are not
`Good`, and a new name without the schema of the old one. -/
theorem C46_mysql_partial (sd : Str → Str → Str) {b a : Option My.CreateTable} (hb : ∀ t, b = some t → My.Run.Good t)
    (ha : ∀ t, a = some t → My.Run.Good t)
    (hz : ∀ t t', b = some t → a = some t' → My.Run.NoHazard t t' ∧ (t'.name.schema = none → t.name.schema = none)) :
    (∀ l, My.diffCreateTable sd false b a = .ok l → Runs My.Run.Step (b.map My.Run.tableOf) l (a.map My.Run.tableOf)) ∧
    ∀ t t' e, b = some t → a = some t' → My.diffCreateTable sd false b a = .err e →
      t.str = t'.str ∨ My.Run.tableOf t = My.Run.tableOf t' := by
  refine ⟨fun l => My.Run.diff_runs hb ha hz, ?_⟩
  rintro t t' e rfl rfl h
  exact (Classical.em _).imp_right fun hne =>
    My.Run.diff_same (hb t rfl) (ha t' rfl) (hz t t' rfl rfl).1 (hz t t' rfl rfl).2 hne h

set_option maxRecDepth 8000 in
example : ∃ t t' l, My.parse s%"CREATE TABLE t (a INT NOT NULL, b TEXT DEFAULT 'q', c INT, d INT, w VARCHAR(5) CHARACTER SET utf8 NULL,
      PRIMARY KEY (a), CONSTRAINT k CHECK (c > 0), KEY i (a), KEY old (d)) ENGINE=InnoDB AUTO_INCREMENT=5" = .ok [.createTable t] ∧
    My.parse s%"CREATE TABLE t (a BIGINT NOT NULL AUTO_INCREMENT, b VARCHAR(20) NOT NULL, d INT DEFAULT 3, e INT,
      w VARCHAR(5) CHARACTER SET utf8 NULL, PRIMARY KEY (a, d), CONSTRAINT f FOREIGN KEY (e) REFERENCES u (x),
      UNIQUE KEY i (a, e)) ENGINE=MyISAM DEFAULT CHARSET=utf8" = .ok [.createTable t'] ∧
    My.Run.Good t ∧ My.Run.Good t' ∧ My.Run.NoHazard t t' ∧
    My.diffCreateTable (fun _ _ => []) false (some t) (some t') = .ok l ∧ l.length = 15 :=
  ⟨_, _, _, rfl, rfl, by decide +kernel, by decide +kernel, by decide +kernel, rfl, by decide +kernel⟩

/-- Both texts are one good table each, but a statement of the diff fails. -/
abbrev MyStuck (sd : Str → Str → Str) (s s' : Str) : Prop := ∃ t t' l, My.parse s = .ok [.createTable t] ∧ My.parse s' = .ok [.createTable t'] ∧
  My.Run.Good t ∧ My.Run.Good t' ∧ My.diffCreateTable sd false (some t) (some t') = .ok l ∧
  ∀ D, ¬ Runs My.Run.Step (some (My.Run.tableOf t)) l D

/-- Both texts are one good table each, which differ, but no difference is found. -/
abbrev MyMissed (sd : Str → Str → Str) (s s' : Str) : Prop := ∃ t t', My.parse s = .ok [.createTable t] ∧ My.parse s' = .ok [.createTable t'] ∧
  My.Run.Good t ∧ My.Run.Good t' ∧ My.diffCreateTable sd false (some t) (some t') = .err .noDifference ∧
  My.Run.tableOf t ≠ My.Run.tableOf t'

/-- C46 is violated: a column is dropped before the constraint that mentions it, if this constraint is changed. -/
theorem C46_mysql_dropped_fails (sd : Str → Str → Str) :
    MyStuck sd s%"CREATE TABLE t (a INT, b INT, CONSTRAINT k CHECK (b > 0))" s%"CREATE TABLE t (a INT, CONSTRAINT k CHECK (a > 0))" :=
  ⟨_, _, _, rfl, rfl, by decide +kernel, by decide +kernel, rfl, fun _ => My.Run.not_dropColumn (j := s%"k") rfl (by decide +kernel)⟩

/-- C46 is violated: a change of a column loses its character set. -/
theorem C46_mysql_characterSet_fails (sd : Str → Str → Str) : ∃ t t' l,
    My.parse s%"CREATE TABLE t (a VARCHAR(10) CHARACTER SET utf8 NULL)" = .ok [.createTable t] ∧
    My.parse s%"CREATE TABLE t (a VARCHAR(20) CHARACTER SET utf8 NULL)" = .ok [.createTable t'] ∧
    My.Run.Good t ∧ My.Run.Good t' ∧ My.diffCreateTable sd false (some t) (some t') = .ok l ∧
    ¬ Runs My.Run.Step (some (My.Run.tableOf t)) l (some (My.Run.tableOf t')) :=
  ⟨_, _, _, rfl, rfl, by decide +kernel, by decide +kernel, rfl, fun h => absurd (My.Run.modify_characterSet h) (by decide +kernel)⟩

/-- C46 is violated: another action of a foreign key is no difference. -/
theorem C46_mysql_action_fails (sd : Str → Str → Str) :
    MyMissed sd s%"CREATE TABLE t (a INT, CONSTRAINT f FOREIGN KEY (a) REFERENCES u (x) ON DELETE CASCADE)"
      s%"CREATE TABLE t (a INT, CONSTRAINT f FOREIGN KEY (a) REFERENCES u (x))" :=
  ⟨_, _, rfl, rfl, by decide +kernel, by decide +kernel, rfl, fun e =>
    absurd (congrFun (congrArg My.Run.Tbl.cons e) s%"f") (by decide +kernel)⟩

/-- C46 is violated: an option that is removed is no difference. -/
theorem C46_mysql_option_fails (sd : Str → Str → Str) :
    MyMissed sd s%"CREATE TABLE t (a INT) ENGINE=InnoDB" s%"CREATE TABLE t (a INT)" :=
  ⟨_, _, rfl, rfl, by decide +kernel, by decide +kernel, rfl, fun e =>
    absurd (congrFun (congrArg My.Run.Tbl.options e) s%"ENGINE") (by decide +kernel)⟩

/-- C46 is violated: an index is dropped as if it were a constraint, if there is a constraint of its name. -/
theorem C46_mysql_kind_fails (sd : Str → Str → Str) :
    MyStuck sd s%"CREATE TABLE t (a INT, KEY k (a))" s%"CREATE TABLE t (a INT, CONSTRAINT k CHECK (a > 0))" :=
  ⟨_, _, _, rfl, rfl, by decide +kernel, by decide +kernel, rfl, fun _ => My.Run.not_dropConstraint (c := ⟨_, true⟩) rfl trivial⟩

/-- C46 is violated: a new name without schema gets the schema of the old one. -/
theorem C46_schema_fails (sd : Str → Str → Str) : ∃ t t' l, My.parse s%"CREATE TABLE s.t (a INT)" = .ok [.createTable t] ∧
    My.parse s%"CREATE TABLE t (a INT)" = .ok [.createTable t'] ∧
    My.Run.Good t ∧ My.Run.Good t' ∧ My.diffCreateTable sd false (some t) (some t') = .ok l ∧
    ¬ Runs My.Run.Step (some (My.Run.tableOf t)) l (some (My.Run.tableOf t')) :=
  ⟨_, _, _, rfl, rfl, by decide +kernel, by decide +kernel, rfl, fun h => absurd (My.Run.rename_name h) (by decide +kernel)⟩

end Ddl.Props
