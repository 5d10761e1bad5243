import Verif.Lemmas.SidesTables
import Verif.Lemmas.ParseCreates
import Verif.Lemmas.DecideSchema
import Verif.Lemmas.DecideSchemaCrdb
import Verif.Lemmas.DecideSchemaMy
import Verif.Lemmas.DecideTame
import Verif.Lemmas.DecideContent
import Verif.Lemmas.DecideSides

/-! # A difference is seen from both sides: C73

Whether two schemas differ does not depend on which of them is the old one: `ddlctl diff old new` reports no difference exactly if
`ddlctl diff new old` does.  The texts may be ambiguous here; that both comparisons may miss a difference is the matter of C59 and C46.

`FullValues`, `KeepsHidden` and `KeepsOptions` are in `Verif/Spec/Sides.lean`, `DistinctNames` in `Verif/Spec/Content.lean`,
`DistinctObjects` in `Verif/Spec/Objects.lean`.  `sd` is `simplediff.Diff(a, b).String()`, arbitrary. -/

namespace Ddl.Props
open Ddl Spec
set_option autoImplicit false

/-- C73 (partial): no difference between two PostgreSQL schemas is no difference the other way round.  Missing: names given twice and
`DEFAULT` without a value, see `C73_twice_fails` and `C73_default_fails`. -/
theorem C73_postgres_partial (sd : Str → Str → Str) {s s' : Str} {b a : List Pg.PStmt} (hb : Pg.parse s = .ok b)
    (ha : Pg.parse s' = .ok a) (db : DistinctObjects (Pg.ops sd) b) (da : DistinctObjects (Pg.ops sd) a)
    (nb : ∀ t, .createTable t ∈ b → Pg.DistinctNames t ∧ Pg.FullValues t) (na : ∀ t, .createTable t ∈ a → Pg.DistinctNames t ∧ Pg.FullValues t) :
    diff (Pg.ops sd) (some b) (some a) = .err .noDifference ↔ diff (Pg.ops sd) (some a) (some b) = .err .noDifference :=
  have cb := Pg.parse_creates (sd := sd) hb
  have ca := Pg.parse_creates (sd := sd) ha
  ⟨noDiff_swap cb ca db da (fun _ => Pg.diffTable_self) (fun _ _ => Pg.diffTable_ne_nil)
      (fun t t' ht ht' _ => Pg.diffTable_swap (na t' ht').1 (nb t ht).2 (na t' ht').2),
    noDiff_swap ca cb da db (fun _ => Pg.diffTable_self) (fun _ _ => Pg.diffTable_ne_nil)
      (fun t t' ht ht' _ => Pg.diffTable_swap (nb t' ht').1 (na t ht).2 (nb t' ht').2)⟩

set_option maxRecDepth 8000 in
set_option maxHeartbeats 1000000 in
example : ∃ s s' b a, Pg.parse s = .ok b ∧ Pg.parse s' = .ok a ∧ DistinctObjects (Pg.ops fun _ _ => []) b ∧
    DistinctObjects (Pg.ops fun _ _ => []) a ∧ (∀ t, .createTable t ∈ b → Pg.DistinctNames t ∧ Pg.FullValues t) ∧
    (∀ t, .createTable t ∈ a → Pg.DistinctNames t ∧ Pg.FullValues t) ∧
    diff (Pg.ops fun _ _ => []) (some b) (some a) = .err .noDifference ∧ b ≠ a := by
  refine ⟨s%"CREATE TABLE t (a BIGINT NOT NULL DEFAULT 1, b TEXT, CONSTRAINT p PRIMARY KEY (a), UNIQUE (b)); CREATE INDEX i ON t (a, b)",
    s%"CREATE INDEX i ON t (a, b); CREATE TABLE \"t\" (b TEXT, a BIGINT DEFAULT 1 NOT NULL, CONSTRAINT p PRIMARY KEY (\"a\"), UNIQUE (b))",
    _, _, rfl, rfl, by decide +kernel, by decide +kernel, by decide +kernel, by decide +kernel,
    by decide +kernel, by decide +kernel⟩

/-- C73 (partial): no difference between two CockroachDB schemas is no difference the other way round, if no hidden virtual column of
the old schema is gone in the new one.  Missing: names given twice, `DEFAULT` without a value, and hidden virtual columns that are gone,
see `C73_twice_fails`, `C73_default_fails` and `C73_hidden_fails`. -/
theorem C73_cockroachdb_partial (sd : Str → Str → Str) {s s' : Str} {b a : List Crdb.CStmt} (hb : Crdb.parse s = .ok b)
    (ha : Crdb.parse s' = .ok a) (db : DistinctObjects (Crdb.ops sd) b) (da : DistinctObjects (Crdb.ops sd) a)
    (nb : ∀ t, .createTable t ∈ b → Crdb.DistinctNames t ∧ Crdb.FullValues t)
    (na : ∀ t, .createTable t ∈ a → Crdb.DistinctNames t ∧ Crdb.FullValues t) (hk : Crdb.KeepsHidden b a)
    (h : diff (Crdb.ops sd) (some b) (some a) = .err .noDifference) : diff (Crdb.ops sd) (some a) (some b) = .err .noDifference :=
  noDiff_swap (Crdb.parse_creates hb) (Crdb.parse_creates ha) db da (fun _ => Crdb.diffTable_self) (fun _ _ => Crdb.diffTable_ne_nil)
    (fun t t' ht ht' hn => Crdb.diffTable_swap (nb t ht).1 (na t' ht').1 (nb t ht).2 (na t' ht').2 (hk t t' ht ht' hn)) h

set_option maxRecDepth 8000 in
set_option maxHeartbeats 1000000 in
example : ∃ s s' b a, Crdb.parse s = .ok b ∧ Crdb.parse s' = .ok a ∧ DistinctObjects (Crdb.ops fun _ _ => []) b ∧
    DistinctObjects (Crdb.ops fun _ _ => []) a ∧ (∀ t, .createTable t ∈ b → Crdb.DistinctNames t ∧ Crdb.FullValues t) ∧
    (∀ t, .createTable t ∈ a → Crdb.DistinctNames t ∧ Crdb.FullValues t) ∧ Crdb.KeepsHidden b a ∧
    diff (Crdb.ops fun _ _ => []) (some b) (some a) = .err .noDifference ∧ b ≠ a := by
  refine ⟨s%"CREATE TABLE t (a INT8 NOT NULL DEFAULT 1, b STRING, h INT8 NOT VISIBLE AS (a) VIRTUAL, CONSTRAINT p PRIMARY KEY (a)); CREATE INDEX i ON t (b)",
    s%"CREATE INDEX i ON \"t\" (b); CREATE TABLE t (b STRING, h INT8 NOT VISIBLE AS (a) VIRTUAL, a INT8 NOT NULL DEFAULT 1, CONSTRAINT p PRIMARY KEY (\"a\"))",
    _, _, rfl, rfl, by decide +kernel, by decide +kernel, by decide +kernel, by decide +kernel, by decide +kernel,
    by decide +kernel, by decide +kernel⟩

/-- C73 (partial): no difference between two MySQL schemas is no difference the other way round, if no table option of the old schema
is gone in the new one.  Missing: names given twice, `DEFAULT` without a value, and table options that are gone, see `C73_twice_fails`,
`C73_default_fails` and `C73_option_fails`. -/
theorem C73_mysql_partial (sd : Str → Str → Str) {s s' : Str} {b a : List My.MStmt} (hb : My.parse s = .ok b)
    (ha : My.parse s' = .ok a) (db : DistinctObjects (My.ops sd) b) (da : DistinctObjects (My.ops sd) a)
    (nb : ∀ t, .createTable t ∈ b → My.DistinctNames t ∧ My.FullValues t)
    (na : ∀ t, .createTable t ∈ a → My.DistinctNames t ∧ My.FullValues t) (hk : My.KeepsOptions b a)
    (h : diff (My.ops sd) (some b) (some a) = .err .noDifference) : diff (My.ops sd) (some a) (some b) = .err .noDifference :=
  noDiff_swap (My.parse_creates hb) (My.parse_creates ha) db da (fun _ => My.diffTable_self) (fun _ _ => My.diffTable_ne_nil)
    (fun t t' ht ht' hn => My.diffTable_swap (nb t ht).1 (na t' ht').1 (nb t ht).2 (na t' ht').2 (hk t t' ht ht' hn)) h

set_option maxRecDepth 8000 in
set_option maxHeartbeats 1000000 in
example : ∃ s s' b a, My.parse s = .ok b ∧ My.parse s' = .ok a ∧ DistinctObjects (My.ops fun _ _ => []) b ∧
    DistinctObjects (My.ops fun _ _ => []) a ∧ (∀ t, .createTable t ∈ b → My.DistinctNames t ∧ My.FullValues t) ∧
    (∀ t, .createTable t ∈ a → My.DistinctNames t ∧ My.FullValues t) ∧ My.KeepsOptions b a ∧
    diff (My.ops fun _ _ => []) (some b) (some a) = .err .noDifference ∧ b ≠ a := by
  refine ⟨s%"CREATE TABLE t (a BIGINT NOT NULL DEFAULT 1, b VARCHAR(10), PRIMARY KEY (a)) ENGINE=InnoDB AUTO_INCREMENT=5 COMMENT='x'; CREATE INDEX i ON t (b)",
    s%"CREATE INDEX i ON `t` (b); CREATE TABLE t (b VARCHAR(10), a BIGINT NOT NULL DEFAULT 1, PRIMARY KEY (`a`)) COMMENT='x' ENGINE=InnoDB",
    _, _, rfl, rfl, by decide +kernel, by decide +kernel, by decide +kernel, by decide +kernel, by decide +kernel,
    by decide +kernel, by decide +kernel⟩

/-- C73 (partial): no difference between two Spanner schemas is no difference the other way round.  Missing: names given twice or not
at all, and `DEFAULT` or options without a value, see `C73_twice_fails` and `C73_default_fails`. -/
theorem C73_spanner_partial (sd : Str → Str → Str) {s s' : Str} {b a : List Sp.SStmt} (hb : Sp.parse s = .ok b)
    (ha : Sp.parse s' = .ok a) (db : DistinctObjects (Sp.ops sd) b) (da : DistinctObjects (Sp.ops sd) a)
    (nb : ∀ t, .createTable t ∈ b → Sp.DistinctNames t ∧ Sp.FullValues t) (na : ∀ t, .createTable t ∈ a → Sp.DistinctNames t ∧ Sp.FullValues t) :
    diff (Sp.ops sd) (some b) (some a) = .err .noDifference ↔ diff (Sp.ops sd) (some a) (some b) = .err .noDifference :=
  have cb := Sp.parse_creates (sd := sd) hb
  have ca := Sp.parse_creates (sd := sd) ha
  ⟨noDiff_swap cb ca db da (fun _ => Sp.diffTable_self) (fun _ _ => Sp.diffTable_ne_nil)
      (fun t t' ht ht' _ => Sp.diffTable_swap (nb t ht).1 (na t' ht').1 (nb t ht).2 (na t' ht').2),
    noDiff_swap ca cb da db (fun _ => Sp.diffTable_self) (fun _ _ => Sp.diffTable_ne_nil)
      (fun t t' ht ht' _ => Sp.diffTable_swap (na t ht).1 (nb t' ht').1 (na t ht).2 (nb t' ht').2)⟩

set_option maxRecDepth 8000 in
set_option maxHeartbeats 1000000 in
example : ∃ s s' b a, Sp.parse s = .ok b ∧ Sp.parse s' = .ok a ∧ DistinctObjects (Sp.ops fun _ _ => []) b ∧
    DistinctObjects (Sp.ops fun _ _ => []) a ∧ (∀ t, .createTable t ∈ b → Sp.DistinctNames t ∧ Sp.FullValues t) ∧
    (∀ t, .createTable t ∈ a → Sp.DistinctNames t ∧ Sp.FullValues t) ∧
    diff (Sp.ops fun _ _ => []) (some b) (some a) = .err .noDifference ∧ b ≠ a := by
  refine ⟨s%"CREATE TABLE t (a INT64 NOT NULL, b STRING(10) DEFAULT (1), CONSTRAINT c CHECK (a > 0)) PRIMARY KEY (a); CREATE INDEX i ON t (b)",
    s%"CREATE INDEX i ON `t` (b); CREATE TABLE t (b STRING(10) DEFAULT (1), a INT64 NOT NULL, CONSTRAINT c CHECK (a > 0)) PRIMARY KEY (a)",
    _, _, rfl, rfl, by decide +kernel, by decide +kernel, by decide +kernel, by decide +kernel,
    by decide +kernel, by decide +kernel⟩

/-- Both texts are read, and only from the one side a difference is seen. -/
abbrev OneSided {S : Type} (parse : Str → Res (List S)) (diff : Option (List S) → Option (List S) → Res (List S)) (s s' : Str) : Prop :=
  ∃ b a, parse s = .ok b ∧ parse s' = .ok a ∧ diff (some b) (some a) = .err .noDifference ∧ ∃ d, diff (some a) (some b) = .ok d

/-- C73 is violated for CockroachDB: that a hidden virtual column is gone is no difference, that it is new is one. -/
theorem C73_hidden_fails (sd : Str → Str → Str) :
    OneSided Crdb.parse (diff (Crdb.ops sd)) s%"CREATE TABLE t (a INT8, h INT8 NOT VISIBLE AS (a) VIRTUAL)" s%"CREATE TABLE t (a INT8)" :=
  ⟨_, _, rfl, rfl, rfl, _, rfl⟩

/-- C73 is violated for MySQL: that a table option is gone is no difference, that it is new is one. -/
theorem C73_option_fails (sd : Str → Str → Str) :
    OneSided My.parse (diff (My.ops sd)) s%"CREATE TABLE t (a BIGINT) COMMENT='x'" s%"CREATE TABLE t (a BIGINT)" :=
  ⟨_, _, rfl, rfl, rfl, _, rfl⟩

/-- C73 is violated in all dialects: a `DEFAULT` without a value is no difference when it is new, and one when it is gone.  (Without the
quotes the two tables would be printed alike, and then nothing is compared.) -/
theorem C73_default_fails (sd : Str → Str → Str) :
    OneSided Pg.parse (diff (Pg.ops sd)) s%"CREATE TABLE t (a BIGINT)" s%"CREATE TABLE \"t\" (a BIGINT DEFAULT)" ∧
    OneSided Crdb.parse (diff (Crdb.ops sd)) s%"CREATE TABLE t (a INT8)" s%"CREATE TABLE \"t\" (a INT8 DEFAULT)" ∧
    OneSided My.parse (diff (My.ops sd)) s%"CREATE TABLE t (a BIGINT)" s%"CREATE TABLE `t` (a BIGINT DEFAULT)" ∧
    OneSided Sp.parse (diff (Sp.ops sd)) s%"CREATE TABLE t (a INT64) PRIMARY KEY (a)" s%"CREATE TABLE `t` (a INT64 DEFAULT) PRIMARY KEY (a)" :=
  ⟨⟨_, _, rfl, rfl, rfl, _, rfl⟩, ⟨_, _, rfl, rfl, rfl, _, rfl⟩, ⟨_, _, rfl, rfl, rfl, _, rfl⟩, ⟨_, _, rfl, rfl, rfl, _, rfl⟩⟩

/-- C73 is violated in all dialects: a second definition of a table is no difference when it is new, and one when it is gone. -/
theorem C73_twice_fails (sd : Str → Str → Str) :
    OneSided Pg.parse (diff (Pg.ops sd)) s%"CREATE TABLE t (a BIGINT)" s%"CREATE TABLE t (a BIGINT); CREATE TABLE t (b BIGINT)" ∧
    OneSided Crdb.parse (diff (Crdb.ops sd)) s%"CREATE TABLE t (a INT8)" s%"CREATE TABLE t (a INT8); CREATE TABLE t (b INT8)" ∧
    OneSided My.parse (diff (My.ops sd)) s%"CREATE TABLE t (a BIGINT)" s%"CREATE TABLE t (a BIGINT); CREATE TABLE t (b BIGINT)" ∧
    OneSided Sp.parse (diff (Sp.ops sd)) s%"CREATE TABLE t (a INT64) PRIMARY KEY (a)"
      s%"CREATE TABLE t (a INT64) PRIMARY KEY (a); CREATE TABLE t (a STRING(MAX)) PRIMARY KEY (a)" :=
  ⟨⟨_, _, rfl, rfl, rfl, _, rfl⟩, ⟨_, _, rfl, rfl, rfl, _, rfl⟩, ⟨_, _, rfl, rfl, rfl, _, rfl⟩, ⟨_, _, rfl, rfl, rfl, _, rfl⟩⟩

end Ddl.Props
