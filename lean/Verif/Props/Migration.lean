import Verif.Lemmas.DbFails

/-! # Executing the migration gives the wanted schema: C03

`Exec`, `Execs` and `NoHazard` are in `Verif/Spec/Db.lean`, `ReadFrom` and `TameSchema` in `Verif/Spec/Tame.lean`.
`sd` is `simplediff.Diff(a, b).String()`, arbitrary. -/

namespace Ddl.Props
open Ddl Spec
open Ddl.Pg (PStmt)
open Ddl.Pg.Db
set_option autoImplicit false

/-- C03 (partial): let `b` and `a` be read from two texts that a database accepts, giving the databases `B` and `A`.  The statements
of the diff, executed on `B` in order, all succeed and give `A`; if there is no difference, `B` is `A`.  Missing: the changes excluded by
`NoHazard`, see the theorems `C03_…_fails`, and schemas that are not tame. -/
theorem C03_migration_partial (sd : Str → Str → Str) {s s' : Str} {b a : List PStmt} {B A : Catalog} (hb : Pg.ReadFrom s b) (ha : Pg.ReadFrom s' a)
    (tb : Pg.TameSchema b) (ta : Pg.TameSchema a) (db : DistinctObjects (Pg.ops sd) b) (da : DistinctObjects (Pg.ops sd) a)
    (hB : Execs empty b B) (hA : Execs empty a A) (hz : NoHazard b a) :
    (∃ l, diff (Pg.ops sd) (some b) (some a) = .ok l ∧ Execs B l A) ∨
      (diff (Pg.ops sd) (some b) (some a) = .err .noDifference ∧ B = A) :=
  migrate (Pg.stmtOk_of_readFrom hb) (Pg.stmtOk_of_readFrom ha) tb ta db da hB hA hz

set_option maxRecDepth 8000 in
example : ∃ s s' b a B A l, Pg.ReadFrom s b ∧ Pg.ReadFrom s' a ∧ Pg.TameSchema b ∧ Pg.TameSchema a ∧
    DistinctObjects (Pg.ops fun _ _ => []) b ∧ DistinctObjects (Pg.ops fun _ _ => []) a ∧ Execs empty b B ∧ Execs empty a A ∧ NoHazard b a ∧
    diff (Pg.ops fun _ _ => []) (some b) (some a) = .ok l ∧ l.length = 18 := by
  refine ⟨s%"CREATE TABLE u (x INT, y INT NOT NULL, PRIMARY KEY (x));
    CREATE TABLE t (a INT, b TEXT DEFAULT 'q', c INT NOT NULL, d INT, CONSTRAINT k UNIQUE (a), CONSTRAINT f FOREIGN KEY (d) REFERENCES u (x));
    CREATE TABLE gone (z INT); CREATE INDEX i ON t (a); CREATE INDEX old ON t (d)",
    s%"CREATE TABLE fresh (z INT NOT NULL, CONSTRAINT p PRIMARY KEY (z)); CREATE INDEX j ON fresh (z);
    CREATE TABLE u (x BIGINT, y INT, v INT DEFAULT 3, CONSTRAINT u_pkey PRIMARY KEY (x));
    CREATE TABLE t (a INT, b VARCHAR(20), c INT, e INT, CONSTRAINT k UNIQUE (a, c), CONSTRAINT g FOREIGN KEY (e) REFERENCES u (v));
    CREATE UNIQUE INDEX i ON t (a, e)",
    _, _, _, _, _, ⟨⟨_, writes_of_lex .postgres _ (by decide +kernel), by decide +kernel⟩, by decide +kernel, rfl⟩,
    ⟨⟨_, writes_of_lex .postgres _ (by decide +kernel), by decide +kernel⟩, by decide +kernel, rfl⟩, by decide +kernel, by decide +kernel,
    by decide +kernel, by decide +kernel, (loads (by decide +kernel)).choose_spec, (loads (by decide +kernel)).choose_spec,
    noHazard_of (by decide +kernel), rfl, by decide +kernel⟩

/-- Both texts are read, a database accepts both, but on the database of the first text a statement of the diff fails. -/
abbrev Stuck (sd : Str → Str → Str) (s s' : Str) : Prop :=
  ∃ b a, Pg.parse s = .ok b ∧ Pg.parse s' = .ok a ∧ ∃ B A l, Execs empty b B ∧ Execs empty a A ∧
    diff (Pg.ops sd) (some b) (some a) = .ok l ∧ ∀ D, ¬ Execs B l D

/-- C03 is violated: a table with an index is dropped before its index, which is dropped with it. -/
theorem C03_dropped_table_index_fails (sd : Str → Str → Str) :
    Stuck sd s%"CREATE TABLE t (a INT); CREATE INDEX i ON t (a); CREATE TABLE u (a INT)" s%"CREATE TABLE u (a INT)" :=
  ⟨_, _, rfl, rfl, stuck_of (by decide +kernel) (by decide +kernel) rfl fun _ _ h =>
    not_dropTable_dropIndex h (.head _) (.tail _ (.head _)) rfl⟩

set_option maxRecDepth 4000 in
/-- C03 is violated: a table is dropped before the table that refers to it. -/
theorem C03_dropped_table_referred_fails (sd : Str → Str → Str) :
    Stuck sd s%"CREATE TABLE t (a INT); CREATE TABLE u (a INT, CONSTRAINT f FOREIGN KEY (a) REFERENCES t (a)); CREATE TABLE v (a INT)"
      s%"CREATE TABLE v (a INT)" :=
  ⟨_, _, rfl, rfl, stuck_of (by decide +kernel) (by decide +kernel) rfl fun _ _ h =>
    not_dropTable h (.head _) (.tail _ (.head _)) (by decide +kernel) (by decide +kernel) (.head _) rfl⟩

/-- C03 is violated: a column is dropped before a constraint that mentions it, which is dropped with it. -/
theorem C03_dropped_column_constraint_fails (sd : Str → Str → Str) :
    Stuck sd s%"CREATE TABLE t (a INT, b INT, CONSTRAINT k UNIQUE (a, b))" s%"CREATE TABLE t (a INT, CONSTRAINT k UNIQUE (a))" :=
  ⟨_, _, rfl, rfl, stuck_of (by decide +kernel) (by decide +kernel) rfl fun _ _ h =>
    not_dropColumn_dropConstraint h (.head _) (by decide +kernel) rfl (.head _) (by decide +kernel)⟩

/-- C03 is violated: a column is dropped before an index on it, which is dropped with it. -/
theorem C03_dropped_column_index_fails (sd : Str → Str → Str) :
    Stuck sd s%"CREATE TABLE t (a INT, b INT); CREATE INDEX i ON t (a, b)" s%"CREATE TABLE t (a INT); CREATE INDEX i ON t (a)" :=
  ⟨_, _, rfl, rfl, stuck_of (by decide +kernel) (by decide +kernel) rfl fun _ _ h =>
    not_dropColumn_dropIndex h (.head _) rfl (.tail _ (.head _)) rfl (by decide +kernel)⟩

/-- C03 is violated: a column is dropped before the foreign key that refers to it. -/
theorem C03_dropped_column_referred_fails (sd : Str → Str → Str) :
    Stuck sd s%"CREATE TABLE t (a INT, b INT); CREATE TABLE u (a INT, CONSTRAINT f FOREIGN KEY (a) REFERENCES t (b))"
      s%"CREATE TABLE t (a INT); CREATE TABLE u (a INT)" :=
  ⟨_, _, rfl, rfl, stuck_of (by decide +kernel) (by decide +kernel) rfl fun _ _ h =>
    not_dropColumn h (.head _) rfl (.tail _ (.head _)) (by decide +kernel) (.head _) rfl (by decide +kernel)⟩

/-- C03 is violated: an index on a new column is created before the column. -/
theorem C03_new_index_column_fails (sd : Str → Str → Str) :
    Stuck sd s%"CREATE TABLE t (a INT)" s%"CREATE TABLE t (a INT, b INT); CREATE INDEX i ON t (b)" :=
  ⟨_, _, rfl, rfl, stuck_of (by decide +kernel) (by decide +kernel) rfl fun _ _ h =>
    not_createIndex h (.head _) rfl (.head _) (by decide +kernel) rfl⟩

/-- C03 is violated: a table that refers to a new column is created before the column. -/
theorem C03_referred_column_fails (sd : Str → Str → Str) :
    Stuck sd s%"CREATE TABLE t (a INT)" s%"CREATE TABLE t (a INT, b INT); CREATE TABLE u (a INT, CONSTRAINT f FOREIGN KEY (a) REFERENCES t (b))" :=
  ⟨_, _, rfl, rfl, stuck_of (by decide +kernel) (by decide +kernel) rfl fun _ _ h =>
    not_createTable h (.head _) (.head _) (by decide +kernel) rfl (.head _) (by decide +kernel) rfl⟩

/-- C03 is violated: an index that moves to another table is created there before the new columns of that table. -/
theorem C03_moved_index_fails (sd : Str → Str → Str) :
    Stuck sd s%"CREATE TABLE t (a INT); CREATE INDEX i ON t (a); CREATE TABLE u (a INT)"
      s%"CREATE TABLE t (a INT); CREATE TABLE u (a INT, b INT); CREATE INDEX i ON u (b)" :=
  ⟨_, _, rfl, rfl, stuck_of (by decide +kernel) (by decide +kernel) rfl fun _ _ h =>
    not_dropIndex_createIndex h (.tail _ (.head _)) (.tail _ (.tail _ (.head _))) rfl (.head _) (by decide +kernel) rfl⟩

/-- C03 is violated: `NOT NULL` is dropped although the column is in the primary key (and so the schemas mean the same). -/
theorem C03_lost_not_null_fails (sd : Str → Str → Str) :
    Stuck sd s%"CREATE TABLE t (a INT NOT NULL, CONSTRAINT k PRIMARY KEY (a))" s%"CREATE TABLE t (a INT, CONSTRAINT k PRIMARY KEY (a))" :=
  ⟨_, _, rfl, rfl, stuck_of (by decide +kernel) (by decide +kernel) rfl fun _ _ h =>
    not_dropNotNull h (.head _) (by decide +kernel) rfl (.head _) (.head _)⟩

/-- C03 is violated: a column that was `NOT NULL` only because of the primary key stays `NOT NULL`. -/
theorem C03_lost_key_fails (sd : Str → Str → Str) : ∃ b a, Pg.parse s%"CREATE TABLE t (a INT, CONSTRAINT k PRIMARY KEY (a))" = .ok b ∧
    Pg.parse s%"CREATE TABLE t (a INT)" = .ok a ∧ ∃ B A l, Execs empty b B ∧ Execs empty a A ∧
      diff (Pg.ops sd) (some b) (some a) = .ok l ∧ ¬ Execs B l A :=
  ⟨_, _, rfl, rfl, wrong_of (by decide +kernel) (by decide +kernel) rfl fun _ _ h h' =>
    not_lost_key h h' (.head _) (.head _) rfl rfl (.head _) (by decide +kernel)⟩

/-- C03 is violated: another index method is no difference. -/
theorem C03_index_method_fails (sd : Str → Str → Str) : ∃ b a, Pg.parse s%"CREATE TABLE t (a INT); CREATE INDEX i ON t USING btree (a)" = .ok b ∧
    Pg.parse s%"CREATE TABLE t (a INT); CREATE INDEX i ON t USING gin (a)" = .ok a ∧ ∃ B A, Execs empty b B ∧ Execs empty a A ∧
      diff (Pg.ops sd) (some b) (some a) = .err .noDifference ∧ B ≠ A :=
  ⟨_, _, rfl, rfl, missed_of (by decide +kernel) (by decide +kernel) rfl fun _ h h' =>
    not_same_index h h' (.tail _ (.head _)) (.tail _ (.head _)) rfl (by decide +kernel)⟩

end Ddl.Props
