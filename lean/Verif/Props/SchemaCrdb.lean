import Verif.Lemmas.DecideSchemaCrdb

/-! # Executing the migration of a CockroachDB schema gives the wanted schema: C52

`Exec`, `NoSchemaHazard`, `TameSchema` and `ReadFrom` are in `Verif/Spec/SchemaCrdb.lean`, `Told` in `Verif/Spec/Objects.lean`, `Runs` in
`Verif/Spec/Run.lean`.  `sd` is `simplediff.Diff(a, b).String()`, arbitrary. -/

namespace Ddl.Props
open Ddl Spec
open Ddl.Crdb (CStmt)
open Ddl.Crdb.Run
set_option autoImplicit false

/-- C52 (partial): let a CockroachDB database accept the CREATE statements of `b` and of `a`, giving the databases `B` and `A`.  The
statements of the diff, executed on `B` in order, all succeed and give `A`; if there is no difference, `B` is `A`.  Missing: the changes
excluded by `NoSchemaHazard`, see the theorems `C52_…_fails`, and schemas whose texts are ambiguous. -/
theorem C52_cockroachdb_partial (sd : Str → Str → Str) {b a : List CStmt} {B A : Db} (cb : CreateOnly (Crdb.ops sd) b)
    (ca : CreateOnly (Crdb.ops sd) a) (db : DistinctObjects (Crdb.ops sd) b) (da : DistinctObjects (Crdb.ops sd) a) (tb : TameSchema b)
    (ta : TameSchema a) (told : Told (Crdb.ops sd) b a) (ss : SameSchemas (Crdb.ops sd) b a) (hB : Runs Exec Db.empty b B)
    (hA : Runs Exec Db.empty a A) (hz : NoSchemaHazard b a) :
    (∃ l, diff (Crdb.ops sd) (some b) (some a) = .ok l ∧ Runs Exec B l A) ∨
      (diff (Crdb.ops sd) (some b) (some a) = .err .noDifference ∧ B = A) :=
  migrate cb ca db da tb ta ss hz told hB hA

set_option maxRecDepth 8000 in
example : ∃ s s' b a B A l, Crdb.parse s = .ok b ∧ Crdb.parse s' = .ok a ∧ CreateOnly (Crdb.ops fun _ _ => []) b ∧
    CreateOnly (Crdb.ops fun _ _ => []) a ∧ DistinctObjects (Crdb.ops fun _ _ => []) b ∧ DistinctObjects (Crdb.ops fun _ _ => []) a ∧
    TameSchema b ∧ TameSchema a ∧ Told (Crdb.ops fun _ _ => []) b a ∧ SameSchemas (Crdb.ops fun _ _ => []) b a ∧
    Runs Exec Db.empty b B ∧ Runs Exec Db.empty a A ∧ NoSchemaHazard b a ∧
    diff (Crdb.ops fun _ _ => []) (some b) (some a) = .ok l ∧ l.length = 19 := by
  refine ⟨s%"CREATE TABLE p (x INT8 NOT NULL, y INT8, PRIMARY KEY (x));
    CREATE TABLE t (x INT8 NOT NULL, a VARCHAR(10), b INT8 DEFAULT 1, c INT8, d INT8, CONSTRAINT f FOREIGN KEY (a) REFERENCES p (x),
      INDEX k (b), INDEX m (c DESC) USING hash);
    CREATE TABLE gone (z INT8, INDEX g (z)); CREATE INDEX i ON t (a); CREATE INDEX old ON t (d)",
   s%"CREATE TABLE n (q INT8, CONSTRAINT s FOREIGN KEY (q) REFERENCES n (q)); CREATE TABLE p (x INT8 NOT NULL, y STRING, PRIMARY KEY (x));
    CREATE TABLE t (x INT8 NOT NULL, a VARCHAR(20), b INT8, e TIMESTAMPTZ CHECK (e > 0), c INT8 NOT NULL,
      CONSTRAINT h FOREIGN KEY (a) REFERENCES n (q), UNIQUE INDEX m (c DESC), INDEX l (e));
    CREATE UNIQUE INDEX i ON t (a DESC, e); CREATE INDEX j ON n (q)", _, _, _, _, _, rfl, rfl,
    by decide +kernel, by decide +kernel, by decide +kernel, by decide +kernel, by decide +kernel, by decide +kernel, by decide +kernel,
    by decide +kernel, loads (by decide +kernel), loads (by decide +kernel), noSchemaHazard_of (by decide +kernel), rfl, by decide +kernel⟩

/-- C52: schemas that are read from texts, and that can be printed and read again, consist of CREATE statements and can be told from their
texts, as `C52_cockroachdb_partial` wants them. -/
theorem C52_read (sd : Str → Str → Str) {s s' : Str} {b a : List CStmt} (hb : Crdb.ReadFrom s b) (ha : Crdb.ReadFrom s' a) :
    CreateOnly (Crdb.ops sd) b ∧ CreateOnly (Crdb.ops sd) a ∧ Told (Crdb.ops sd) b a :=
  ⟨createOnly_of_again (again_of_readFrom hb), createOnly_of_again (again_of_readFrom ha),
    told_of_again (again_of_readFrom hb) (again_of_readFrom ha)⟩

set_option maxRecDepth 8000 in
example : ∃ s s' b a, Crdb.ReadFrom s b ∧ Crdb.ReadFrom s' a ∧ b.length = 2 ∧ a.length = 3 := by
  have dec : ∀ {l : List CStmt}, (∀ t ∈ tables l, t.Rereadable) → (∀ i ∈ indexes l, i.Rereadable) →
      (∀ t, .createTable t ∈ l → t.Rereadable) ∧ ∀ i, .createIndex i ∈ l → i.Rereadable :=
    fun h h' => ⟨fun t ht => h t (mem_tables.2 ht), fun i hi => h' i (mem_indexes.2 hi)⟩
  exact ⟨s%"CREATE TABLE t (x INT8 NOT NULL DEFAULT 1, a VARCHAR(10), INDEX k (a DESC) USING hash); CREATE INDEX i ON t (a)",
    s%"CREATE TABLE t (x INT8, a VARCHAR(20), PRIMARY KEY (x)); CREATE TABLE u (y INT8 NOT NULL,
      CONSTRAINT f FOREIGN KEY (y) REFERENCES t (x)); CREATE UNIQUE INDEX j ON u (y)", _, _,
    ⟨⟨_, writes_of_lex .cockroachdb _ (by decide +kernel), by decide +kernel⟩, by decide +kernel, rfl,
      dec (by decide +kernel) (by decide +kernel)⟩,
    ⟨⟨_, writes_of_lex .cockroachdb _ (by decide +kernel), by decide +kernel⟩, by decide +kernel, rfl,
      dec (by decide +kernel) (by decide +kernel)⟩, by decide +kernel, by decide +kernel⟩

/-- Both texts are read, a CockroachDB database accepts both, but on the database of the first text a statement of the diff fails. -/
abbrev StuckCrdb (sd : Str → Str → Str) (s s' : Str) : Prop :=
  ∃ b a, Crdb.parse s = .ok b ∧ Crdb.parse s' = .ok a ∧ ∃ B A l, Runs Exec Db.empty b B ∧ Runs Exec Db.empty a A ∧
    diff (Crdb.ops sd) (some b) (some a) = .ok l ∧ ∀ D, ¬ Runs Exec B l D

/-- C52 is violated: an index is dropped after its table, with which it is gone. -/
theorem C52_dropped_table_index_fails (sd : Str → Str → Str) :
    StuckCrdb sd s%"CREATE TABLE t (a INT8); CREATE INDEX i ON t (a); CREATE TABLE u (a INT8)" s%"CREATE TABLE u (a INT8)" :=
  ⟨_, _, rfl, rfl, stuck_of (by decide +kernel) (by decide +kernel) rfl fun h _ =>
    not_dropTable_dropIndex h s%"i" s%"t" (by decide +kernel) rfl rfl⟩

set_option maxRecDepth 4000 in
/-- C52 is violated: a table is dropped before the table that refers to it. -/
theorem C52_dropped_table_referred_fails (sd : Str → Str → Str) :
    StuckCrdb sd s%"CREATE TABLE t (a INT8); CREATE TABLE u (a INT8, CONSTRAINT f FOREIGN KEY (a) REFERENCES t (a)); CREATE TABLE v (a INT8)"
      s%"CREATE TABLE v (a INT8)" :=
  ⟨_, _, rfl, rfl, stuck_of (by decide +kernel) (by decide +kernel) rfl fun h _ =>
    not_dropTable_refers h (.head _) (.tail _ (.head _)) (by decide +kernel) (k := s%"f") rfl rfl⟩

/-- C52 is violated: a column is dropped before the index on it. -/
theorem C52_dropped_column_index_fails (sd : Str → Str → Str) :
    StuckCrdb sd s%"CREATE TABLE t (a INT8, b INT8); CREATE INDEX i ON t (a, b)" s%"CREATE TABLE t (a INT8); CREATE INDEX i ON t (a)" :=
  ⟨_, _, rfl, rfl, stuck_of (by decide +kernel) (by decide +kernel) rfl fun h _ =>
    not_dropColumn_index h (.head _) (.tail _ (.head _)) rfl rfl (by decide +kernel)⟩

/-- C52 is violated: an index on a new column is created before the column. -/
theorem C52_new_index_column_fails (sd : Str → Str → Str) :
    StuckCrdb sd s%"CREATE TABLE t (a INT8)" s%"CREATE TABLE t (a INT8, b INT8); CREATE INDEX i ON t (b)" :=
  ⟨_, _, rfl, rfl, stuck_of (by decide +kernel) (by decide +kernel) rfl fun h _ =>
    not_createIndex h (.head _) rfl (.head _) (by decide +kernel) rfl⟩

/-- C52 is violated: an index that was written in the table and is now written as `CREATE INDEX` is created before the old one is dropped. -/
theorem C52_index_rewritten_fails (sd : Str → Str → Str) :
    StuckCrdb sd s%"CREATE TABLE t (a INT8, INDEX i (a))" s%"CREATE TABLE t (a INT8); CREATE INDEX i ON t (a)" :=
  ⟨_, _, rfl, rfl, stuck_of (by decide +kernel) (by decide +kernel) rfl fun h _ =>
    not_createIndex_taken h (.head _) rfl rfl rfl⟩

/-- C52 is violated: if that `CREATE INDEX` has `IF NOT EXISTS`, it does nothing, and then the old index is dropped: every statement
succeeds, but the index is gone. -/
theorem C52_index_lost_fails (sd : Str → Str → Str) :
    ∃ b a, Crdb.parse s%"CREATE TABLE t (a INT8, INDEX i (a))" = .ok b ∧
      Crdb.parse s%"CREATE TABLE t (a INT8); CREATE INDEX IF NOT EXISTS i ON t (a)" = .ok a ∧ ∃ B A l, Runs Exec Db.empty b B ∧
      Runs Exec Db.empty a A ∧ diff (Crdb.ops sd) (some b) (some a) = .ok l ∧ (∃ D, Runs Exec B l D) ∧
      ∀ D, Runs Exec B l D → D ≠ A ∧ ∃ T, D s%"t" = some T ∧ T.cons s%"i" = none :=
  ⟨_, _, rfl, rfl, lost_of (by decide +kernel) (by decide +kernel) rfl (.head _) (.head _) (.tail _ (.head _)) s%"t" s%"i" rfl rfl rfl rfl
    rfl rfl ⟨_, _, _, _, true, rfl⟩ (by decide +kernel)⟩

/-- C52 is violated: an index is dropped by its name only, although another table has an index of that name. -/
theorem C52_ambiguous_index_fails (sd : Str → Str → Str) :
    StuckCrdb sd s%"CREATE TABLE t (a INT8, INDEX i (a)); CREATE TABLE u (a INT8, INDEX i (a))"
      s%"CREATE TABLE t (a INT8); CREATE TABLE u (a INT8, INDEX i (a))" :=
  ⟨_, _, rfl, rfl, stuck_of (by decide +kernel) (by decide +kernel) rfl fun h _ =>
    not_dropIndex h (.head _) (.tail _ (.head _)) (by decide +kernel) ⟨_, _, _, _, true, rfl⟩ ⟨_, _, _, _, true, rfl⟩⟩

/-- C52 is violated: an index that moves to another table is created there before the new columns of that table. -/
theorem C52_moved_index_fails (sd : Str → Str → Str) :
    StuckCrdb sd s%"CREATE TABLE t (a INT8); CREATE INDEX i ON t (a); CREATE TABLE u (a INT8)"
      s%"CREATE TABLE t (a INT8); CREATE TABLE u (a INT8, b INT8); CREATE INDEX i ON u (b)" :=
  ⟨_, _, rfl, rfl, stuck_of (by decide +kernel) (by decide +kernel) rfl fun h _ =>
    not_dropIndex_createIndex h (.tail _ (.tail _ (.head _))) rfl (.head _) (by decide +kernel) rfl⟩

end Ddl.Props
