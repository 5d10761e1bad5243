import Verif.Lemmas.DecideSchemaMy

/-! # Executing the migration of a MySQL schema gives the wanted schema: C53

`Exec`, `NoSchemaHazard`, `TameSchema` and `ReadFrom` are in `Verif/Spec/SchemaMy.lean`, `Told` in `Verif/Spec/Objects.lean`, `Runs` in
`Verif/Spec/Run.lean`.  `sd` is `simplediff.Diff(a, b).String()`, arbitrary. -/

namespace Ddl.Props
open Ddl Spec
open Ddl.My (MStmt)
open Ddl.My.Run
set_option autoImplicit false

/-- C53 (partial): let a MySQL database accept the CREATE statements of `b` and of `a`, giving the databases `B` and `A`.  The
statements of the diff, executed on `B` in order, all succeed and give `A`; if there is no difference, `B` is `A`.  Missing: the changes
excluded by `NoSchemaHazard`, see the theorems `C53_…_fails`, and schemas whose texts are ambiguous. -/
theorem C53_mysql_partial (sd : Str → Str → Str) {b a : List MStmt} {B A : Db} (cb : CreateOnly (My.ops sd) b)
    (ca : CreateOnly (My.ops sd) a) (db : DistinctObjects (My.ops sd) b) (da : DistinctObjects (My.ops sd) a) (tb : TameSchema b)
    (ta : TameSchema a) (told : Told (My.ops sd) b a) (ss : SameSchemas (My.ops sd) b a) (hB : Runs Exec Db.empty b B)
    (hA : Runs Exec Db.empty a A) (hz : NoSchemaHazard b a) :
    (∃ l, diff (My.ops sd) (some b) (some a) = .ok l ∧ Runs Exec B l A) ∨
      (diff (My.ops sd) (some b) (some a) = .err .noDifference ∧ B = A) :=
  migrate cb ca db da tb ta ss hz told hB hA

set_option maxRecDepth 8000 in
set_option maxHeartbeats 1000000 in
example : ∃ s s' b a B A l, My.parse s = .ok b ∧ My.parse s' = .ok a ∧ CreateOnly (My.ops fun _ _ => []) b ∧
    CreateOnly (My.ops fun _ _ => []) a ∧ DistinctObjects (My.ops fun _ _ => []) b ∧ DistinctObjects (My.ops fun _ _ => []) a ∧
    TameSchema b ∧ TameSchema a ∧ Told (My.ops fun _ _ => []) b a ∧ SameSchemas (My.ops fun _ _ => []) b a ∧
    Runs Exec Db.empty b B ∧ Runs Exec Db.empty a A ∧ NoSchemaHazard b a ∧
    diff (My.ops fun _ _ => []) (some b) (some a) = .ok l ∧ l.length = 20 := by
  refine ⟨s%"CREATE TABLE p (x BIGINT NOT NULL, y INTEGER, PRIMARY KEY (x)) ENGINE=InnoDB;
    CREATE TABLE t (x BIGINT NOT NULL, a VARCHAR(10), b INTEGER DEFAULT 1, c INTEGER, d INTEGER, PRIMARY KEY (x),
      CONSTRAINT f FOREIGN KEY (a) REFERENCES p (x), KEY k (b), CONSTRAINT w CHECK (c > 0)) DEFAULT CHARSET=latin1;
    CREATE TABLE gone (z BIGINT, KEY g (z)); CREATE INDEX i ON t (a)",
   s%"CREATE TABLE n (q BIGINT, CONSTRAINT s FOREIGN KEY (q) REFERENCES n (q)); CREATE TABLE p (x BIGINT NOT NULL, y TEXT, PRIMARY KEY (x))
      ENGINE=MyISAM COMMENT='p';
    CREATE TABLE t (x BIGINT NOT NULL, a VARCHAR(20) COLLATE utf8mb4_bin, b INTEGER, e DATETIME DEFAULT CURRENT_TIMESTAMP, c INTEGER NOT NULL,
      PRIMARY KEY (x, c), CONSTRAINT h FOREIGN KEY (a) REFERENCES n (q), KEY k (b), CONSTRAINT w CHECK (c > 1), UNIQUE KEY l (e DESC))
      DEFAULT CHARSET=utf8mb4;
    CREATE INDEX i ON t (a); CREATE UNIQUE INDEX j ON n (q); CREATE INDEX m ON t (b)", _, _, _, _, _, rfl, rfl,
    by decide +kernel, by decide +kernel, by decide +kernel, by decide +kernel, by decide +kernel, by decide +kernel, by decide +kernel,
    by decide +kernel, loads (by decide +kernel), loads (by decide +kernel), noSchemaHazard_of (by decide +kernel), rfl, by decide +kernel⟩

/-- C53: schemas that are read from texts, and that can be printed and read again, consist of CREATE statements and can be told from their
texts, as `C53_mysql_partial` wants them. -/
theorem C53_read (sd : Str → Str → Str) {s s' : Str} {b a : List MStmt} (hb : My.ReadFrom s b) (ha : My.ReadFrom s' a) :
    CreateOnly (My.ops sd) b ∧ CreateOnly (My.ops sd) a ∧ Told (My.ops sd) b a :=
  ⟨createOnly_of_again (again_of_readFrom hb), createOnly_of_again (again_of_readFrom ha),
    told_of_again (again_of_readFrom hb) (again_of_readFrom ha)⟩

set_option maxRecDepth 8000 in
example : ∃ s s' b a, My.ReadFrom s b ∧ My.ReadFrom s' a ∧ b.length = 2 ∧ a.length = 3 := by
  have dec : ∀ {l : List MStmt}, (∀ t ∈ tables l, t.Rereadable) → (∀ i ∈ indexes l, i.Rereadable) →
      (∀ t, .createTable t ∈ l → t.Rereadable) ∧ ∀ i, .createIndex i ∈ l → i.Rereadable :=
    fun h h' => ⟨fun t ht => h t (mem_tables.2 ht), fun i hi => h' i (mem_indexes.2 hi)⟩
  exact ⟨s%"CREATE TABLE t (x BIGINT NOT NULL DEFAULT 1, a VARCHAR(10), KEY k (a DESC)); CREATE INDEX i ON t (a)",
    s%"CREATE TABLE t (x BIGINT, a VARCHAR(20), PRIMARY KEY (x)); CREATE TABLE u (y BIGINT NOT NULL,
      CONSTRAINT f FOREIGN KEY (y) REFERENCES t (x)); CREATE UNIQUE INDEX j ON u (y)", _, _,
    ⟨⟨_, writes_of_lex .mysql _ (by decide +kernel), by decide +kernel⟩, by decide +kernel, rfl,
      dec (by decide +kernel) (by decide +kernel)⟩,
    ⟨⟨_, writes_of_lex .mysql _ (by decide +kernel), by decide +kernel⟩, by decide +kernel, rfl,
      dec (by decide +kernel) (by decide +kernel)⟩, by decide +kernel, by decide +kernel⟩

/-- Both texts are read, a MySQL database accepts both, but on the database of the first text a statement of the diff fails. -/
abbrev StuckMy (sd : Str → Str → Str) (s s' : Str) : Prop :=
  ∃ b a, My.parse s = .ok b ∧ My.parse s' = .ok a ∧ ∃ B A l, Runs Exec Db.empty b B ∧ Runs Exec Db.empty a A ∧
    diff (My.ops sd) (some b) (some a) = .ok l ∧ ∀ D, ¬ Runs Exec B l D

/-- C53 is violated: an index is dropped by `DROP INDEX` without its table. -/
theorem C53_dropped_index_fails (sd : Str → Str → Str) :
    StuckMy sd s%"CREATE TABLE t (a INTEGER); CREATE INDEX i ON t (a)" s%"CREATE TABLE t (a INTEGER)" :=
  ⟨_, _, rfl, rfl, stuck_of (by decide +kernel) (by decide +kernel) rfl fun _ _ => not_understood rfl⟩

/-- C53 is violated: an index that changes is dropped in the same way. -/
theorem C53_changed_index_fails (sd : Str → Str → Str) :
    StuckMy sd s%"CREATE TABLE t (a INTEGER); CREATE INDEX i ON t (a)" s%"CREATE TABLE t (a INTEGER); CREATE UNIQUE INDEX i ON t (a)" :=
  ⟨_, _, rfl, rfl, stuck_of (by decide +kernel) (by decide +kernel) rfl fun _ _ => not_understood rfl⟩

/-- C53 is violated: so is an index that is written in a table. -/
theorem C53_dropped_key_fails (sd : Str → Str → Str) :
    StuckMy sd s%"CREATE TABLE t (a INTEGER, KEY k (a))" s%"CREATE TABLE t (a INTEGER)" :=
  ⟨_, _, rfl, rfl, stuck_of (by decide +kernel) (by decide +kernel) rfl fun _ _ => not_understood rfl⟩

/-- C53 is violated: so is an index that is written in a table and changes. -/
theorem C53_changed_key_fails (sd : Str → Str → Str) :
    StuckMy sd s%"CREATE TABLE t (a INTEGER, KEY k (a))" s%"CREATE TABLE t (a INTEGER, KEY k (a DESC))" :=
  ⟨_, _, rfl, rfl, stuck_of (by decide +kernel) (by decide +kernel) rfl fun _ _ => not_understood rfl⟩

/-- C53 is violated: a new index in a table that is written with its schema is created with that schema, which MySQL does not know. -/
theorem C53_schema_key_fails (sd : Str → Str → Str) :
    StuckMy sd s%"CREATE TABLE s.t (a INTEGER)" s%"CREATE TABLE s.t (a INTEGER, KEY k (a))" :=
  ⟨_, _, rfl, rfl, stuck_of (by decide +kernel) (by decide +kernel) rfl fun _ _ => not_understood rfl⟩

set_option maxRecDepth 4000 in
/-- C53 is violated: a table is dropped before the table that refers to it. -/
theorem C53_dropped_table_referred_fails (sd : Str → Str → Str) :
    StuckMy sd s%"CREATE TABLE t (a BIGINT); CREATE TABLE u (a BIGINT, CONSTRAINT f FOREIGN KEY (a) REFERENCES t (a)); CREATE TABLE v (a BIGINT)"
      s%"CREATE TABLE v (a BIGINT)" :=
  ⟨_, _, rfl, rfl, stuck_of (by decide +kernel) (by decide +kernel) rfl fun h _ =>
    not_dropTable_refers h (.head _) (.tail _ (.head _)) (by decide +kernel) (k := s%"f") rfl rfl⟩

/-- C53 is violated: an index on a new column is created before the column. -/
theorem C53_new_index_column_fails (sd : Str → Str → Str) :
    StuckMy sd s%"CREATE TABLE t (a INTEGER)" s%"CREATE TABLE t (a INTEGER, b INTEGER); CREATE INDEX i ON t (b)" :=
  ⟨_, _, rfl, rfl, stuck_of (by decide +kernel) (by decide +kernel) rfl fun h _ =>
    not_createIndex h (.head _) rfl (.head _) (by decide +kernel)⟩

/-- C53 is violated: an index that was written in the table and is now written as `CREATE INDEX` is created before the old one is dropped. -/
theorem C53_index_rewritten_fails (sd : Str → Str → Str) :
    StuckMy sd s%"CREATE TABLE t (a INTEGER, KEY i (a))" s%"CREATE TABLE t (a INTEGER); CREATE INDEX i ON t (a)" :=
  ⟨_, _, rfl, rfl, stuck_of (by decide +kernel) (by decide +kernel) rfl fun h _ =>
    not_createIndex_taken h (.head _) rfl rfl⟩

set_option maxRecDepth 4000 in
/-- C53 is violated: indexes are found by their names only, although two tables may have indexes of the same name; here neither index
changes, and still the second one is to be dropped. -/
theorem C53_same_index_name_fails (sd : Str → Str → Str) :
    StuckMy sd s%"CREATE TABLE t (a INTEGER); CREATE TABLE u (a INTEGER); CREATE INDEX i ON t (a); CREATE INDEX i ON u (a)"
      s%"CREATE TABLE t (a INTEGER, b INTEGER); CREATE TABLE u (a INTEGER); CREATE INDEX i ON t (a); CREATE INDEX i ON u (a)" :=
  ⟨_, _, rfl, rfl, _, _, _,
    .cons (.createTable _ rfl (by decide +kernel) (by decide +kernel) (by simp)) (.cons (.createTable _ rfl (by decide +kernel) (by decide +kernel) (by simp))
      (.cons (.createIndex _ _ rfl rfl rfl rfl (by decide +kernel)) (.cons (.createIndex _ _ rfl rfl rfl rfl (by decide +kernel)) (.nil _)))),
    .cons (.createTable _ rfl (by decide +kernel) (by decide +kernel) (by simp)) (.cons (.createTable _ rfl (by decide +kernel) (by decide +kernel) (by simp))
      (.cons (.createIndex _ _ rfl rfl rfl rfl (by decide +kernel)) (.cons (.createIndex _ _ rfl rfl rfl rfl (by decide +kernel)) (.nil _)))),
    rfl, fun _ => not_understood rfl⟩

end Ddl.Props
