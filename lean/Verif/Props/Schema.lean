import Verif.Lemmas.DecideSchema

/-! # Executing the migration of a Spanner schema gives the wanted schema: C51

`Exec`, `NoSchemaHazard`, `TameSchema` and `ReadFrom` are in `Verif/Spec/Schema.lean`, `Told` in `Verif/Spec/Objects.lean`, `Runs` in
`Verif/Spec/Run.lean`.
`sd` is `simplediff.Diff(a, b).String()`, arbitrary. -/

namespace Ddl.Props
open Ddl Spec
open Ddl.Sp (SStmt)
open Ddl.Sp.Run
set_option autoImplicit false

/-- C51: schemas that are read from texts, and that can be printed and read again, consist of CREATE statements and can be told from their
texts, as `C51_spanner_partial` wants them. -/
theorem C51_read (sd : Str → Str → Str) {s s' : Str} {b a : List SStmt} (hb : Sp.ReadFrom s b) (ha : Sp.ReadFrom s' a) :
    CreateOnly (Sp.ops sd) b ∧ CreateOnly (Sp.ops sd) a ∧ Told (Sp.ops sd) b a :=
  ⟨createOnly_of_readFrom hb, createOnly_of_readFrom ha, fun _ _ ht ht' => str_inj (again_of_readFrom hb _ ht) (again_of_readFrom ha _ ht'),
    ddlStr_inj (again_of_readFrom hb) (again_of_readFrom ha)⟩

/-- C51 (partial): let a Spanner database accept the CREATE statements of `b` and of `a`, giving the databases `B` and `A`.  The
statements of the diff, executed on `B` in order, all succeed and give `A`; if there is no difference, `B` is `A`.  Missing: the changes
excluded by `NoSchemaHazard`, see the theorems `C51_…_fails`, and schemas whose texts are ambiguous. -/
theorem C51_spanner_partial (sd : Str → Str → Str) {b a : List SStmt} {B A : Db} (cb : CreateOnly (Sp.ops sd) b)
    (ca : CreateOnly (Sp.ops sd) a) (db : DistinctObjects (Sp.ops sd) b) (da : DistinctObjects (Sp.ops sd) a) (tb : TameSchema b)
    (ta : TameSchema a) (told : Told (Sp.ops sd) b a) (ss : SameSchemas (Sp.ops sd) b a) (hB : Runs Exec Db.empty b B)
    (hA : Runs Exec Db.empty a A) (hz : NoSchemaHazard b a) :
    (∃ l, diff (Sp.ops sd) (some b) (some a) = .ok l ∧ Runs Exec B l A) ∨
      (diff (Sp.ops sd) (some b) (some a) = .err .noDifference ∧ B = A) :=
  migrate cb ca db da tb ta ss hz told.1 told.2 hB hA

set_option maxRecDepth 8000 in
example : ∃ s s' b a B A l, (Sp.ReadFrom s b ∧ Sp.ReadFrom s' a) ∧ (CreateOnly (Sp.ops fun _ _ => []) b ∧
    CreateOnly (Sp.ops fun _ _ => []) a ∧ Told (Sp.ops fun _ _ => []) b a) ∧ TameSchema b ∧ TameSchema a ∧
    DistinctObjects (Sp.ops fun _ _ => []) b ∧ DistinctObjects (Sp.ops fun _ _ => []) a ∧ SameSchemas (Sp.ops fun _ _ => []) b a ∧
    Runs Exec Db.empty b B ∧ Runs Exec Db.empty a A ∧ NoSchemaHazard b a ∧
    diff (Sp.ops fun _ _ => []) (some b) (some a) = .ok l ∧ l.length = 18 := by
  obtain ⟨s, s', b, a, h, h', r⟩ : ∃ s s' b a, Sp.ReadFrom s b ∧ Sp.ReadFrom s' a ∧ ∃ B A l, TameSchema b ∧ TameSchema a ∧
    DistinctObjects (Sp.ops fun _ _ => []) b ∧ DistinctObjects (Sp.ops fun _ _ => []) a ∧ SameSchemas (Sp.ops fun _ _ => []) b a ∧
    Runs Exec Db.empty b B ∧ Runs Exec Db.empty a A ∧ NoSchemaHazard b a ∧
    diff (Sp.ops fun _ _ => []) (some b) (some a) = .ok l ∧ l.length = 18 := by
   refine ⟨s%"CREATE TABLE p (x INT64 NOT NULL, y INT64) PRIMARY KEY (x);
    CREATE TABLE t (x INT64 NOT NULL, a STRING(10), b INT64 DEFAULT (1), c INT64, d INT64, CONSTRAINT f FOREIGN KEY (a) REFERENCES p (x))
      PRIMARY KEY (x), INTERLEAVE IN PARENT p ON DELETE CASCADE;
    CREATE TABLE gone (z INT64) PRIMARY KEY (z); CREATE TABLE r (z INT64, w INT64) PRIMARY KEY (z);
    CREATE INDEX i ON t (a); CREATE INDEX old ON t (d)",
   s%"CREATE TABLE r (z INT64, w INT64) PRIMARY KEY (z, w); CREATE TABLE p (x INT64 NOT NULL, y STRING(MAX)) PRIMARY KEY (x);
    CREATE TABLE t (x INT64 NOT NULL, a STRING(20), b INT64, c INT64 NOT NULL, e TIMESTAMP OPTIONS (allow_commit_timestamp = true),
      CONSTRAINT g FOREIGN KEY (a) REFERENCES p (x), CONSTRAINT h CHECK (c > 0))
      PRIMARY KEY (x), INTERLEAVE IN PARENT p ON DELETE CASCADE, ROW DELETION POLICY (OLDER_THAN(e, INTERVAL 30 DAY));
    CREATE TABLE n (q INT64, CONSTRAINT f FOREIGN KEY (q) REFERENCES n (q)) PRIMARY KEY (q);
    CREATE UNIQUE INDEX i ON t (a DESC); CREATE INDEX j ON n (q)", _, _,
    ⟨⟨_, writes_of_lex .spanner _ (by decide +kernel), by decide +kernel⟩, by decide +kernel, rfl, by decide +kernel⟩,
    ⟨⟨_, writes_of_lex .spanner _ (by decide +kernel), by decide +kernel⟩, by decide +kernel, rfl, by decide +kernel⟩, _, _, _,
    by decide +kernel, by decide +kernel, by decide +kernel, by decide +kernel, by decide +kernel, loads (by decide +kernel),
    loads (by decide +kernel), noSchemaHazard_of (by decide +kernel), rfl, by decide +kernel⟩
  obtain ⟨B, A, l, r⟩ := r
  exact ⟨s, s', b, a, B, A, l, ⟨h, h'⟩, C51_read _ h h', r⟩

/-- Both texts are read, a Spanner database accepts both, but on the database of the first text a statement of the diff fails. -/
abbrev StuckSp (sd : Str → Str → Str) (s s' : Str) : Prop :=
  ∃ b a, Sp.parse s = .ok b ∧ Sp.parse s' = .ok a ∧ ∃ B A l, Runs Exec Db.empty b B ∧ Runs Exec Db.empty a A ∧
    diff (Sp.ops sd) (some b) (some a) = .ok l ∧ ∀ D, ¬ Runs Exec B l D

/-- C51 is violated: a table with an index is dropped before its index. -/
theorem C51_dropped_table_index_fails (sd : Str → Str → Str) :
    StuckSp sd s%"CREATE TABLE t (a INT64) PRIMARY KEY (a); CREATE INDEX i ON t (a); CREATE TABLE u (a INT64) PRIMARY KEY (a)"
      s%"CREATE TABLE u (a INT64) PRIMARY KEY (a)" :=
  ⟨_, _, rfl, rfl, stuck_of (by decide +kernel) (by decide +kernel) rfl fun h _ =>
    not_dropTable_index h (.head _) (.tail _ (.head _)) rfl⟩

set_option maxRecDepth 4000 in
/-- C51 is violated: a table is dropped before the table that is interleaved in it. -/
theorem C51_dropped_parent_fails (sd : Str → Str → Str) :
    StuckSp sd s%"CREATE TABLE t (a INT64) PRIMARY KEY (a); CREATE TABLE u (a INT64) PRIMARY KEY (a), INTERLEAVE IN PARENT t;
      CREATE TABLE v (a INT64) PRIMARY KEY (a)" s%"CREATE TABLE v (a INT64) PRIMARY KEY (a)" :=
  ⟨_, _, rfl, rfl, stuck_of (by decide +kernel) (by decide +kernel) rfl fun h _ =>
    not_dropTable_refers h (.head _) (.tail _ (.head _)) (by decide +kernel) (.inl (by decide +kernel))⟩

set_option maxRecDepth 4000 in
/-- C51 is violated: a table is dropped before the table that refers to it. -/
theorem C51_dropped_table_referred_fails (sd : Str → Str → Str) :
    StuckSp sd s%"CREATE TABLE t (a INT64) PRIMARY KEY (a);
      CREATE TABLE u (a INT64, CONSTRAINT f FOREIGN KEY (a) REFERENCES t (a)) PRIMARY KEY (a); CREATE TABLE v (a INT64) PRIMARY KEY (a)"
      s%"CREATE TABLE v (a INT64) PRIMARY KEY (a)" :=
  ⟨_, _, rfl, rfl, stuck_of (by decide +kernel) (by decide +kernel) rfl fun h _ =>
    not_dropTable_refers h (.head _) (.tail _ (.head _)) (by decide +kernel) (.inr ⟨s%"f", _, rfl, rfl⟩)⟩

/-- C51 is violated: a table with another primary key is dropped and created again although it has an index, which is not dropped. -/
theorem C51_recreated_table_index_fails (sd : Str → Str → Str) :
    StuckSp sd s%"CREATE TABLE t (a INT64, b INT64) PRIMARY KEY (a); CREATE INDEX i ON t (b)"
      s%"CREATE TABLE t (a INT64, b INT64) PRIMARY KEY (b); CREATE INDEX i ON t (b)" :=
  ⟨_, _, rfl, rfl, stuck_of (by decide +kernel) (by decide +kernel) rfl fun h _ =>
    not_dropTable_index h (.head _) (.tail _ (.head _)) rfl⟩

/-- C51 is violated: a table with another primary key is dropped and created again although a table is interleaved in it. -/
theorem C51_recreated_parent_fails (sd : Str → Str → Str) :
    StuckSp sd s%"CREATE TABLE t (a INT64, b INT64) PRIMARY KEY (a); CREATE TABLE u (a INT64) PRIMARY KEY (a), INTERLEAVE IN PARENT t"
      s%"CREATE TABLE t (a INT64, b INT64) PRIMARY KEY (a, b); CREATE TABLE u (a INT64) PRIMARY KEY (a), INTERLEAVE IN PARENT t" :=
  ⟨_, _, rfl, rfl, stuck_of (by decide +kernel) (by decide +kernel) rfl fun h _ =>
    not_dropTable_refers h (.head _) (.tail _ (.head _)) (by decide +kernel) (.inl (by decide +kernel))⟩

/-- C51 is violated: a column is dropped before the constraint on it. -/
theorem C51_dropped_column_constraint_fails (sd : Str → Str → Str) :
    StuckSp sd s%"CREATE TABLE t (a INT64, b INT64, CONSTRAINT k CHECK (a > b)) PRIMARY KEY (a)"
      s%"CREATE TABLE t (a INT64, CONSTRAINT k CHECK (a > 0)) PRIMARY KEY (a)" :=
  ⟨_, _, rfl, rfl, stuck_of (by decide +kernel) (by decide +kernel) rfl fun h _ =>
    not_dropColumn_con h (.head _) rfl (j := s%"k") rfl (by decide +kernel)⟩

/-- C51 is violated: a column is dropped before the index on it. -/
theorem C51_dropped_column_index_fails (sd : Str → Str → Str) :
    StuckSp sd s%"CREATE TABLE t (a INT64, b INT64) PRIMARY KEY (a); CREATE INDEX i ON t (a, b)"
      s%"CREATE TABLE t (a INT64) PRIMARY KEY (a); CREATE INDEX i ON t (a)" :=
  ⟨_, _, rfl, rfl, stuck_of (by decide +kernel) (by decide +kernel) rfl fun h _ =>
    not_dropColumn_index h (.tail _ (.head _)) rfl (by decide +kernel)⟩

/-- C51 is violated: an index on a new column is created before the column. -/
theorem C51_new_index_column_fails (sd : Str → Str → Str) :
    StuckSp sd s%"CREATE TABLE t (a INT64) PRIMARY KEY (a)" s%"CREATE TABLE t (a INT64, b INT64) PRIMARY KEY (a); CREATE INDEX i ON t (b)" :=
  ⟨_, _, rfl, rfl, stuck_of (by decide +kernel) (by decide +kernel) rfl fun h _ =>
    not_createIndex h (.head _) rfl (.head _) (by decide +kernel) rfl⟩

/-- C51 is violated: an index that moves to another table is created there before the new columns of that table. -/
theorem C51_moved_index_fails (sd : Str → Str → Str) :
    StuckSp sd s%"CREATE TABLE t (a INT64) PRIMARY KEY (a); CREATE INDEX i ON t (a); CREATE TABLE u (a INT64) PRIMARY KEY (a)"
      s%"CREATE TABLE t (a INT64) PRIMARY KEY (a); CREATE TABLE u (a INT64, b INT64) PRIMARY KEY (a); CREATE INDEX i ON u (b)" :=
  ⟨_, _, rfl, rfl, stuck_of (by decide +kernel) (by decide +kernel) rfl fun h _ =>
    not_dropIndex_createIndex h (.tail _ (.head _)) (.tail _ (.tail _ (.head _))) rfl (.head _) (by decide +kernel) rfl⟩

end Ddl.Props
