import Verif.Lemmas.TakeBack
import Verif.Props.Parsing

/-! # A migration takes nothing back: C77

`TakesBack`, `NothingTakenBack` and `Stays` are in `Verif/Spec/TakeBack.lean`, `deedOf` (what a statement does) and `DistinctIndexes` (no
table and no index is defined twice) in `Verif/Spec/Once.lean`.  `sd` is `simplediff.Diff(a, b).String()`, arbitrary. -/

namespace Ddl.Props
open Ddl Spec
set_option autoImplicit false

/-- C77 (PostgreSQL): in a migration between two schemas, in which no table, no index and no column of a table is defined twice, no table, index, column or
constraint that has been created or added is dropped again by a later statement. -/
theorem C77_postgres (sd : Str → Str → Str) (s : Str) (b a r : List Pg.PStmt) (pb : Pg.parse s = .ok b)
    (db : DistinctIndexes (Pg.ops sd) (fun _ => []) b)
    (cb : ∀ t ∈ tableDefs b, (t.columns.map (·.name.name)).Nodup) (ca : ∀ t ∈ tableDefs a, (t.columns.map (·.name.name)).Nodup)
    (h : diff (Pg.ops sd) (some b) (some a) = .ok r) : NothingTakenBack (r.map (deedOf (Pg.ops sd) Pg.deedPart)) := by
  refine diff_back db (stays_simple b a) (fun t t' l ht ht' hn hl => ?_) h
  have hu := (C15_unique_names s).1 b t pb ht
  exact ⟨Pg.table_once hn (cb t (mem_tableDefs ht)) (ca t' (mem_tableDefs ht')) hu hl,
    Pg.table_back hn (cb t (mem_tableDefs ht)) (ca t' (mem_tableDefs ht')) hu hl⟩

set_option maxRecDepth 8000 in
example : ∃ b a r, Pg.parse s%"CREATE TABLE t (a INT NOT NULL, b TEXT, CONSTRAINT k FOREIGN KEY (a) REFERENCES x (y), CONSTRAINT gone FOREIGN KEY (b) REFERENCES x (z)); CREATE TABLE old (a INT); CREATE INDEX i ON t (a);" = .ok b ∧
    Pg.parse s%"CREATE TABLE t (a TEXT, c INT, CONSTRAINT k FOREIGN KEY (a, c) REFERENCES x (y, z), CONSTRAINT new FOREIGN KEY (c) REFERENCES x (z)); CREATE TABLE fresh (a INT); CREATE INDEX i ON t (c);" = .ok a ∧
    diff (Pg.ops fun _ _ => []) (some b) (some a) = .ok r ∧ r.length = 12 ∧ DistinctIndexes (Pg.ops fun _ _ => []) (fun _ => []) b ∧
    (∀ t ∈ tableDefs b, (t.columns.map (·.name.name)).Nodup) ∧ (∀ t ∈ tableDefs a, (t.columns.map (·.name.name)).Nodup) := by
  exact ⟨_, _, _, rfl, rfl, rfl, by decide +kernel, by unfold DistinctIndexes; decide +kernel, by decide +kernel, by decide +kernel⟩

/-- C77 (CockroachDB): as for PostgreSQL, if also the indexes declared inside tables have names of their own, an index of both schemas is in the same place in
both, and no constraint becomes an index. Missing: schemas without these conditions; without the second or the third one it fails. -/
theorem C77_cockroachdb_partial (sd : Str → Str → Str) (s : Str) (b a r : List Crdb.CStmt) (pb : Crdb.parse s = .ok b)
    (db : DistinctIndexes (Crdb.ops sd) Crdb.inlineIndexes b)
    (cb : ∀ t ∈ tableDefs b, (t.columns.map (·.name.name)).Nodup) (ca : ∀ t ∈ tableDefs a, (t.columns.map (·.name.name)).Nodup)
    (hs : Stays (Crdb.ops sd) Crdb.inlineIndexes b a) (hk : Crdb.KeepsIndexes b a)
    (h : diff (Crdb.ops sd) (some b) (some a) = .ok r) : NothingTakenBack (r.map (deedOf (Crdb.ops sd) Crdb.deedPart)) := by
  refine diff_back db hs (fun t t' l ht ht' hn hl => ?_) h
  have hu := (C15_unique_names s).2.1 b t pb ht
  exact ⟨Crdb.table_once hn (cb t (mem_tableDefs ht)) (ca t' (mem_tableDefs ht')) hu (hk t (mem_tableDefs ht) t' (mem_tableDefs ht') hn) hl,
    Crdb.table_back hn (cb t (mem_tableDefs ht)) (ca t' (mem_tableDefs ht')) hu (hk t (mem_tableDefs ht) t' (mem_tableDefs ht') hn) hl⟩

set_option maxRecDepth 8000 in
example : ∃ b a r, Crdb.parse s%"CREATE TABLE t (a INT NOT NULL, b TEXT, UNIQUE INDEX u (a), CONSTRAINT gone FOREIGN KEY (b) REFERENCES x (z)); CREATE TABLE old (a INT); CREATE INDEX i ON t (a);" = .ok b ∧
    Crdb.parse s%"CREATE TABLE t (a TEXT, c INT, UNIQUE INDEX u (a, c), CONSTRAINT new FOREIGN KEY (c) REFERENCES x (z)); CREATE TABLE fresh (a INT); CREATE INDEX i ON t (c);" = .ok a ∧
    diff (Crdb.ops fun _ _ => []) (some b) (some a) = .ok r ∧ r.length = 12 ∧ DistinctIndexes (Crdb.ops fun _ _ => []) Crdb.inlineIndexes b ∧
    (∀ t ∈ tableDefs b, (t.columns.map (·.name.name)).Nodup) ∧ (∀ t ∈ tableDefs a, (t.columns.map (·.name.name)).Nodup) ∧
    Stays (Crdb.ops fun _ _ => []) Crdb.inlineIndexes b a ∧ Crdb.KeepsIndexes b a := by
  exact ⟨_, _, _, rfl, rfl, rfl, by decide +kernel, by unfold DistinctIndexes; decide +kernel, by decide +kernel, by decide +kernel, by unfold Stays; decide +kernel, by unfold Crdb.KeepsIndexes; decide +kernel⟩

set_option maxRecDepth 8000 in
/-- C77 (CockroachDB) fails if an index moves to a table that comes earlier: the new index is created first, and then `DROP INDEX` with the same
name follows, without the table. -/
theorem C77_cockroachdb_fails : ∃ b a r, Crdb.parse s%"CREATE TABLE t (a INT); CREATE TABLE u (a INT, UNIQUE INDEX i (a));" = .ok b ∧
    Crdb.parse s%"CREATE TABLE t (a INT, UNIQUE INDEX i (a)); CREATE TABLE u (a INT);" = .ok a ∧
    DistinctIndexes (Crdb.ops fun _ _ => []) Crdb.inlineIndexes b ∧ DistinctIndexes (Crdb.ops fun _ _ => []) Crdb.inlineIndexes a ∧ Crdb.KeepsIndexes b a ∧
    diff (Crdb.ops fun _ _ => []) (some b) (some a) = .ok r ∧
    r.map (stmtStr (Crdb.ops fun _ _ => [])) = [s%"CREATE UNIQUE INDEX i ON t (a);\n", s%"DROP INDEX i;\n"] ∧
    ¬ NothingTakenBack (r.map (deedOf (Crdb.ops fun _ _ => []) Crdb.deedPart)) :=
  ⟨_, _, _, rfl, rfl, by unfold DistinctIndexes; decide +kernel, by unfold DistinctIndexes; decide +kernel, by unfold Crdb.KeepsIndexes; decide +kernel,
    rfl, by decide +kernel, by unfold NothingTakenBack; decide +kernel⟩

set_option maxRecDepth 8000 in
/-- C77 (CockroachDB) fails also if a constraint becomes an index, and an earlier table gets an index with the same name: `DROP INDEX` is written for the
constraint. -/
theorem C77_cockroachdb_kind_fails : ∃ b a r, Crdb.parse s%"CREATE TABLE t (a INT); CREATE TABLE u (a INT, CONSTRAINT i FOREIGN KEY (a) REFERENCES x (y));" = .ok b ∧
    Crdb.parse s%"CREATE TABLE t (a INT, UNIQUE INDEX i (a)); CREATE TABLE u (a INT, UNIQUE INDEX i (a));" = .ok a ∧
    DistinctIndexes (Crdb.ops fun _ _ => []) Crdb.inlineIndexes b ∧ Stays (Crdb.ops fun _ _ => []) Crdb.inlineIndexes b a ∧
    diff (Crdb.ops fun _ _ => []) (some b) (some a) = .ok r ∧
    r.map (stmtStr (Crdb.ops fun _ _ => [])) = [s%"CREATE UNIQUE INDEX i ON t (a);\n", s%"DROP INDEX i;\n", s%"CREATE UNIQUE INDEX i ON u (a);\n"] ∧
    ¬ NothingTakenBack (r.map (deedOf (Crdb.ops fun _ _ => []) Crdb.deedPart)) :=
  ⟨_, _, _, rfl, rfl, by unfold DistinctIndexes; decide +kernel, by unfold Stays; decide +kernel, rfl, by decide +kernel,
    by unfold NothingTakenBack; decide +kernel⟩

/-- C77 (MySQL): as for PostgreSQL, if also no option of a table is given twice, the indexes declared inside tables have names of their own, an index of
both schemas is in the same place in both, no constraint becomes an index, and tables of equal names are written with the same schema. Missing:
schemas without these conditions; without the third or the fourth one it fails. -/
theorem C77_mysql_partial (sd : Str → Str → Str) (s : Str) (b a r : List My.MStmt) (pb : My.parse s = .ok b)
    (db : DistinctIndexes (My.ops sd) My.inlineIndexes b)
    (cb : ∀ t ∈ tableDefs b, (t.columns.map (·.name.name)).Nodup) (ca : ∀ t ∈ tableDefs a, (t.columns.map (·.name.name)).Nodup)
    (ob : ∀ t ∈ tableDefs b, (t.options.map (·.name)).Nodup) (oa : ∀ t ∈ tableDefs a, (t.options.map (·.name)).Nodup)
    (hs : Stays (My.ops sd) My.inlineIndexes b a) (hk : My.KeepsIndexes b a)
    (hq : ∀ t ∈ tableDefs b, ∀ t' ∈ tableDefs a, t.name.diffStr = t'.name.diffStr → t.name.schema.map (·.name) = t'.name.schema.map (·.name))
    (h : diff (My.ops sd) (some b) (some a) = .ok r) : NothingTakenBack (r.map (deedOf (My.ops sd) My.deedPart)) := by
  refine diff_back db hs (fun t t' l ht ht' hn hl => ?_) h
  have hu := (C15_unique_names s).2.2.1 b t pb ht
  exact ⟨My.table_once hn (cb t (mem_tableDefs ht)) (ca t' (mem_tableDefs ht')) hu (ob t (mem_tableDefs ht)) (oa t' (mem_tableDefs ht')) (hk t (mem_tableDefs ht) t' (mem_tableDefs ht') hn) hl,
    My.table_back hn (cb t (mem_tableDefs ht)) (ca t' (mem_tableDefs ht')) hu (ob t (mem_tableDefs ht)) (oa t' (mem_tableDefs ht'))
    (My.qIndex_same (hq t (mem_tableDefs ht) t' (mem_tableDefs ht') hn)) (hk t (mem_tableDefs ht) t' (mem_tableDefs ht') hn) hl⟩

set_option maxRecDepth 8000 in
example : ∃ b a r, My.parse s%"CREATE TABLE t (a INT NOT NULL, b INT, UNIQUE KEY u (a), CONSTRAINT gone FOREIGN KEY (b) REFERENCES x (z)) ENGINE=InnoDB; CREATE TABLE old (a INT); CREATE INDEX i ON t (a);" = .ok b ∧
    My.parse s%"CREATE TABLE t (a BIGINT, c INT, UNIQUE KEY u (a, c), CONSTRAINT new FOREIGN KEY (c) REFERENCES x (z)) ENGINE=MyISAM; CREATE TABLE fresh (a INT); CREATE INDEX i ON t (c);" = .ok a ∧
    diff (My.ops fun _ _ => []) (some b) (some a) = .ok r ∧ r.length = 12 ∧ DistinctIndexes (My.ops fun _ _ => []) My.inlineIndexes b ∧
    (∀ t ∈ tableDefs b, (t.columns.map (·.name.name)).Nodup) ∧ (∀ t ∈ tableDefs a, (t.columns.map (·.name.name)).Nodup) ∧
    (∀ t ∈ tableDefs b, (t.options.map (·.name)).Nodup) ∧ (∀ t ∈ tableDefs a, (t.options.map (·.name)).Nodup) ∧
    Stays (My.ops fun _ _ => []) My.inlineIndexes b a ∧ My.KeepsIndexes b a ∧
    (∀ t ∈ tableDefs b, ∀ t' ∈ tableDefs a, t.name.diffStr = t'.name.diffStr → t.name.schema.map (·.name) = t'.name.schema.map (·.name)) := by
  exact ⟨_, _, _, rfl, rfl, rfl, by decide +kernel, by unfold DistinctIndexes; decide +kernel, by decide +kernel, by decide +kernel, by decide +kernel, by decide +kernel,
    by unfold Stays; decide +kernel, by unfold My.KeepsIndexes; decide +kernel, by decide +kernel⟩

set_option maxRecDepth 8000 in
/-- C77 (MySQL) fails if an index moves to a table that comes earlier: the new index is created first, and then `DROP INDEX` with the same
name follows, without the table. -/
theorem C77_mysql_fails : ∃ b a r, My.parse s%"CREATE TABLE t (a INT); CREATE TABLE u (a INT, UNIQUE KEY i (a));" = .ok b ∧
    My.parse s%"CREATE TABLE t (a INT, UNIQUE KEY i (a)); CREATE TABLE u (a INT);" = .ok a ∧
    DistinctIndexes (My.ops fun _ _ => []) My.inlineIndexes b ∧ DistinctIndexes (My.ops fun _ _ => []) My.inlineIndexes a ∧ My.KeepsIndexes b a ∧
    diff (My.ops fun _ _ => []) (some b) (some a) = .ok r ∧
    r.map (stmtStr (My.ops fun _ _ => [])) = [s%"CREATE UNIQUE INDEX i ON t (a);\n", s%"DROP INDEX i;\n"] ∧
    ¬ NothingTakenBack (r.map (deedOf (My.ops fun _ _ => []) My.deedPart)) :=
  ⟨_, _, _, rfl, rfl, by unfold DistinctIndexes; decide +kernel, by unfold DistinctIndexes; decide +kernel, by unfold My.KeepsIndexes; decide +kernel,
    rfl, by decide +kernel, by unfold NothingTakenBack; decide +kernel⟩

set_option maxRecDepth 8000 in
/-- C77 (MySQL) fails also if a constraint becomes an index, and an earlier table gets an index with the same name: `DROP INDEX` is written for the
constraint. -/
theorem C77_mysql_kind_fails : ∃ b a r, My.parse s%"CREATE TABLE t (a INT); CREATE TABLE u (a INT, CONSTRAINT i FOREIGN KEY (a) REFERENCES x (y));" = .ok b ∧
    My.parse s%"CREATE TABLE t (a INT, UNIQUE KEY i (a)); CREATE TABLE u (a INT, UNIQUE KEY i (a));" = .ok a ∧
    DistinctIndexes (My.ops fun _ _ => []) My.inlineIndexes b ∧ Stays (My.ops fun _ _ => []) My.inlineIndexes b a ∧
    diff (My.ops fun _ _ => []) (some b) (some a) = .ok r ∧
    r.map (stmtStr (My.ops fun _ _ => [])) = [s%"CREATE UNIQUE INDEX i ON t (a);\n", s%"DROP INDEX i;\n", s%"CREATE UNIQUE INDEX i ON u (a);\n"] ∧
    ¬ NothingTakenBack (r.map (deedOf (My.ops fun _ _ => []) My.deedPart)) :=
  ⟨_, _, _, rfl, rfl, by unfold DistinctIndexes; decide +kernel, by unfold Stays; decide +kernel, rfl, by decide +kernel,
    by unfold NothingTakenBack; decide +kernel⟩

/-- C77 (Spanner): as for PostgreSQL. -/
theorem C77_spanner (sd : Str → Str → Str) (s s' : Str) (b a r : List Sp.SStmt) (pb : Sp.parse s = .ok b) (pa : Sp.parse s' = .ok a)
    (db : DistinctIndexes (Sp.ops sd) (fun _ => []) b)
    (cb : ∀ t ∈ tableDefs b, (t.columns.map (·.name.name)).Nodup) (ca : ∀ t ∈ tableDefs a, (t.columns.map (·.name.name)).Nodup)
    (h : diff (Sp.ops sd) (some b) (some a) = .ok r) : NothingTakenBack (r.map (deedOf (Sp.ops sd) Sp.deedPart)) := by
  refine diff_back db (stays_simple b a) (fun t t' l ht ht' hn hl => ?_) h
  have hu := (C15_unique_names s).2.2.2 b t pb ht
  exact ⟨Sp.table_once hn (cb t (mem_tableDefs ht)) (ca t' (mem_tableDefs ht')) hu ((C15_unique_names s').2.2.2 a t' pa ht') hl,
    Sp.table_back hn (cb t (mem_tableDefs ht)) (ca t' (mem_tableDefs ht')) hu hl⟩

set_option maxRecDepth 8000 in
example : ∃ b a r, Sp.parse s%"CREATE TABLE t (a INT64 NOT NULL, b STRING(36), CONSTRAINT k FOREIGN KEY (a) REFERENCES x (y), CONSTRAINT gone FOREIGN KEY (b) REFERENCES x (z)) PRIMARY KEY (a); CREATE TABLE old (a INT64) PRIMARY KEY (a); CREATE INDEX i ON t (a);" = .ok b ∧
    Sp.parse s%"CREATE TABLE t (a STRING(36), c INT64, CONSTRAINT k FOREIGN KEY (a, c) REFERENCES x (y, z), CONSTRAINT new FOREIGN KEY (c) REFERENCES x (z)) PRIMARY KEY (a); CREATE TABLE fresh (a INT64) PRIMARY KEY (a); CREATE INDEX i ON t (c);" = .ok a ∧
    diff (Sp.ops fun _ _ => []) (some b) (some a) = .ok r ∧ r.length = 11 ∧ DistinctIndexes (Sp.ops fun _ _ => []) (fun _ => []) b ∧
    (∀ t ∈ tableDefs b, (t.columns.map (·.name.name)).Nodup) ∧ (∀ t ∈ tableDefs a, (t.columns.map (·.name.name)).Nodup) := by
  exact ⟨_, _, _, rfl, rfl, rfl, by decide +kernel, by unfold DistinctIndexes; decide +kernel, by decide +kernel, by decide +kernel⟩

end Ddl.Props
