import Verif.Lemmas.OnceTables
import Verif.Props.Parsing

/-! # A migration repeats nothing: C76

`deedOf` says what a statement does: it creates or drops a table or an index, or does one thing to one named part of one table.
`DistinctIndexes` says that no table and no index is defined twice. Both are in `Verif/Spec/Once.lean`.  `sd` is
`simplediff.Diff(a, b).String()`, arbitrary. -/

namespace Ddl.Props
open Ddl Spec
set_option autoImplicit false

/-- C76 (PostgreSQL): the statements of a migration between two schemas, in which no table, no index and no column of a table is defined twice, do
pairwise different things: no object is dropped or created twice, and nothing is done twice to the same column or constraint. -/
theorem C76_postgres (sd : Str → Str → Str) (s : Str) (b a r : List Pg.PStmt) (pb : Pg.parse s = .ok b)
    (db : DistinctIndexes (Pg.ops sd) (fun _ => []) b) (da : DistinctIndexes (Pg.ops sd) (fun _ => []) a)
    (cb : ∀ t ∈ tableDefs b, (t.columns.map (·.name.name)).Nodup) (ca : ∀ t ∈ tableDefs a, (t.columns.map (·.name.name)).Nodup)
    (h : diff (Pg.ops sd) (some b) (some a) = .ok r) : (r.map (deedOf (Pg.ops sd) Pg.deedPart)).Nodup := by
  refine diff_once db da (fun t t' l ht ht' hn hl => ?_) h
  exact Pg.table_once hn (cb t (mem_tableDefs ht)) (ca t' (mem_tableDefs ht')) ((C15_unique_names s).1 b t pb ht) hl

set_option maxRecDepth 8000 in
example : ∃ b a r, Pg.parse s%"CREATE TABLE t (a INT NOT NULL, b TEXT, CONSTRAINT k FOREIGN KEY (a) REFERENCES x (y), CONSTRAINT gone FOREIGN KEY (b) REFERENCES x (z)); CREATE TABLE old (a INT); CREATE INDEX i ON t (a);" = .ok b ∧
    Pg.parse s%"CREATE TABLE t (a TEXT, c INT, CONSTRAINT k FOREIGN KEY (a, c) REFERENCES x (y, z), CONSTRAINT new FOREIGN KEY (c) REFERENCES x (z)); CREATE TABLE fresh (a INT); CREATE INDEX i ON t (c);" = .ok a ∧
    diff (Pg.ops fun _ _ => []) (some b) (some a) = .ok r ∧ r.length = 12 ∧
    DistinctIndexes (Pg.ops fun _ _ => []) (fun _ => []) b ∧ DistinctIndexes (Pg.ops fun _ _ => []) (fun _ => []) a ∧
    (∀ t ∈ tableDefs b, (t.columns.map (·.name.name)).Nodup) ∧ (∀ t ∈ tableDefs a, (t.columns.map (·.name.name)).Nodup) := by
  exact ⟨_, _, _, rfl, rfl, rfl, by decide +kernel, by unfold DistinctIndexes; decide +kernel, by unfold DistinctIndexes; decide +kernel,
    by decide +kernel, by decide +kernel⟩

/-- C76 (CockroachDB): as for PostgreSQL, if also the indexes declared inside tables have names different from each other and from the other indexes, and no
constraint becomes an index. Missing: schemas with equal index names in two tables, which CockroachDB allows. -/
theorem C76_cockroachdb_partial (sd : Str → Str → Str) (s : Str) (b a r : List Crdb.CStmt) (pb : Crdb.parse s = .ok b)
    (db : DistinctIndexes (Crdb.ops sd) Crdb.inlineIndexes b) (da : DistinctIndexes (Crdb.ops sd) Crdb.inlineIndexes a)
    (cb : ∀ t ∈ tableDefs b, (t.columns.map (·.name.name)).Nodup) (ca : ∀ t ∈ tableDefs a, (t.columns.map (·.name.name)).Nodup)
    (hk : Crdb.KeepsIndexes b a)
    (h : diff (Crdb.ops sd) (some b) (some a) = .ok r) : (r.map (deedOf (Crdb.ops sd) Crdb.deedPart)).Nodup := by
  refine diff_once db da (fun t t' l ht ht' hn hl => ?_) h
  exact Crdb.table_once hn (cb t (mem_tableDefs ht)) (ca t' (mem_tableDefs ht')) ((C15_unique_names s).2.1 b t pb ht) (hk t (mem_tableDefs ht) t' (mem_tableDefs ht') hn) hl

set_option maxRecDepth 8000 in
example : ∃ b a r, Crdb.parse s%"CREATE TABLE t (a INT NOT NULL, b TEXT, UNIQUE INDEX u (a), CONSTRAINT gone FOREIGN KEY (b) REFERENCES x (z)); CREATE TABLE old (a INT); CREATE INDEX i ON t (a);" = .ok b ∧
    Crdb.parse s%"CREATE TABLE t (a TEXT, c INT, UNIQUE INDEX u (a, c), CONSTRAINT new FOREIGN KEY (c) REFERENCES x (z)); CREATE TABLE fresh (a INT); CREATE INDEX i ON t (c);" = .ok a ∧
    diff (Crdb.ops fun _ _ => []) (some b) (some a) = .ok r ∧ r.length = 12 ∧
    DistinctIndexes (Crdb.ops fun _ _ => []) Crdb.inlineIndexes b ∧ DistinctIndexes (Crdb.ops fun _ _ => []) Crdb.inlineIndexes a ∧
    (∀ t ∈ tableDefs b, (t.columns.map (·.name.name)).Nodup) ∧ (∀ t ∈ tableDefs a, (t.columns.map (·.name.name)).Nodup) ∧
    Crdb.KeepsIndexes b a := by
  exact ⟨_, _, _, rfl, rfl, rfl, by decide +kernel, by unfold DistinctIndexes; decide +kernel, by unfold DistinctIndexes; decide +kernel,
    by decide +kernel, by decide +kernel, by unfold Crdb.KeepsIndexes; decide +kernel⟩

set_option maxRecDepth 8000 in
/-- C76 (CockroachDB) fails for two tables that each have an index of the same name, which CockroachDB allows: when both indexes are gone, the
migration is `DROP INDEX i` twice. -/
theorem C76_cockroachdb_fails : ∃ b a r, Crdb.parse s%"CREATE TABLE t (a INT, UNIQUE INDEX i (a)); CREATE TABLE u (a INT, UNIQUE INDEX i (a));" = .ok b ∧ Crdb.parse s%"CREATE TABLE t (a INT); CREATE TABLE u (a INT);" = .ok a ∧
    DistinctObjects (Crdb.ops fun _ _ => []) b ∧ DistinctObjects (Crdb.ops fun _ _ => []) a ∧
    diff (Crdb.ops fun _ _ => []) (some b) (some a) = .ok r ∧ r.map (stmtStr (Crdb.ops fun _ _ => [])) = [s%"DROP INDEX i;\n", s%"DROP INDEX i;\n"] ∧
    ¬ (r.map (deedOf (Crdb.ops fun _ _ => []) Crdb.deedPart)).Nodup :=
  ⟨_, _, _, rfl, rfl, by unfold DistinctObjects; decide +kernel, by unfold DistinctObjects; decide +kernel, rfl, by decide +kernel, by decide +kernel⟩

set_option maxRecDepth 8000 in
/-- C76 (CockroachDB) fails, even if all indexes have different names, when a constraint becomes an index: the constraint of the old table is then
dropped with `DROP INDEX`, here besides the index of this name in another table. -/
theorem C76_cockroachdb_kind_fails : ∃ b a r, Crdb.parse s%"CREATE TABLE t (a INT, CONSTRAINT i FOREIGN KEY (a) REFERENCES x (y)); CREATE TABLE u (a INT, UNIQUE INDEX i (a));" = .ok b ∧
    Crdb.parse s%"CREATE TABLE t (a INT, UNIQUE INDEX i (a)); CREATE TABLE u (a INT);" = .ok a ∧
    DistinctIndexes (Crdb.ops fun _ _ => []) Crdb.inlineIndexes b ∧ DistinctIndexes (Crdb.ops fun _ _ => []) Crdb.inlineIndexes a ∧
    diff (Crdb.ops fun _ _ => []) (some b) (some a) = .ok r ∧
    r.map (stmtStr (Crdb.ops fun _ _ => [])) = [s%"DROP INDEX i;\n", s%"CREATE UNIQUE INDEX i ON t (a);\n", s%"DROP INDEX i;\n"] ∧
    ¬ (r.map (deedOf (Crdb.ops fun _ _ => []) Crdb.deedPart)).Nodup :=
  ⟨_, _, _, rfl, rfl, by unfold DistinctIndexes; decide +kernel, by unfold DistinctIndexes; decide +kernel, rfl, by decide +kernel, by decide +kernel⟩

/-- C76 (MySQL): as for PostgreSQL, if also no option of a table is given twice, the indexes declared inside tables have names different from each other
and from the other indexes, and no constraint becomes an index. Missing: schemas with equal index names in two tables, which MySQL allows. -/
theorem C76_mysql_partial (sd : Str → Str → Str) (s : Str) (b a r : List My.MStmt) (pb : My.parse s = .ok b)
    (db : DistinctIndexes (My.ops sd) My.inlineIndexes b) (da : DistinctIndexes (My.ops sd) My.inlineIndexes a)
    (cb : ∀ t ∈ tableDefs b, (t.columns.map (·.name.name)).Nodup) (ca : ∀ t ∈ tableDefs a, (t.columns.map (·.name.name)).Nodup)
    (ob : ∀ t ∈ tableDefs b, (t.options.map (·.name)).Nodup) (oa : ∀ t ∈ tableDefs a, (t.options.map (·.name)).Nodup)
    (hk : My.KeepsIndexes b a)
    (h : diff (My.ops sd) (some b) (some a) = .ok r) : (r.map (deedOf (My.ops sd) My.deedPart)).Nodup := by
  refine diff_once db da (fun t t' l ht ht' hn hl => ?_) h
  exact My.table_once hn (cb t (mem_tableDefs ht)) (ca t' (mem_tableDefs ht')) ((C15_unique_names s).2.2.1 b t pb ht) (ob t (mem_tableDefs ht)) (oa t' (mem_tableDefs ht'))
    (hk t (mem_tableDefs ht) t' (mem_tableDefs ht') hn) hl

set_option maxRecDepth 8000 in
example : ∃ b a r, My.parse s%"CREATE TABLE t (a INT NOT NULL, b INT, UNIQUE KEY u (a), CONSTRAINT gone FOREIGN KEY (b) REFERENCES x (z)) ENGINE=InnoDB; CREATE TABLE old (a INT); CREATE INDEX i ON t (a);" = .ok b ∧
    My.parse s%"CREATE TABLE t (a BIGINT, c INT, UNIQUE KEY u (a, c), CONSTRAINT new FOREIGN KEY (c) REFERENCES x (z)) ENGINE=MyISAM; CREATE TABLE fresh (a INT); CREATE INDEX i ON t (c);" = .ok a ∧
    diff (My.ops fun _ _ => []) (some b) (some a) = .ok r ∧ r.length = 12 ∧
    DistinctIndexes (My.ops fun _ _ => []) My.inlineIndexes b ∧ DistinctIndexes (My.ops fun _ _ => []) My.inlineIndexes a ∧
    (∀ t ∈ tableDefs b, (t.columns.map (·.name.name)).Nodup) ∧ (∀ t ∈ tableDefs a, (t.columns.map (·.name.name)).Nodup) ∧
    (∀ t ∈ tableDefs b, (t.options.map (·.name)).Nodup) ∧ (∀ t ∈ tableDefs a, (t.options.map (·.name)).Nodup) ∧
    My.KeepsIndexes b a := by
  exact ⟨_, _, _, rfl, rfl, rfl, by decide +kernel, by unfold DistinctIndexes; decide +kernel, by unfold DistinctIndexes; decide +kernel,
    by decide +kernel, by decide +kernel, by decide +kernel, by decide +kernel, by unfold My.KeepsIndexes; decide +kernel⟩

set_option maxRecDepth 8000 in
/-- C76 (MySQL) fails for two tables that each have an index of the same name, which MySQL allows: when both indexes are gone, the
migration is `DROP INDEX i` twice. -/
theorem C76_mysql_fails : ∃ b a r, My.parse s%"CREATE TABLE t (a INT, UNIQUE KEY i (a)); CREATE TABLE u (a INT, UNIQUE KEY i (a));" = .ok b ∧ My.parse s%"CREATE TABLE t (a INT); CREATE TABLE u (a INT);" = .ok a ∧
    DistinctObjects (My.ops fun _ _ => []) b ∧ DistinctObjects (My.ops fun _ _ => []) a ∧
    diff (My.ops fun _ _ => []) (some b) (some a) = .ok r ∧ r.map (stmtStr (My.ops fun _ _ => [])) = [s%"DROP INDEX i;\n", s%"DROP INDEX i;\n"] ∧
    ¬ (r.map (deedOf (My.ops fun _ _ => []) My.deedPart)).Nodup :=
  ⟨_, _, _, rfl, rfl, by unfold DistinctObjects; decide +kernel, by unfold DistinctObjects; decide +kernel, rfl, by decide +kernel, by decide +kernel⟩

set_option maxRecDepth 8000 in
/-- C76 (MySQL) fails, even if all indexes have different names, when a constraint becomes an index: the constraint of the old table is then
dropped with `DROP INDEX`, here besides the index of this name in another table. -/
theorem C76_mysql_kind_fails : ∃ b a r, My.parse s%"CREATE TABLE t (a INT, CONSTRAINT i FOREIGN KEY (a) REFERENCES x (y)); CREATE TABLE u (a INT, UNIQUE KEY i (a));" = .ok b ∧
    My.parse s%"CREATE TABLE t (a INT, UNIQUE KEY i (a)); CREATE TABLE u (a INT);" = .ok a ∧
    DistinctIndexes (My.ops fun _ _ => []) My.inlineIndexes b ∧ DistinctIndexes (My.ops fun _ _ => []) My.inlineIndexes a ∧
    diff (My.ops fun _ _ => []) (some b) (some a) = .ok r ∧
    r.map (stmtStr (My.ops fun _ _ => [])) = [s%"DROP INDEX i;\n", s%"CREATE UNIQUE INDEX i ON t (a);\n", s%"DROP INDEX i;\n"] ∧
    ¬ (r.map (deedOf (My.ops fun _ _ => []) My.deedPart)).Nodup :=
  ⟨_, _, _, rfl, rfl, by unfold DistinctIndexes; decide +kernel, by unfold DistinctIndexes; decide +kernel, rfl, by decide +kernel, by decide +kernel⟩

/-- C76 (Spanner): the statements of a migration between two schemas, in which no table, no index and no column of a table is defined twice, do
pairwise different things: no object is dropped or created twice, and nothing is done twice to the same column or constraint. -/
theorem C76_spanner (sd : Str → Str → Str) (s s' : Str) (b a r : List Sp.SStmt) (pb : Sp.parse s = .ok b) (pa : Sp.parse s' = .ok a)
    (db : DistinctIndexes (Sp.ops sd) (fun _ => []) b) (da : DistinctIndexes (Sp.ops sd) (fun _ => []) a)
    (cb : ∀ t ∈ tableDefs b, (t.columns.map (·.name.name)).Nodup) (ca : ∀ t ∈ tableDefs a, (t.columns.map (·.name.name)).Nodup)
    (h : diff (Sp.ops sd) (some b) (some a) = .ok r) : (r.map (deedOf (Sp.ops sd) Sp.deedPart)).Nodup := by
  refine diff_once db da (fun t t' l ht ht' hn hl => ?_) h
  exact Sp.table_once hn (cb t (mem_tableDefs ht)) (ca t' (mem_tableDefs ht')) ((C15_unique_names s).2.2.2 b t pb ht) ((C15_unique_names s').2.2.2 a t' pa ht') hl

set_option maxRecDepth 8000 in
example : ∃ b a r, Sp.parse s%"CREATE TABLE t (a INT64 NOT NULL, b STRING(36), CONSTRAINT k FOREIGN KEY (a) REFERENCES x (y), CONSTRAINT gone FOREIGN KEY (b) REFERENCES x (z)) PRIMARY KEY (a); CREATE TABLE old (a INT64) PRIMARY KEY (a); CREATE INDEX i ON t (a);" = .ok b ∧
    Sp.parse s%"CREATE TABLE t (a STRING(36), c INT64, CONSTRAINT k FOREIGN KEY (a, c) REFERENCES x (y, z), CONSTRAINT new FOREIGN KEY (c) REFERENCES x (z)) PRIMARY KEY (a); CREATE TABLE fresh (a INT64) PRIMARY KEY (a); CREATE INDEX i ON t (c);" = .ok a ∧
    diff (Sp.ops fun _ _ => []) (some b) (some a) = .ok r ∧ r.length = 11 ∧
    DistinctIndexes (Sp.ops fun _ _ => []) (fun _ => []) b ∧ DistinctIndexes (Sp.ops fun _ _ => []) (fun _ => []) a ∧
    (∀ t ∈ tableDefs b, (t.columns.map (·.name.name)).Nodup) ∧ (∀ t ∈ tableDefs a, (t.columns.map (·.name.name)).Nodup) := by
  exact ⟨_, _, _, rfl, rfl, rfl, by decide +kernel, by unfold DistinctIndexes; decide +kernel, by unfold DistinctIndexes; decide +kernel,
    by decide +kernel, by decide +kernel⟩

end Ddl.Props
