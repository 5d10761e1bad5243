import Verif.Lemmas.Order
import Verif.Lemmas.ParseCreates

/-! # The order of the definitions does not matter: C71

`Changes` and `TextsTell` are in `Verif/Spec/Parts.lean`, `AnyOrder` in `Verif/Spec/Order.lean`.  `sd` is `simplediff.Diff(a, b).String()`, arbitrary. -/

namespace Ddl.Props
open Ddl Spec
set_option autoImplicit false

variable (sd : Str → Str → Str)

/-- C71 (partial), PostgreSQL: if the definitions of both schemas are put into another order, the migration has the same statements.
Missing: schemas in which an object is defined twice, see `C71_postgres_fails`, and different schemas that are printed alike. -/
theorem C71_postgres_partial {b b' a a' : List Pg.PStmt} {s s' : Str} (hs : Pg.parse s = .ok b) (hs' : Pg.parse s' = .ok a) (hb : b.Perm b') (ha : a.Perm a')
    (db : DistinctObjects (Pg.ops sd) b) (da : DistinctObjects (Pg.ops sd) a) (t : TextsTell (Pg.ops sd) b a) (t' : TextsTell (Pg.ops sd) b' a') :
    AnyOrder (Pg.ops sd) b b' a a' :=
  anyOrder (fun t => by simp [Pg.ops, Pg.diffCreateTable]) hb ha (Pg.parse_creates hs) (Pg.parse_creates hs') db da t t'

set_option maxRecDepth 8000 in
set_option maxHeartbeats 1000000 in
example : ∃ b b' a a' m, Pg.parse s%"CREATE TABLE t (a INT); CREATE TABLE u (a INT); CREATE INDEX i ON u (a)" = .ok b ∧
    Pg.parse s%"CREATE INDEX i ON u (a); CREATE TABLE t (a INT); CREATE TABLE u (a INT)" = .ok b' ∧
    Pg.parse s%"CREATE TABLE t (a INT, y INT); CREATE TABLE u (a INT); CREATE INDEX i ON u (a, a); CREATE TABLE w (a INT)" = .ok a ∧
    Pg.parse s%"CREATE TABLE w (a INT); CREATE TABLE u (a INT); CREATE TABLE t (a INT, y INT); CREATE INDEX i ON u (a, a)" = .ok a' ∧
    TextsTell (Pg.ops fun _ _ => []) b a ∧ TextsTell (Pg.ops fun _ _ => []) b' a' ∧ b.Perm b' ∧ a.Perm a' ∧ DistinctObjects (Pg.ops fun _ _ => []) b ∧
    DistinctObjects (Pg.ops fun _ _ => []) a ∧ Changes (Pg.ops fun _ _ => []) b a m ∧ m.length = 4 :=
  ⟨_, _, _, _, _, rfl, rfl, rfl, rfl, by unfold TextsTell; decide +kernel, by unfold TextsTell; decide +kernel, by decide +kernel, by decide +kernel, by unfold DistinctObjects; decide +kernel,
    by unfold DistinctObjects; decide +kernel, .inl ⟨rfl, by decide +kernel⟩, rfl⟩

set_option maxRecDepth 8000 in
/-- C71 is violated, PostgreSQL: if the new schema defines a table twice, it depends on the order of the two definitions whether there is a difference. -/
theorem C71_postgres_fails : ∃ b a a', Pg.parse s%"CREATE TABLE t (a INT)" = .ok b ∧
    Pg.parse s%"CREATE TABLE t (a INT); CREATE TABLE t (a INT, y INT)" = .ok a ∧ Pg.parse s%"CREATE TABLE t (a INT, y INT); CREATE TABLE t (a INT)" = .ok a' ∧
    a.Perm a' ∧ Changes (Pg.ops sd) b a [] ∧ ¬ AnyOrder (Pg.ops sd) b b a a' :=
  ⟨_, _, _, rfl, rfl, rfl, by decide +kernel, .inr ⟨rfl, rfl⟩, not_anyOrder (.inr ⟨rfl, rfl⟩) rfl⟩

/-- C71 (partial), CockroachDB: as for PostgreSQL. -/
theorem C71_cockroachdb_partial {b b' a a' : List Crdb.CStmt} {s s' : Str} (hs : Crdb.parse s = .ok b) (hs' : Crdb.parse s' = .ok a) (hb : b.Perm b') (ha : a.Perm a')
    (db : DistinctObjects (Crdb.ops sd) b) (da : DistinctObjects (Crdb.ops sd) a) (t : TextsTell (Crdb.ops sd) b a) (t' : TextsTell (Crdb.ops sd) b' a') :
    AnyOrder (Crdb.ops sd) b b' a a' :=
  anyOrder (fun t => by simp [Crdb.ops, Crdb.diffCreateTable]) hb ha (Crdb.parse_creates hs) (Crdb.parse_creates hs') db da t t'

set_option maxRecDepth 8000 in
set_option maxHeartbeats 1000000 in
example : ∃ b b' a a' m, Crdb.parse s%"CREATE TABLE t (a INT); CREATE TABLE u (a INT); CREATE INDEX i ON u (a)" = .ok b ∧
    Crdb.parse s%"CREATE INDEX i ON u (a); CREATE TABLE t (a INT); CREATE TABLE u (a INT)" = .ok b' ∧
    Crdb.parse s%"CREATE TABLE t (a INT, y INT); CREATE TABLE u (a INT); CREATE INDEX i ON u (a, a); CREATE TABLE w (a INT)" = .ok a ∧
    Crdb.parse s%"CREATE TABLE w (a INT); CREATE TABLE u (a INT); CREATE TABLE t (a INT, y INT); CREATE INDEX i ON u (a, a)" = .ok a' ∧
    TextsTell (Crdb.ops fun _ _ => []) b a ∧ TextsTell (Crdb.ops fun _ _ => []) b' a' ∧ b.Perm b' ∧ a.Perm a' ∧ DistinctObjects (Crdb.ops fun _ _ => []) b ∧
    DistinctObjects (Crdb.ops fun _ _ => []) a ∧ Changes (Crdb.ops fun _ _ => []) b a m ∧ m.length = 4 :=
  ⟨_, _, _, _, _, rfl, rfl, rfl, rfl, by unfold TextsTell; decide +kernel, by unfold TextsTell; decide +kernel, by decide +kernel, by decide +kernel, by unfold DistinctObjects; decide +kernel,
    by unfold DistinctObjects; decide +kernel, .inl ⟨rfl, by decide +kernel⟩, rfl⟩

set_option maxRecDepth 8000 in
/-- C71 is violated, CockroachDB: if the new schema defines a table twice, it depends on the order of the two definitions whether there is a difference. -/
theorem C71_cockroachdb_fails : ∃ b a a', Crdb.parse s%"CREATE TABLE t (a INT)" = .ok b ∧
    Crdb.parse s%"CREATE TABLE t (a INT); CREATE TABLE t (a INT, y INT)" = .ok a ∧ Crdb.parse s%"CREATE TABLE t (a INT, y INT); CREATE TABLE t (a INT)" = .ok a' ∧
    a.Perm a' ∧ Changes (Crdb.ops sd) b a [] ∧ ¬ AnyOrder (Crdb.ops sd) b b a a' :=
  ⟨_, _, _, rfl, rfl, rfl, by decide +kernel, .inr ⟨rfl, rfl⟩, not_anyOrder (.inr ⟨rfl, rfl⟩) rfl⟩

/-- C71 (partial), MySQL: as for PostgreSQL. -/
theorem C71_mysql_partial {b b' a a' : List My.MStmt} {s s' : Str} (hs : My.parse s = .ok b) (hs' : My.parse s' = .ok a) (hb : b.Perm b') (ha : a.Perm a')
    (db : DistinctObjects (My.ops sd) b) (da : DistinctObjects (My.ops sd) a) (t : TextsTell (My.ops sd) b a) (t' : TextsTell (My.ops sd) b' a') :
    AnyOrder (My.ops sd) b b' a a' :=
  anyOrder (fun t => by simp [My.ops, My.diffCreateTable]) hb ha (My.parse_creates hs) (My.parse_creates hs') db da t t'

set_option maxRecDepth 8000 in
set_option maxHeartbeats 1000000 in
example : ∃ b b' a a' m, My.parse s%"CREATE TABLE t (a INT); CREATE TABLE u (a INT); CREATE INDEX i ON u (a)" = .ok b ∧
    My.parse s%"CREATE INDEX i ON u (a); CREATE TABLE t (a INT); CREATE TABLE u (a INT)" = .ok b' ∧
    My.parse s%"CREATE TABLE t (a INT, y INT); CREATE TABLE u (a INT); CREATE INDEX i ON u (a, a); CREATE TABLE w (a INT)" = .ok a ∧
    My.parse s%"CREATE TABLE w (a INT); CREATE TABLE u (a INT); CREATE TABLE t (a INT, y INT); CREATE INDEX i ON u (a, a)" = .ok a' ∧
    TextsTell (My.ops fun _ _ => []) b a ∧ TextsTell (My.ops fun _ _ => []) b' a' ∧ b.Perm b' ∧ a.Perm a' ∧ DistinctObjects (My.ops fun _ _ => []) b ∧
    DistinctObjects (My.ops fun _ _ => []) a ∧ Changes (My.ops fun _ _ => []) b a m ∧ m.length = 4 :=
  ⟨_, _, _, _, _, rfl, rfl, rfl, rfl, by unfold TextsTell; decide +kernel, by unfold TextsTell; decide +kernel, by decide +kernel, by decide +kernel, by unfold DistinctObjects; decide +kernel,
    by unfold DistinctObjects; decide +kernel, .inl ⟨rfl, by decide +kernel⟩, rfl⟩

set_option maxRecDepth 8000 in
/-- C71 is violated, MySQL: if the new schema defines a table twice, it depends on the order of the two definitions whether there is a difference. -/
theorem C71_mysql_fails : ∃ b a a', My.parse s%"CREATE TABLE t (a INT)" = .ok b ∧
    My.parse s%"CREATE TABLE t (a INT); CREATE TABLE t (a INT, y INT)" = .ok a ∧ My.parse s%"CREATE TABLE t (a INT, y INT); CREATE TABLE t (a INT)" = .ok a' ∧
    a.Perm a' ∧ Changes (My.ops sd) b a [] ∧ ¬ AnyOrder (My.ops sd) b b a a' :=
  ⟨_, _, _, rfl, rfl, rfl, by decide +kernel, .inr ⟨rfl, rfl⟩, not_anyOrder (.inr ⟨rfl, rfl⟩) rfl⟩

/-- C71 (partial), Spanner: as for PostgreSQL. -/
theorem C71_spanner_partial {b b' a a' : List Sp.SStmt} {s s' : Str} (hs : Sp.parse s = .ok b) (hs' : Sp.parse s' = .ok a) (hb : b.Perm b') (ha : a.Perm a')
    (db : DistinctObjects (Sp.ops sd) b) (da : DistinctObjects (Sp.ops sd) a) (t : TextsTell (Sp.ops sd) b a) (t' : TextsTell (Sp.ops sd) b' a') :
    AnyOrder (Sp.ops sd) b b' a a' :=
  anyOrder (fun t => by simp [Sp.ops, Sp.diffCreateTable]) hb ha (Sp.parse_creates hs) (Sp.parse_creates hs') db da t t'

set_option maxRecDepth 8000 in
set_option maxHeartbeats 1000000 in
example : ∃ b b' a a' m, Sp.parse s%"CREATE TABLE t (a INT64) PRIMARY KEY (a); CREATE TABLE u (a INT64) PRIMARY KEY (a); CREATE INDEX i ON u (a)" = .ok b ∧
    Sp.parse s%"CREATE INDEX i ON u (a); CREATE TABLE t (a INT64) PRIMARY KEY (a); CREATE TABLE u (a INT64) PRIMARY KEY (a)" = .ok b' ∧
    Sp.parse s%"CREATE TABLE t (a INT64, y INT64) PRIMARY KEY (a); CREATE TABLE u (a INT64) PRIMARY KEY (a); CREATE INDEX i ON u (a, a); CREATE TABLE w (a INT64) PRIMARY KEY (a)" = .ok a ∧
    Sp.parse s%"CREATE TABLE w (a INT64) PRIMARY KEY (a); CREATE TABLE u (a INT64) PRIMARY KEY (a); CREATE TABLE t (a INT64, y INT64) PRIMARY KEY (a); CREATE INDEX i ON u (a, a)" = .ok a' ∧
    TextsTell (Sp.ops fun _ _ => []) b a ∧ TextsTell (Sp.ops fun _ _ => []) b' a' ∧ b.Perm b' ∧ a.Perm a' ∧ DistinctObjects (Sp.ops fun _ _ => []) b ∧
    DistinctObjects (Sp.ops fun _ _ => []) a ∧ Changes (Sp.ops fun _ _ => []) b a m ∧ m.length = 4 :=
  ⟨_, _, _, _, _, rfl, rfl, rfl, rfl, by unfold TextsTell; decide +kernel, by unfold TextsTell; decide +kernel, by decide +kernel, by decide +kernel, by unfold DistinctObjects; decide +kernel,
    by unfold DistinctObjects; decide +kernel, .inl ⟨rfl, by decide +kernel⟩, rfl⟩

set_option maxRecDepth 8000 in
/-- C71 is violated, Spanner: if the new schema defines a table twice, it depends on the order of the two definitions whether there is a difference. -/
theorem C71_spanner_fails : ∃ b a a', Sp.parse s%"CREATE TABLE t (a INT64) PRIMARY KEY (a)" = .ok b ∧
    Sp.parse s%"CREATE TABLE t (a INT64) PRIMARY KEY (a); CREATE TABLE t (a INT64, y INT64) PRIMARY KEY (a)" = .ok a ∧ Sp.parse s%"CREATE TABLE t (a INT64, y INT64) PRIMARY KEY (a); CREATE TABLE t (a INT64) PRIMARY KEY (a)" = .ok a' ∧
    a.Perm a' ∧ Changes (Sp.ops sd) b a [] ∧ ¬ AnyOrder (Sp.ops sd) b b a a' :=
  ⟨_, _, _, rfl, rfl, rfl, by decide +kernel, .inr ⟨rfl, rfl⟩, not_anyOrder (.inr ⟨rfl, rfl⟩) rfl⟩

end Ddl.Props
