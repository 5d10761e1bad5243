import Verif.Lemmas.Parts
import Verif.Lemmas.ParseCreates

/-! # Independent parts of a schema are migrated independently: C69

`Mixed`, `Changes`, `InParts`, `PartByPart` and `TextsTell` are in `Verif/Spec/Parts.lean`.  `sd` is `simplediff.Diff(a, b).String()`, arbitrary. -/

namespace Ddl.Props
open Ddl Spec
set_option autoImplicit false

variable (sd : Str → Str → Str)

/-- C69 (partial), PostgreSQL: if two schemas are put together from independent parts, so is the migration.  Missing: schemas in which an object is
defined twice, see `C69_postgres_fails`, and different schemas or parts that are printed alike. -/
theorem C69_postgres_partial {b₁ b₂ b a₁ a₂ a : List Pg.PStmt} {s s' : Str} (hb : Pg.parse s = .ok b) (ha : Pg.parse s' = .ok a)
    (h : InParts (Pg.ops sd) b₁ b₂ b a₁ a₂ a) (t₁ : TextsTell (Pg.ops sd) b₁ a₁) (t₂ : TextsTell (Pg.ops sd) b₂ a₂) (t : TextsTell (Pg.ops sd) b a) :
    PartByPart (Pg.ops sd) b₁ b₂ b a₁ a₂ a :=
  partByPart (fun t => by simp [Pg.ops, Pg.diffCreateTable]) h (Pg.parse_creates hb) (Pg.parse_creates ha) t₁ t₂ t

/-- C69 (partial), PostgreSQL: a part `x` that stays as it is does not change the migration of the rest.  Missing: as above. -/
theorem C69_postgres_unchanged_partial {b x b' a a' : List Pg.PStmt} {s s' : Str} (hb : Pg.parse s = .ok b') (ha : Pg.parse s' = .ok a')
    (h : InParts (Pg.ops sd) b x b' a x a') (t₁ : TextsTell (Pg.ops sd) b a) (t : TextsTell (Pg.ops sd) b' a') : Unaffected (Pg.ops sd) b b' a a' :=
  unaffected_of (C69_postgres_partial sd hb ha h t₁ (fun _ => rfl) t)

set_option maxRecDepth 8000 in
set_option maxHeartbeats 1000000 in
example : ∃ b₁ b₂ b a₁ a₂ a m₁ m₂, Pg.parse s%"CREATE TABLE t (a INT)" = .ok b₁ ∧ Pg.parse s%"CREATE TABLE u (a INT); CREATE INDEX i ON u (a)" = .ok b₂ ∧
    Pg.parse s%"CREATE TABLE u (a INT); CREATE TABLE t (a INT); CREATE INDEX i ON u (a)" = .ok b ∧ Pg.parse s%"CREATE TABLE t (a INT, y INT)" = .ok a₁ ∧
    Pg.parse s%"CREATE TABLE u (a INT); CREATE INDEX i ON u (a, a); CREATE TABLE w (a INT)" = .ok a₂ ∧
    Pg.parse s%"CREATE TABLE u (a INT); CREATE INDEX i ON u (a, a); CREATE TABLE t (a INT, y INT); CREATE TABLE w (a INT)" = .ok a ∧
    TextsTell (Pg.ops fun _ _ => []) b₁ a₁ ∧ TextsTell (Pg.ops fun _ _ => []) b₂ a₂ ∧ TextsTell (Pg.ops fun _ _ => []) b a ∧ InParts (Pg.ops fun _ _ => []) b₁ b₂ b a₁ a₂ a ∧
    Changes (Pg.ops fun _ _ => []) b₁ a₁ m₁ ∧ Changes (Pg.ops fun _ _ => []) b₂ a₂ m₂ ∧ m₁.length = 1 ∧ m₂.length = 3 :=
  ⟨_, _, _, _, _, _, _, _, rfl, rfl, rfl, rfl, rfl, rfl, by unfold TextsTell; decide +kernel, by unfold TextsTell; decide +kernel, by unfold TextsTell; decide +kernel,
    ⟨.right _ _ _ _ (.left _ _ _ _ (.right _ _ _ _ .nil)), .right _ _ _ _ (.right _ _ _ _ (.left _ _ _ _ (.right _ _ _ _ .nil))),
      independent_of (by decide +kernel), by unfold DistinctObjects; decide +kernel⟩,
    .inl ⟨rfl, by decide +kernel⟩, .inl ⟨rfl, by decide +kernel⟩, rfl, rfl⟩

set_option maxRecDepth 8000 in
set_option maxHeartbeats 1000000 in
/-- C69 is violated, PostgreSQL: a table is defined twice, and stays as it is.  Alone, it is not changed; beside another table that changes, its second definition is compared with its first, and there is one more statement. -/
theorem C69_postgres_fails : ∃ b₁ b₂ b a₂ a, Pg.parse s%"CREATE TABLE t (a INT); CREATE TABLE t (a INT, y INT)" = .ok b₁ ∧ Pg.parse s%"CREATE TABLE u (a INT)" = .ok b₂ ∧
    Pg.parse s%"CREATE TABLE t (a INT); CREATE TABLE t (a INT, y INT); CREATE TABLE u (a INT)" = .ok b ∧ Pg.parse s%"CREATE TABLE u (a INT, y INT)" = .ok a₂ ∧
    Pg.parse s%"CREATE TABLE t (a INT); CREATE TABLE t (a INT, y INT); CREATE TABLE u (a INT, y INT)" = .ok a ∧
    Mixed b₁ b₂ b ∧ Mixed b₁ a₂ a ∧ Independent (Pg.ops sd) (b₁ ++ b₁) (b₂ ++ a₂) ∧ Changes (Pg.ops sd) b₁ b₁ [] ∧ ¬ PartByPart (Pg.ops sd) b₁ b₂ b b₁ a₂ a :=
  ⟨_, _, _, _, _, rfl, rfl, rfl, rfl, rfl, .left _ _ _ _ (.left _ _ _ _ (.right _ _ _ _ .nil)), .left _ _ _ _ (.left _ _ _ _ (.right _ _ _ _ .nil)),
    independent_of (o := Pg.ops sd) (show ∀ x ∈ List.filterMap (Spec.creates (Pg.ops fun _ _ => [])) _, x ∉ List.filterMap (Spec.creates (Pg.ops fun _ _ => [])) _ by decide +kernel), .inr ⟨rfl, rfl⟩,
    not_partByPart (.inr ⟨rfl, rfl⟩) (.inl ⟨rfl, List.ne_nil_of_length_eq_add_one (n := 0) rfl⟩) rfl (k := 1) rfl rfl⟩

/-- C69 (partial), CockroachDB: as for PostgreSQL. -/
theorem C69_cockroachdb_partial {b₁ b₂ b a₁ a₂ a : List Crdb.CStmt} {s s' : Str} (hb : Crdb.parse s = .ok b) (ha : Crdb.parse s' = .ok a)
    (h : InParts (Crdb.ops sd) b₁ b₂ b a₁ a₂ a) (t₁ : TextsTell (Crdb.ops sd) b₁ a₁) (t₂ : TextsTell (Crdb.ops sd) b₂ a₂) (t : TextsTell (Crdb.ops sd) b a) :
    PartByPart (Crdb.ops sd) b₁ b₂ b a₁ a₂ a :=
  partByPart (fun t => by simp [Crdb.ops, Crdb.diffCreateTable]) h (Crdb.parse_creates hb) (Crdb.parse_creates ha) t₁ t₂ t

/-- C69 (partial), CockroachDB: a part `x` that stays as it is does not change the migration of the rest. -/
theorem C69_cockroachdb_unchanged_partial {b x b' a a' : List Crdb.CStmt} {s s' : Str} (hb : Crdb.parse s = .ok b') (ha : Crdb.parse s' = .ok a')
    (h : InParts (Crdb.ops sd) b x b' a x a') (t₁ : TextsTell (Crdb.ops sd) b a) (t : TextsTell (Crdb.ops sd) b' a') : Unaffected (Crdb.ops sd) b b' a a' :=
  unaffected_of (C69_cockroachdb_partial sd hb ha h t₁ (fun _ => rfl) t)

set_option maxRecDepth 8000 in
set_option maxHeartbeats 1000000 in
example : ∃ b₁ b₂ b a₁ a₂ a m₁ m₂, Crdb.parse s%"CREATE TABLE t (a INT)" = .ok b₁ ∧ Crdb.parse s%"CREATE TABLE u (a INT); CREATE INDEX i ON u (a)" = .ok b₂ ∧
    Crdb.parse s%"CREATE TABLE u (a INT); CREATE TABLE t (a INT); CREATE INDEX i ON u (a)" = .ok b ∧ Crdb.parse s%"CREATE TABLE t (a INT, y INT)" = .ok a₁ ∧
    Crdb.parse s%"CREATE TABLE u (a INT); CREATE INDEX i ON u (a, a); CREATE TABLE w (a INT)" = .ok a₂ ∧
    Crdb.parse s%"CREATE TABLE u (a INT); CREATE INDEX i ON u (a, a); CREATE TABLE t (a INT, y INT); CREATE TABLE w (a INT)" = .ok a ∧
    TextsTell (Crdb.ops fun _ _ => []) b₁ a₁ ∧ TextsTell (Crdb.ops fun _ _ => []) b₂ a₂ ∧ TextsTell (Crdb.ops fun _ _ => []) b a ∧ InParts (Crdb.ops fun _ _ => []) b₁ b₂ b a₁ a₂ a ∧
    Changes (Crdb.ops fun _ _ => []) b₁ a₁ m₁ ∧ Changes (Crdb.ops fun _ _ => []) b₂ a₂ m₂ ∧ m₁.length = 1 ∧ m₂.length = 3 :=
  ⟨_, _, _, _, _, _, _, _, rfl, rfl, rfl, rfl, rfl, rfl, by unfold TextsTell; decide +kernel, by unfold TextsTell; decide +kernel, by unfold TextsTell; decide +kernel,
    ⟨.right _ _ _ _ (.left _ _ _ _ (.right _ _ _ _ .nil)), .right _ _ _ _ (.right _ _ _ _ (.left _ _ _ _ (.right _ _ _ _ .nil))),
      independent_of (by decide +kernel), by unfold DistinctObjects; decide +kernel⟩,
    .inl ⟨rfl, by decide +kernel⟩, .inl ⟨rfl, by decide +kernel⟩, rfl, rfl⟩

set_option maxRecDepth 8000 in
set_option maxHeartbeats 1000000 in
/-- C69 is violated, CockroachDB: a table is defined twice, and stays as it is.  Alone, it is not changed; beside another table that changes, its second definition is compared with its first, and there is one more statement. -/
theorem C69_cockroachdb_fails : ∃ b₁ b₂ b a₂ a, Crdb.parse s%"CREATE TABLE t (a INT); CREATE TABLE t (a INT, y INT)" = .ok b₁ ∧ Crdb.parse s%"CREATE TABLE u (a INT)" = .ok b₂ ∧
    Crdb.parse s%"CREATE TABLE t (a INT); CREATE TABLE t (a INT, y INT); CREATE TABLE u (a INT)" = .ok b ∧ Crdb.parse s%"CREATE TABLE u (a INT, y INT)" = .ok a₂ ∧
    Crdb.parse s%"CREATE TABLE t (a INT); CREATE TABLE t (a INT, y INT); CREATE TABLE u (a INT, y INT)" = .ok a ∧
    Mixed b₁ b₂ b ∧ Mixed b₁ a₂ a ∧ Independent (Crdb.ops sd) (b₁ ++ b₁) (b₂ ++ a₂) ∧ Changes (Crdb.ops sd) b₁ b₁ [] ∧ ¬ PartByPart (Crdb.ops sd) b₁ b₂ b b₁ a₂ a :=
  ⟨_, _, _, _, _, rfl, rfl, rfl, rfl, rfl, .left _ _ _ _ (.left _ _ _ _ (.right _ _ _ _ .nil)), .left _ _ _ _ (.left _ _ _ _ (.right _ _ _ _ .nil)),
    independent_of (o := Crdb.ops sd) (show ∀ x ∈ List.filterMap (Spec.creates (Crdb.ops fun _ _ => [])) _, x ∉ List.filterMap (Spec.creates (Crdb.ops fun _ _ => [])) _ by decide +kernel), .inr ⟨rfl, rfl⟩,
    not_partByPart (.inr ⟨rfl, rfl⟩) (.inl ⟨rfl, List.ne_nil_of_length_eq_add_one (n := 0) rfl⟩) rfl (k := 1) rfl rfl⟩

/-- C69 (partial), MySQL: as for PostgreSQL. -/
theorem C69_mysql_partial {b₁ b₂ b a₁ a₂ a : List My.MStmt} {s s' : Str} (hb : My.parse s = .ok b) (ha : My.parse s' = .ok a)
    (h : InParts (My.ops sd) b₁ b₂ b a₁ a₂ a) (t₁ : TextsTell (My.ops sd) b₁ a₁) (t₂ : TextsTell (My.ops sd) b₂ a₂) (t : TextsTell (My.ops sd) b a) :
    PartByPart (My.ops sd) b₁ b₂ b a₁ a₂ a :=
  partByPart (fun t => by simp [My.ops, My.diffCreateTable]) h (My.parse_creates hb) (My.parse_creates ha) t₁ t₂ t

/-- C69 (partial), MySQL: a part `x` that stays as it is does not change the migration of the rest. -/
theorem C69_mysql_unchanged_partial {b x b' a a' : List My.MStmt} {s s' : Str} (hb : My.parse s = .ok b') (ha : My.parse s' = .ok a')
    (h : InParts (My.ops sd) b x b' a x a') (t₁ : TextsTell (My.ops sd) b a) (t : TextsTell (My.ops sd) b' a') : Unaffected (My.ops sd) b b' a a' :=
  unaffected_of (C69_mysql_partial sd hb ha h t₁ (fun _ => rfl) t)

set_option maxRecDepth 8000 in
set_option maxHeartbeats 1000000 in
example : ∃ b₁ b₂ b a₁ a₂ a m₁ m₂, My.parse s%"CREATE TABLE t (a INT)" = .ok b₁ ∧ My.parse s%"CREATE TABLE u (a INT); CREATE INDEX i ON u (a)" = .ok b₂ ∧
    My.parse s%"CREATE TABLE u (a INT); CREATE TABLE t (a INT); CREATE INDEX i ON u (a)" = .ok b ∧ My.parse s%"CREATE TABLE t (a INT, y INT)" = .ok a₁ ∧
    My.parse s%"CREATE TABLE u (a INT); CREATE INDEX i ON u (a, a); CREATE TABLE w (a INT)" = .ok a₂ ∧
    My.parse s%"CREATE TABLE u (a INT); CREATE INDEX i ON u (a, a); CREATE TABLE t (a INT, y INT); CREATE TABLE w (a INT)" = .ok a ∧
    TextsTell (My.ops fun _ _ => []) b₁ a₁ ∧ TextsTell (My.ops fun _ _ => []) b₂ a₂ ∧ TextsTell (My.ops fun _ _ => []) b a ∧ InParts (My.ops fun _ _ => []) b₁ b₂ b a₁ a₂ a ∧
    Changes (My.ops fun _ _ => []) b₁ a₁ m₁ ∧ Changes (My.ops fun _ _ => []) b₂ a₂ m₂ ∧ m₁.length = 1 ∧ m₂.length = 3 :=
  ⟨_, _, _, _, _, _, _, _, rfl, rfl, rfl, rfl, rfl, rfl, by unfold TextsTell; decide +kernel, by unfold TextsTell; decide +kernel, by unfold TextsTell; decide +kernel,
    ⟨.right _ _ _ _ (.left _ _ _ _ (.right _ _ _ _ .nil)), .right _ _ _ _ (.right _ _ _ _ (.left _ _ _ _ (.right _ _ _ _ .nil))),
      independent_of (by decide +kernel), by unfold DistinctObjects; decide +kernel⟩,
    .inl ⟨rfl, by decide +kernel⟩, .inl ⟨rfl, by decide +kernel⟩, rfl, rfl⟩

set_option maxRecDepth 8000 in
set_option maxHeartbeats 1000000 in
/-- C69 is violated, MySQL: a table is defined twice, and stays as it is.  Alone, it is not changed; beside another table that changes, its second definition is compared with its first, and there is one more statement. -/
theorem C69_mysql_fails : ∃ b₁ b₂ b a₂ a, My.parse s%"CREATE TABLE t (a INT); CREATE TABLE t (a INT, y INT)" = .ok b₁ ∧ My.parse s%"CREATE TABLE u (a INT)" = .ok b₂ ∧
    My.parse s%"CREATE TABLE t (a INT); CREATE TABLE t (a INT, y INT); CREATE TABLE u (a INT)" = .ok b ∧ My.parse s%"CREATE TABLE u (a INT, y INT)" = .ok a₂ ∧
    My.parse s%"CREATE TABLE t (a INT); CREATE TABLE t (a INT, y INT); CREATE TABLE u (a INT, y INT)" = .ok a ∧
    Mixed b₁ b₂ b ∧ Mixed b₁ a₂ a ∧ Independent (My.ops sd) (b₁ ++ b₁) (b₂ ++ a₂) ∧ Changes (My.ops sd) b₁ b₁ [] ∧ ¬ PartByPart (My.ops sd) b₁ b₂ b b₁ a₂ a :=
  ⟨_, _, _, _, _, rfl, rfl, rfl, rfl, rfl, .left _ _ _ _ (.left _ _ _ _ (.right _ _ _ _ .nil)), .left _ _ _ _ (.left _ _ _ _ (.right _ _ _ _ .nil)),
    independent_of (o := My.ops sd) (show ∀ x ∈ List.filterMap (Spec.creates (My.ops fun _ _ => [])) _, x ∉ List.filterMap (Spec.creates (My.ops fun _ _ => [])) _ by decide +kernel), .inr ⟨rfl, rfl⟩,
    not_partByPart (.inr ⟨rfl, rfl⟩) (.inl ⟨rfl, List.ne_nil_of_length_eq_add_one (n := 0) rfl⟩) rfl (k := 1) rfl rfl⟩

/-- C69 (partial), Spanner: as for PostgreSQL. -/
theorem C69_spanner_partial {b₁ b₂ b a₁ a₂ a : List Sp.SStmt} {s s' : Str} (hb : Sp.parse s = .ok b) (ha : Sp.parse s' = .ok a)
    (h : InParts (Sp.ops sd) b₁ b₂ b a₁ a₂ a) (t₁ : TextsTell (Sp.ops sd) b₁ a₁) (t₂ : TextsTell (Sp.ops sd) b₂ a₂) (t : TextsTell (Sp.ops sd) b a) :
    PartByPart (Sp.ops sd) b₁ b₂ b a₁ a₂ a :=
  partByPart (fun t => by simp [Sp.ops, Sp.diffCreateTable]) h (Sp.parse_creates hb) (Sp.parse_creates ha) t₁ t₂ t

/-- C69 (partial), Spanner: a part `x` that stays as it is does not change the migration of the rest. -/
theorem C69_spanner_unchanged_partial {b x b' a a' : List Sp.SStmt} {s s' : Str} (hb : Sp.parse s = .ok b') (ha : Sp.parse s' = .ok a')
    (h : InParts (Sp.ops sd) b x b' a x a') (t₁ : TextsTell (Sp.ops sd) b a) (t : TextsTell (Sp.ops sd) b' a') : Unaffected (Sp.ops sd) b b' a a' :=
  unaffected_of (C69_spanner_partial sd hb ha h t₁ (fun _ => rfl) t)

set_option maxRecDepth 8000 in
set_option maxHeartbeats 1000000 in
example : ∃ b₁ b₂ b a₁ a₂ a m₁ m₂, Sp.parse s%"CREATE TABLE t (a INT64) PRIMARY KEY (a)" = .ok b₁ ∧ Sp.parse s%"CREATE TABLE u (a INT64) PRIMARY KEY (a); CREATE INDEX i ON u (a)" = .ok b₂ ∧
    Sp.parse s%"CREATE TABLE u (a INT64) PRIMARY KEY (a); CREATE TABLE t (a INT64) PRIMARY KEY (a); CREATE INDEX i ON u (a)" = .ok b ∧ Sp.parse s%"CREATE TABLE t (a INT64, y INT64) PRIMARY KEY (a)" = .ok a₁ ∧
    Sp.parse s%"CREATE TABLE u (a INT64) PRIMARY KEY (a); CREATE INDEX i ON u (a, a); CREATE TABLE w (a INT64) PRIMARY KEY (a)" = .ok a₂ ∧
    Sp.parse s%"CREATE TABLE u (a INT64) PRIMARY KEY (a); CREATE INDEX i ON u (a, a); CREATE TABLE t (a INT64, y INT64) PRIMARY KEY (a); CREATE TABLE w (a INT64) PRIMARY KEY (a)" = .ok a ∧
    TextsTell (Sp.ops fun _ _ => []) b₁ a₁ ∧ TextsTell (Sp.ops fun _ _ => []) b₂ a₂ ∧ TextsTell (Sp.ops fun _ _ => []) b a ∧ InParts (Sp.ops fun _ _ => []) b₁ b₂ b a₁ a₂ a ∧
    Changes (Sp.ops fun _ _ => []) b₁ a₁ m₁ ∧ Changes (Sp.ops fun _ _ => []) b₂ a₂ m₂ ∧ m₁.length = 1 ∧ m₂.length = 3 :=
  ⟨_, _, _, _, _, _, _, _, rfl, rfl, rfl, rfl, rfl, rfl, by unfold TextsTell; decide +kernel, by unfold TextsTell; decide +kernel, by unfold TextsTell; decide +kernel,
    ⟨.right _ _ _ _ (.left _ _ _ _ (.right _ _ _ _ .nil)), .right _ _ _ _ (.right _ _ _ _ (.left _ _ _ _ (.right _ _ _ _ .nil))),
      independent_of (by decide +kernel), by unfold DistinctObjects; decide +kernel⟩,
    .inl ⟨rfl, by decide +kernel⟩, .inl ⟨rfl, by decide +kernel⟩, rfl, rfl⟩

set_option maxRecDepth 8000 in
set_option maxHeartbeats 1000000 in
/-- C69 is violated, Spanner: a table is defined twice, and stays as it is.  Alone, it is not changed; beside another table that changes, its second definition is compared with its first, and there is one more statement. -/
theorem C69_spanner_fails : ∃ b₁ b₂ b a₂ a, Sp.parse s%"CREATE TABLE t (a INT64) PRIMARY KEY (a); CREATE TABLE t (a INT64, y INT64) PRIMARY KEY (a)" = .ok b₁ ∧ Sp.parse s%"CREATE TABLE u (a INT64) PRIMARY KEY (a)" = .ok b₂ ∧
    Sp.parse s%"CREATE TABLE t (a INT64) PRIMARY KEY (a); CREATE TABLE t (a INT64, y INT64) PRIMARY KEY (a); CREATE TABLE u (a INT64) PRIMARY KEY (a)" = .ok b ∧ Sp.parse s%"CREATE TABLE u (a INT64, y INT64) PRIMARY KEY (a)" = .ok a₂ ∧
    Sp.parse s%"CREATE TABLE t (a INT64) PRIMARY KEY (a); CREATE TABLE t (a INT64, y INT64) PRIMARY KEY (a); CREATE TABLE u (a INT64, y INT64) PRIMARY KEY (a)" = .ok a ∧
    Mixed b₁ b₂ b ∧ Mixed b₁ a₂ a ∧ Independent (Sp.ops sd) (b₁ ++ b₁) (b₂ ++ a₂) ∧ Changes (Sp.ops sd) b₁ b₁ [] ∧ ¬ PartByPart (Sp.ops sd) b₁ b₂ b b₁ a₂ a :=
  ⟨_, _, _, _, _, rfl, rfl, rfl, rfl, rfl, .left _ _ _ _ (.left _ _ _ _ (.right _ _ _ _ .nil)), .left _ _ _ _ (.left _ _ _ _ (.right _ _ _ _ .nil)),
    independent_of (o := Sp.ops sd) (show ∀ x ∈ List.filterMap (Spec.creates (Sp.ops fun _ _ => [])) _, x ∉ List.filterMap (Spec.creates (Sp.ops fun _ _ => [])) _ by decide +kernel), .inr ⟨rfl, rfl⟩,
    not_partByPart (.inr ⟨rfl, rfl⟩) (.inl ⟨rfl, List.ne_nil_of_length_eq_add_one (n := 0) rfl⟩) rfl (k := 1) rfl rfl⟩

end Ddl.Props
