import Verif.Lemmas.PgNoDiff
import Verif.Lemmas.DecideTame

/-! # No difference means the same schema: C04

`ReadFrom`, `TameSchema` and `SameIndexButMethod` are in `Verif/Spec/Tame.lean`, `SameSchema` and `SameTable` in
`Verif/Spec/Content.lean`.  `sd` is `simplediff.Diff(a, b).String()`, arbitrary. -/

namespace Ddl.Props
open Ddl Spec
open Ddl.Pg (PStmt)
set_option autoImplicit false

/-- C04 (partial): when there is no difference, both texts define the same tables and the same indexes up to the index method.
Missing: the index method, and schemas with quoted identifiers that contain separators; see the theorems `C04_…_fails`. -/
theorem C04_no_difference_partial (sd : Str → Str → Str) {s s' : Str} {b a : List PStmt} (hb : Pg.ReadFrom s b) (ha : Pg.ReadFrom s' a)
    (tb : Pg.TameSchema b) (ta : Pg.TameSchema a) (hd : DistinctObjects (Pg.ops sd) a)
    (hn : ∀ t, .createTable t ∈ a → Pg.DistinctNames t) (h : diff (Pg.ops sd) (some b) (some a) = .err .noDifference) :
    SameSchema Pg.SameTable Pg.SameIndexButMethod b a :=
  Pg.noDiff_same (Pg.stmtOk_of_readFrom hb) (Pg.stmtOk_of_readFrom ha) tb ta hd hn h

set_option maxRecDepth 4000 in
example : ∃ s s' b a, Pg.ReadFrom s b ∧ Pg.ReadFrom s' a ∧ Pg.TameSchema b ∧ Pg.TameSchema a ∧
    DistinctObjects (Pg.ops fun _ _ => []) a ∧ (∀ t, .createTable t ∈ a → Pg.DistinctNames t) ∧
    diff (Pg.ops fun _ _ => []) (some b) (some a) = .err .noDifference ∧ b ≠ a ∧ b.length = 3 := by
  refine ⟨s%"CREATE TABLE s.t (c NUMERIC(3,2) CHECK (c >= 0.5), a INT NOT NULL REFERENCES u (x) ON DELETE CASCADE,
      b VARCHAR(10) DEFAULT 'x y' || 'z' UNIQUE, PRIMARY KEY (a));
    CREATE TABLE u (x INT); CREATE UNIQUE INDEX i ON s.t USING btree (a, b)",
    s%"CREATE UNIQUE INDEX \"i\" ON \"s.t\" (\"a\", b); CREATE TABLE u (\"x\" integer);
    CREATE TABLE \"s.t\" (\"b\" varchar(10) DEFAULT 'x y' || 'z', PRIMARY KEY (a), UNIQUE (b), c NUMERIC(3, 2) CHECK (c >= 0.5),
      a INTEGER NOT NULL REFERENCES \"u\" (x) ON DELETE CASCADE)",
    _, _, ⟨⟨_, writes_of_lex .postgres _ (by decide +kernel), by decide +kernel⟩, by decide +kernel, rfl⟩,
    ⟨⟨_, writes_of_lex .postgres _ (by decide +kernel), by decide +kernel⟩, by decide +kernel, rfl⟩, by decide +kernel, by decide +kernel,
    by decide +kernel, by decide +kernel, by decide +kernel, by decide +kernel, by decide +kernel⟩

/-- Both texts are read, their definitions have distinct names, there is no difference, and yet they do not define the same. -/
abbrev Missed (sd : Str → Str → Str) (s s' : Str) : Prop :=
  ∃ b a, Pg.parse s = .ok b ∧ Pg.parse s' = .ok a ∧ DistinctObjects (Pg.ops sd) a ∧ (∀ t, .createTable t ∈ a → Pg.DistinctNames t) ∧
    diff (Pg.ops sd) (some b) (some a) = .err .noDifference ∧ ¬ SameSchema Pg.SameTable Pg.SameIndex b a

/-- C04 is violated: another index method is no difference. -/
theorem C04_method_fails (sd : Str → Str → Str) :
    Missed sd s%"CREATE INDEX i ON t USING btree (a)" s%"CREATE INDEX i ON t USING gin (a)" :=
  ⟨_, _, rfl, rfl, show DistinctObjects (Pg.ops fun _ _ => []) _ by decide +kernel, by decide +kernel, rfl, by decide +kernel⟩

/-- C04 is violated: a quoted identifier is confused with the words it contains. -/
theorem C04_quoted_fails (sd : Str → Str → Str) :
    Missed sd s%"CREATE TABLE t (a INT CHECK (\"x > 0 AND y\" > 0), b INT)" s%"CREATE TABLE t (a INT CHECK (x > 0 AND y > 0), b INT)" :=
  ⟨_, _, rfl, rfl, show DistinctObjects (Pg.ops fun _ _ => []) _ by decide +kernel, by decide +kernel, rfl, by decide +kernel⟩

/-- C04 is violated: a quoted identifier with a comma is confused with two columns. -/
theorem C04_column_list_fails (sd : Str → Str → Str) :
    Missed sd s%"CREATE TABLE t (a INT, b INT, \"a, b\" INT, CONSTRAINT k PRIMARY KEY (a, b))"
      s%"CREATE TABLE t (a INT, b INT, \"a, b\" INT, CONSTRAINT k PRIMARY KEY (\"a, b\"))" :=
  ⟨_, _, rfl, rfl, show DistinctObjects (Pg.ops fun _ _ => []) _ by decide +kernel, by decide +kernel, rfl, by decide +kernel⟩

/-- C04 is violated: the quotes of an identifier with capital letters are no difference, although PostgreSQL reads an identifier
without quotes in lower case. -/
theorem C04_case_fails (sd : Str → Str → Str) : ∃ t t', Pg.parse s%"CREATE TABLE t (\"Id\" INT)" = .ok [.createTable t] ∧
    Pg.parse s%"CREATE TABLE t (Id INT)" = .ok [.createTable t'] ∧
    diff (Pg.ops sd) (some [.createTable t]) (some [.createTable t']) = .err .noDifference ∧
    t.columns.map (·.name.meaning) = [s%"Id"] ∧ t'.columns.map (·.name.meaning) = [s%"id"] :=
  ⟨_, _, rfl, rfl, rfl, by decide +kernel, by decide +kernel⟩

end Ddl.Props
