import Verif.Lemmas.DecideContent
import Verif.Pg.Parser
import Verif.Crdb.Parser
import Verif.My.Parser
import Verif.Sp.Parser

/-! # Equivalent schemas have no difference: C05

`sd` is `simplediff.Diff(a, b).String()`, arbitrary.  `SameSchema` is in `Verif/Spec/Content.lean`: both schemas define the same
tables and indexes, in whatever order, with columns and constraints in whatever order and identifiers in whatever quoting. -/

set_option autoImplicit false

namespace Ddl.Props
open Ddl Spec
open Ddl.Pg (PStmt)
open Ddl.Crdb (CStmt)
open Ddl.My (MStmt)
open Ddl.Sp (SStmt)

variable {sd : Str → Str → Str}

/-- C05: schemas that define the same objects have no difference (PostgreSQL). -/
theorem C05_postgres {b a : List PStmt} (hd : DistinctObjects (Pg.ops sd) a) (hn : ∀ t, .createTable t ∈ a → Pg.DistinctNames t)
    (h : SameSchema Pg.SameTable Pg.SameIndex b a) : diff (Pg.ops sd) (some b) (some a) = .err .noDifference :=
  Pg.diff_sameSchema hd hn h

/-- C05 for CockroachDB. -/
theorem C05_cockroachdb {b a : List CStmt} (hd : DistinctObjects (Crdb.ops sd) a)
    (hn : ∀ t, .createTable t ∈ a → Crdb.DistinctNames t) (h : SameSchema Crdb.SameTable Crdb.SameIndex b a) :
    diff (Crdb.ops sd) (some b) (some a) = .err .noDifference :=
  Crdb.diff_sameSchema hd hn h

/-- C05 for MySQL. -/
theorem C05_mysql {b a : List MStmt} (hd : DistinctObjects (My.ops sd) a) (hn : ∀ t, .createTable t ∈ a → My.DistinctNames t)
    (h : SameSchema My.SameTable My.SameIndex b a) : diff (My.ops sd) (some b) (some a) = .err .noDifference :=
  My.diff_sameSchema hd hn h

/-- C05 for Spanner. -/
theorem C05_spanner {b a : List SStmt} (hd : DistinctObjects (Sp.ops sd) a) (hn : ∀ t, .createTable t ∈ a → Sp.DistinctNames t)
    (h : SameSchema Sp.SameTable Sp.SameIndex b a) : diff (Sp.ops sd) (some b) (some a) = .err .noDifference :=
  Sp.diff_sameSchema hd hn h

/-- The statements of a text, for examples. -/
private def parsed {α : Type} : Res (List α) → List α
  | .ok l => l
  | _ => []

private def before : List PStmt := parsed (Pg.parse
  s%"CREATE TABLE t (a INT NOT NULL, b TEXT DEFAULT 'x', UNIQUE (b), PRIMARY KEY (a)); CREATE TABLE u (x INT); CREATE INDEX i ON t (a);")
private def after : List PStmt := parsed (Pg.parse
  s%"CREATE INDEX \"i\" ON \"t\" (\"a\"); CREATE TABLE u (\"x\" integer); CREATE TABLE \"t\" (b text DEFAULT 'x', PRIMARY KEY (a), UNIQUE (\"b\"), \"a\" INTEGER NOT NULL);")

/-- Reordered, requoted and otherwise spelled, the schemas meet the hypotheses of `C05_postgres`. -/
example : before ≠ after ∧ before.length = 3 ∧ DistinctObjects (Pg.ops (fun _ _ => [])) after ∧
    (∀ t, .createTable t ∈ after → Pg.DistinctNames t) ∧ SameSchema Pg.SameTable Pg.SameIndex before after := by
  decide +kernel

private def crBefore : List CStmt := parsed (Crdb.parse s%"CREATE TABLE t (a INT NOT NULL, b TEXT, INDEX i (a, b DESC)); CREATE TABLE u (x INT);")
private def crAfter : List CStmt := parsed (Crdb.parse s%"CREATE TABLE u (\"x\" int); CREATE TABLE t (b TEXT, INDEX \"i\" (a ASC, \"b\" DESC), a INT4 NOT NULL);")

example : crBefore ≠ crAfter ∧ crBefore.length = 2 ∧ DistinctObjects (Crdb.ops (fun _ _ => [])) crAfter ∧
    (∀ t, .createTable t ∈ crAfter → Crdb.DistinctNames t) ∧ SameSchema Crdb.SameTable Crdb.SameIndex crBefore crAfter := by
  decide +kernel

private def myBefore : List MStmt := parsed (My.parse s%"CREATE TABLE t (a INT NOT NULL, b TEXT, INDEX i (a, b DESC)) ENGINE=x COLLATE=y; CREATE TABLE u (x INT);")
private def myAfter : List MStmt := parsed (My.parse s%"CREATE TABLE u (`x` int); CREATE TABLE t (b TEXT, INDEX `i` (a ASC, `b` DESC), a INTEGER NOT NULL) COLLATE=y ENGINE='x';")

example : myBefore ≠ myAfter ∧ myBefore.length = 2 ∧ DistinctObjects (My.ops (fun _ _ => [])) myAfter ∧
    (∀ t, .createTable t ∈ myAfter → My.DistinctNames t) ∧ SameSchema My.SameTable My.SameIndex myBefore myAfter := by
  decide +kernel

private def spBefore : List SStmt := parsed (Sp.parse s%"CREATE TABLE t (a INT64 NOT NULL, b BOOL) PRIMARY KEY (a); CREATE INDEX i ON t (b);")
private def spAfter : List SStmt := parsed (Sp.parse s%"CREATE INDEX `i` ON t (`b`); CREATE TABLE t (`b` bool, a int64 NOT NULL) PRIMARY KEY (`a`);")

example : spBefore ≠ spAfter ∧ spBefore.length = 2 ∧ DistinctObjects (Sp.ops (fun _ _ => [])) spAfter ∧
    (∀ t, .createTable t ∈ spAfter → Sp.DistinctNames t) ∧ SameSchema Sp.SameTable Sp.SameIndex spBefore spAfter := by
  decide +kernel

end Ddl.Props
