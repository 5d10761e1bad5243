import Verif.Lemmas.Uncommented
import Verif.Pg.Parser
import Verif.Crdb.Parser
import Verif.My.Parser
import Verif.Sp.Parser

/-! # The shown difference is only a comment: C78

A statement that changes something carries a comment, which shows the old and the new definition as a difference of two texts; the text comes from
`simplediff.Diff(a, b).String()`, a library outside /repo, here the arbitrary function `sd`.  `uncommented` (a statement without its comment) and
`lineComments` (lines beginning with `-- `) are in `Verif/Spec/Uncommented.lean`. -/

namespace Ddl.Props
open Ddl Spec
set_option autoImplicit false

/-- C78 (PostgreSQL): whatever text the library shows for a difference, the migration is the same, or fails in the same way: two versions of the library give
statements that differ at most in their comments, for two schemas and for two tables, with and without the option `NOT VALID`; and a statement is printed as comment lines
followed by the statement without its comment. -/
theorem C78_postgres (sd sd' : Str → Str → Str) :
    (∀ b a : Option (List Pg.PStmt), (diff (Pg.ops sd) b a >>= fun r => .ok (r.map Pg.uncommented)) = (diff (Pg.ops sd') b a >>= fun r => .ok (r.map Pg.uncommented))) ∧
    (∀ (nv : Bool) (b a : Option Pg.CreateTable), (Pg.diffCreateTable sd nv b a >>= fun r => .ok (r.map Pg.uncommented)) =
      (Pg.diffCreateTable sd' nv b a >>= fun r => .ok (r.map Pg.uncommented))) ∧
    ∀ s : Pg.PStmt, ∃ ls : List Str, (∀ l ∈ ls, '\n' ∉ l) ∧ stmtStr (Pg.ops sd) s = lineComments ls ++ stmtStr (Pg.ops sd) (Pg.uncommented s) :=
  ⟨fun b a => (diff_upto (o := Pg.ops sd) (fun t t' => Pg.table_upto sd sd' false (some t) (some t')) b a).eq,
    fun nv b a => (Pg.table_upto sd sd' nv b a).eq, Pg.str_uncommented sd⟩

set_option maxRecDepth 8000 in
example : ∃ b a r r', Pg.parse s%"CREATE TABLE t (a INT NOT NULL, b TEXT, CONSTRAINT k FOREIGN KEY (a) REFERENCES x (y)); CREATE INDEX i ON t (a);" = .ok b ∧
    Pg.parse s%"CREATE TABLE t (a TEXT, c INT, CONSTRAINT k FOREIGN KEY (a, c) REFERENCES x (y, z)); CREATE INDEX i ON t (c);" = .ok a ∧
    diff (Pg.ops fun _ _ => []) (some b) (some a) = .ok r ∧ diff (Pg.ops fun x y => x ++ s%"\n" ++ y) (some b) (some a) = .ok r' ∧
    r.map (stmtStr (Pg.ops fun _ _ => [])) ≠ r'.map (stmtStr (Pg.ops fun _ _ => [])) ∧ 2 < r.length := by
  exact ⟨_, _, _, _, rfl, rfl, rfl, rfl, by decide +kernel, by decide +kernel⟩

/-- C78 (CockroachDB): whatever text the library shows for a difference, the migration is the same, or fails in the same way: two versions of the library give
statements that differ at most in their comments, for two schemas and for two tables, with and without the option `NOT VALID`; and a statement is printed as comment lines
followed by the statement without its comment. -/
theorem C78_cockroachdb (sd sd' : Str → Str → Str) :
    (∀ b a : Option (List Crdb.CStmt), (diff (Crdb.ops sd) b a >>= fun r => .ok (r.map Crdb.uncommented)) = (diff (Crdb.ops sd') b a >>= fun r => .ok (r.map Crdb.uncommented))) ∧
    (∀ (nv : Bool) (b a : Option Crdb.CreateTable), (Crdb.diffCreateTable sd nv b a >>= fun r => .ok (r.map Crdb.uncommented)) =
      (Crdb.diffCreateTable sd' nv b a >>= fun r => .ok (r.map Crdb.uncommented))) ∧
    ∀ s : Crdb.CStmt, ∃ ls : List Str, (∀ l ∈ ls, '\n' ∉ l) ∧ stmtStr (Crdb.ops sd) s = lineComments ls ++ stmtStr (Crdb.ops sd) (Crdb.uncommented s) :=
  ⟨fun b a => (diff_upto (o := Crdb.ops sd) (fun t t' => Crdb.table_upto sd sd' false (some t) (some t')) b a).eq,
    fun nv b a => (Crdb.table_upto sd sd' nv b a).eq, Crdb.str_uncommented sd⟩

set_option maxRecDepth 8000 in
example : ∃ b a r r', Crdb.parse s%"CREATE TABLE t (a INT NOT NULL, b TEXT, UNIQUE INDEX u (a)); CREATE INDEX i ON t (a);" = .ok b ∧
    Crdb.parse s%"CREATE TABLE t (a TEXT, c INT, UNIQUE INDEX u (a, c)); CREATE INDEX i ON t (c);" = .ok a ∧
    diff (Crdb.ops fun _ _ => []) (some b) (some a) = .ok r ∧ diff (Crdb.ops fun x y => x ++ s%"\n" ++ y) (some b) (some a) = .ok r' ∧
    r.map (stmtStr (Crdb.ops fun _ _ => [])) ≠ r'.map (stmtStr (Crdb.ops fun _ _ => [])) ∧ 2 < r.length := by
  exact ⟨_, _, _, _, rfl, rfl, rfl, rfl, by decide +kernel, by decide +kernel⟩

/-- C78 (MySQL): whatever text the library shows for a difference, the migration is the same, or fails in the same way: two versions of the library give
statements that differ at most in their comments, for two schemas and for two tables, with and without the option `NOT VALID`; and a statement is printed as comment lines
followed by the statement without its comment. -/
theorem C78_mysql (sd sd' : Str → Str → Str) :
    (∀ b a : Option (List My.MStmt), (diff (My.ops sd) b a >>= fun r => .ok (r.map My.uncommented)) = (diff (My.ops sd') b a >>= fun r => .ok (r.map My.uncommented))) ∧
    (∀ (nv : Bool) (b a : Option My.CreateTable), (My.diffCreateTable sd nv b a >>= fun r => .ok (r.map My.uncommented)) =
      (My.diffCreateTable sd' nv b a >>= fun r => .ok (r.map My.uncommented))) ∧
    ∀ s : My.MStmt, ∃ ls : List Str, (∀ l ∈ ls, '\n' ∉ l) ∧ stmtStr (My.ops sd) s = lineComments ls ++ stmtStr (My.ops sd) (My.uncommented s) :=
  ⟨fun b a => (diff_upto (o := My.ops sd) (fun t t' => My.table_upto sd sd' false (some t) (some t')) b a).eq,
    fun nv b a => (My.table_upto sd sd' nv b a).eq, My.str_uncommented sd⟩

set_option maxRecDepth 8000 in
example : ∃ b a r r', My.parse s%"CREATE TABLE t (a INT NOT NULL, b TEXT, UNIQUE KEY u (a)) ENGINE=InnoDB;" = .ok b ∧
    My.parse s%"CREATE TABLE t (a TEXT, c INT, UNIQUE KEY u (a, c)) ENGINE=MyISAM;" = .ok a ∧
    diff (My.ops fun _ _ => []) (some b) (some a) = .ok r ∧ diff (My.ops fun x y => x ++ s%"\n" ++ y) (some b) (some a) = .ok r' ∧
    r.map (stmtStr (My.ops fun _ _ => [])) ≠ r'.map (stmtStr (My.ops fun _ _ => [])) ∧ 2 < r.length := by
  exact ⟨_, _, _, _, rfl, rfl, rfl, rfl, by decide +kernel, by decide +kernel⟩

/-- C78 (Spanner): whatever text the library shows for a difference, the migration is the same, or fails in the same way: two versions of the library give
statements that differ at most in their comments, for two schemas and for two tables, with and without the option `NOT VALID`; and a statement is printed as comment lines
followed by the statement without its comment. -/
theorem C78_spanner (sd sd' : Str → Str → Str) :
    (∀ b a : Option (List Sp.SStmt), (diff (Sp.ops sd) b a >>= fun r => .ok (r.map Sp.uncommented)) = (diff (Sp.ops sd') b a >>= fun r => .ok (r.map Sp.uncommented))) ∧
    (∀ (nv : Bool) (b a : Option Sp.CreateTable), (Sp.diffCreateTable sd nv b a >>= fun r => .ok (r.map Sp.uncommented)) =
      (Sp.diffCreateTable sd' nv b a >>= fun r => .ok (r.map Sp.uncommented))) ∧
    ∀ s : Sp.SStmt, ∃ ls : List Str, (∀ l ∈ ls, '\n' ∉ l) ∧ stmtStr (Sp.ops sd) s = lineComments ls ++ stmtStr (Sp.ops sd) (Sp.uncommented s) :=
  ⟨fun b a => (diff_upto (o := Sp.ops sd) (fun t t' => Sp.table_upto sd sd' false (some t) (some t')) b a).eq,
    fun nv b a => (Sp.table_upto sd sd' nv b a).eq, Sp.str_uncommented sd⟩

set_option maxRecDepth 8000 in
example : ∃ b a r r', Sp.parse s%"CREATE TABLE t (a INT64 NOT NULL, b STRING(10), CONSTRAINT k FOREIGN KEY (b) REFERENCES x (y)) PRIMARY KEY (a); CREATE INDEX i ON t (a);" = .ok b ∧
    Sp.parse s%"CREATE TABLE t (a INT64, c INT64, CONSTRAINT k FOREIGN KEY (c) REFERENCES x (y)) PRIMARY KEY (a); CREATE INDEX i ON t (c);" = .ok a ∧
    diff (Sp.ops fun _ _ => []) (some b) (some a) = .ok r ∧ diff (Sp.ops fun x y => x ++ s%"\n" ++ y) (some b) (some a) = .ok r' ∧
    r.map (stmtStr (Sp.ops fun _ _ => [])) ≠ r'.map (stmtStr (Sp.ops fun _ _ => [])) ∧ 2 < r.length := by
  exact ⟨_, _, _, _, rfl, rfl, rfl, rfl, by decide +kernel, by decide +kernel⟩

end Ddl.Props
