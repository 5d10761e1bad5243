import Verif.Lemmas.ApplyGo
import Verif.Lemmas.DecideGenerate
import Verif.Props.ApplyDb

/-!
# `apply` brings the database to the annotated schema: C72
-/

namespace Ddl.Props
open Ddl Spec Cmd Ddl.Apply Gen
set_option autoImplicit false

/-! ## Samples -/

/-- Annotated Go sources: a table with comments, a key and a column of the type `t`, and an index. -/
def goSources (t : Str) : DDL :=
  newDDL [
    .table
      { sourceFile := s%"a.go", sourceLine := 12, comments := [s%"-- users; DROP TABLE x", []]
        createTable := s%"CREATE TABLE u"
        columns := [⟨[s%"the id, 'unclosed"], s%"x", t ++ s%" NOT NULL"⟩, ⟨[], s%"y", t⟩, ⟨[s%"new"], s%"w", t⟩]
        constraints := [], options := [], primaryKey := [s%"x"] },
    .index { sourceFile := s%"a.go", sourceLine := 20, comments := [s%"by y"], createIndex := s%"CREATE INDEX i ON u (y)" }]

/-- The sources are in the directory `d`; the database `dsn` shows the schema `s`. -/
def goSite (s t : Str) (db : Hist → Str → Option Str) : Site :=
  { sampleSite [] [] db with
    isFile := fun _ => false, exists? := (· == s%"d"), parseGo := fun _ => .ok (goSources t), short := fun _ => s%"a.go"
    showTables := fun _ _ => .ok s, closeDb := fun _ => none, withoutCommentLines := keepLines }

/-- What is to be checked about the sources. -/
theorem goSite_annotated (s t : Str) (db : Hist → Str → Option Str) (d : Dialect) (f : Flavor)
    (h : ∀ s ∈ (goSources t).stmts, isOkStmt d f s = true) : Annotated (goSite s t db).toWorld s%"go" s%"d" d f (goSources t) where
  go := rfl
  notFile := rfl
  found := rfl
  parsed := rfl
  lines := fun _ => line_of (s := s%"a.go") (by decide +kernel)
  indent := by simp [goSources, newDDL, Blank]
  header := by intro c hc; simp [goSources, newDDL] at hc; rcases hc with rfl | rfl <;> exact line_of (by decide +kernel)
  named := by simp [goSources, newDDL, Named]
  complete := fun s hs => stmtOk_of (h s hs)

/-! ## The theorems -/

/-- C72 (PostgreSQL), partial: let the left argument show the schema of the database the server has, `B`, and let the right one be a
directory of Go sources, whose annotated statements written by hand give `A`.  Under the hypotheses of C03, if the server understands the
statements of the diff, `apply` succeeds and leaves the server with `A`.  Missing: what is missing in C03, C18 and C56. -/
theorem C72_postgres_partial (w : Site) {c : Conf.Config} {left dir stdin s : Str} {g : DDL} {b a : List Pg.PStmt} {B A : Pg.Db.Catalog}
    {reads : Str → Option Pg.PStmt} {state : Hist → Pg.Db.Catalog} (hd : c.dialect = s%"postgres") (hr : Ready w c left stdin)
    (hl : resolve w.toWorld c.language c.dialect left = .ok s) (hg : Annotated w.toWorld c.language dir .postgres .postgres g)
    (hb : Pg.ReadFrom s b) (ha : Pg.ReadFrom (handFile .postgres g.stmts) a) (tb : Pg.TameSchema b) (ta : Pg.TameSchema a)
    (db : DistinctObjects (Pg.ops w.sd) b) (da : DistinctObjects (Pg.ops w.sd) a) (hB : Pg.Db.Execs Pg.Db.empty b B)
    (hA : Pg.Db.Execs Pg.Db.empty a A) (hz : Pg.Db.NoHazard b a) (hs : Serves reads Pg.Db.Exec B w.db state)
    (hsend : ∀ l, diff (Pg.ops w.sd) (some b) (some a) = .ok l →
      (∀ x ∈ l, Sendable (Pg.ops w.sd) reads x) ∧ ShortLines (ddlStr (Pg.ops w.sd) l)) :
    (applyCommand w (.ok c) [left, dir] stdin).2 = .ok () ∧ state (queriesOf (applyCommand w (.ok c) [left, dir] stdin).1) = A := by
  have hl' := annotated_resolve (dialect := c.dialect) hg (by rw [hd]; decide)
  have hp : Pg.parse (fprint w.short .postgres g) = .ok a := by rw [← ha.2.2]; unfold Pg.parse; rw [annotated_lex hg (by decide)]
  rw [hd] at hl hl'
  refine apply_migration (Pg.stmtStr_bare w.sd) (fun _ _ _ => Pg.Db.exec_bare) hr (by rw [hd]; exact sources_postgres hl hl' hb.2.2 hp)
    (by rw [hd]; decide) hs hsend ?_
  exact (C03_migration_partial w.sd hb ha tb ta db da hB hA hz).imp_left fun ⟨l, h1, h2⟩ => ⟨l, h1, Pg.Db.execs_runs h2⟩

/-- A schema before. -/
def goPg : Str := s%"CREATE TABLE gone (z INTEGER); CREATE TABLE u (x INTEGER NOT NULL, y INTEGER, PRIMARY KEY (x))"

/-- The migration to the annotated one. -/
def goMigPg : List Pg.PStmt :=
  valueOf (diff (Pg.ops fun _ _ => s%"x") (some (valueOf (Pg.parse goPg))) (some (valueOf (Pg.parse (handFile .postgres (goSources s%"INTEGER").stmts)))))

set_option maxRecDepth 8000 in
/-- The table `gone` is dropped, a column and an index are added. -/
example : goMigPg.length = 3 ∧ ∃ B A db state, Pg.Db.Execs Pg.Db.empty (valueOf (Pg.parse goPg)) B ∧
    Pg.Db.Execs Pg.Db.empty (valueOf (Pg.parse (handFile .postgres (goSources s%"INTEGER").stmts))) A ∧
    Serves (readsOf (Pg.ops fun _ _ => s%"x") goMigPg) Pg.Db.Exec B db state ∧
    (applyCommand (goSite goPg s%"INTEGER" db) (.ok (sampleConfig s%"postgres")) [s%"dsn", s%"d"] s%"yes\n").2 = .ok () ∧
    state (queriesOf (applyCommand (goSite goPg s%"INTEGER" db) (.ok (sampleConfig s%"postgres")) [s%"dsn", s%"d"] s%"yes\n").1) = A :=
  have hB := (Pg.Db.loads (l := valueOf (Pg.parse goPg)) (by decide +kernel)).choose_spec
  have hA := (Pg.Db.loads (l := valueOf (Pg.parse (handFile .postgres (goSources s%"INTEGER").stmts))) (by decide +kernel)).choose_spec
  have hs := serves_answer (reads := readsOf (Pg.ops fun _ _ => s%"x") goMigPg) Pg.Db.exec_functional
    (Pg.Db.loads (l := valueOf (Pg.parse goPg)) (by decide +kernel)).choose (fun _ => [])
  ⟨by decide +kernel, _, _, _, _, hB, hA, hs,
    C72_postgres_partial (goSite goPg s%"INTEGER" _) rfl
      ⟨.inr (.inr (.inr ⟨[], .inl rfl⟩)), rfl, rfl, fun _ => rfl, rfl, fun _ => Nat.succ_pos _⟩
      rfl (goSite_annotated _ _ _ _ _ (by decide +kernel))
      ⟨⟨_, writes_of_lex .postgres _ (by decide +kernel), by decide +kernel⟩, by decide +kernel, by decide +kernel⟩
      ⟨⟨_, writes_of_lex .postgres _ (by decide +kernel), by decide +kernel⟩, by decide +kernel, by decide +kernel⟩
      (by decide +kernel) (by decide +kernel) (by decide +kernel) (by decide +kernel) hB hA
      (Pg.Db.noHazard_of (by decide +kernel)) hs (sends_of (by decide +kernel) (by decide +kernel))⟩

/-- C72 (CockroachDB), partial: the same under the hypotheses of C52. -/
theorem C72_cockroachdb_partial (w : Site) {c : Conf.Config} {left dir stdin s : Str} {g : DDL} {b a : List Crdb.CStmt} {B A : Crdb.Run.Db}
    {reads : Str → Option Crdb.CStmt} {state : Hist → Crdb.Run.Db} (hd : c.dialect = s%"cockroachdb") (hr : Ready w c left stdin)
    (hl : resolve w.toWorld c.language c.dialect left = .ok s) (hg : Annotated w.toWorld c.language dir .cockroachdb .postgres g)
    (hb : Crdb.parse s = .ok b) (ha : Crdb.parse (handFile .postgres g.stmts) = .ok a)
    (db : DistinctObjects (Crdb.ops w.sd) b) (da : DistinctObjects (Crdb.ops w.sd) a)
    (tb : Crdb.Run.TameSchema b) (ta : Crdb.Run.TameSchema a) (told : Told (Crdb.ops w.sd) b a)
    (ss : SameSchemas (Crdb.ops w.sd) b a) (hB : Runs Crdb.Run.Exec Crdb.Run.Db.empty b B)
    (hA : Runs Crdb.Run.Exec Crdb.Run.Db.empty a A) (hz : Crdb.Run.NoSchemaHazard b a)
    (hs : Serves reads Crdb.Run.Exec B w.db state)
    (hsend : ∀ l, diff (Crdb.ops w.sd) (some b) (some a) = .ok l →
      (∀ x ∈ l, Sendable (Crdb.ops w.sd) reads x) ∧ ShortLines (ddlStr (Crdb.ops w.sd) l)) :
    (applyCommand w (.ok c) [left, dir] stdin).2 = .ok () ∧ state (queriesOf (applyCommand w (.ok c) [left, dir] stdin).1) = A := by
  have hl' := annotated_resolve (dialect := c.dialect) hg (by rw [hd]; decide)
  have hp : Crdb.parse (fprint w.short .postgres g) = .ok a := by rw [← ha]; unfold Crdb.parse; rw [annotated_lex hg (by decide)]
  exact C54_cockroachdb_partial w hd hr hl hl' hb hp db da tb ta told ss hB hA hz hs hsend

/-- A schema before. -/
def goCrdb : Str := s%"CREATE TABLE gone (z INT8); CREATE TABLE u (x INT8 NOT NULL, y INT8, PRIMARY KEY (x))"

/-- The migration to the annotated one. -/
def goMigCrdb : List Crdb.CStmt :=
  valueOf (diff (Crdb.ops fun _ _ => s%"x") (some (valueOf (Crdb.parse goCrdb))) (some (valueOf (Crdb.parse (handFile .postgres (goSources s%"INT8").stmts)))))

set_option maxRecDepth 8000 in
/-- The table `gone` is dropped, a column and an index are added. -/
example : goMigCrdb.length = 3 ∧ ∃ B A db state, Runs Crdb.Run.Exec Crdb.Run.Db.empty (valueOf (Crdb.parse goCrdb)) B ∧
    Runs Crdb.Run.Exec Crdb.Run.Db.empty (valueOf (Crdb.parse (handFile .postgres (goSources s%"INT8").stmts))) A ∧
    Serves (readsOf (Crdb.ops fun _ _ => s%"x") goMigCrdb) Crdb.Run.Exec B db state ∧
    (applyCommand (goSite goCrdb s%"INT8" db) (.ok (sampleConfig s%"cockroachdb")) [s%"dsn", s%"d"] s%"yes\n").2 = .ok () ∧
    state (queriesOf (applyCommand (goSite goCrdb s%"INT8" db) (.ok (sampleConfig s%"cockroachdb")) [s%"dsn", s%"d"] s%"yes\n").1) = A :=
  have hs := serves_answer (reads := readsOf (Crdb.ops fun _ _ => s%"x") goMigCrdb) Crdb.Run.exec_functional
    (Crdb.Run.st (valueOf (Crdb.parse goCrdb))) (fun _ => [])
  have hB := Crdb.Run.loads (l := valueOf (Crdb.parse goCrdb)) (by decide +kernel)
  have hA := Crdb.Run.loads (l := valueOf (Crdb.parse (handFile .postgres (goSources s%"INT8").stmts))) (by decide +kernel)
  ⟨by decide +kernel, _, _, _, _, hB, hA, hs,
    C72_cockroachdb_partial (goSite goCrdb s%"INT8" _) rfl
      ⟨.inr (.inr (.inr ⟨[], .inl rfl⟩)), rfl, rfl, fun _ => rfl, rfl, fun _ => Nat.succ_pos _⟩
      rfl (goSite_annotated _ _ _ _ _ (by decide +kernel))
      (b := valueOf (Crdb.parse goCrdb)) (a := valueOf (Crdb.parse (handFile .postgres (goSources s%"INT8").stmts))) (by decide +kernel) (by decide +kernel)
      (by decide +kernel) (by decide +kernel) (by decide +kernel) (by decide +kernel) (by decide +kernel) (by decide +kernel) hB hA
      (Crdb.Run.noSchemaHazard_of (by decide +kernel)) hs (sends_of (by decide +kernel) (by decide +kernel))⟩

/-- C72 (MySQL), partial: the same under the hypotheses of C53. -/
theorem C72_mysql_partial (w : Site) {c : Conf.Config} {left dir stdin s : Str} {g : DDL} {b a : List My.MStmt} {B A : My.Run.Db}
    {reads : Str → Option My.MStmt} {state : Hist → My.Run.Db} (hd : c.dialect = s%"mysql") (hr : Ready w c left stdin)
    (hl : resolve w.toWorld c.language c.dialect left = .ok s) (hg : Annotated w.toWorld c.language dir .mysql .mysql g)
    (hb : My.parse s = .ok b) (ha : My.parse (handFile .mysql g.stmts) = .ok a)
    (db : DistinctObjects (My.ops w.sd) b) (da : DistinctObjects (My.ops w.sd) a)
    (tb : My.Run.TameSchema b) (ta : My.Run.TameSchema a) (told : Told (My.ops w.sd) b a)
    (ss : SameSchemas (My.ops w.sd) b a) (hB : Runs My.Run.Exec My.Run.Db.empty b B)
    (hA : Runs My.Run.Exec My.Run.Db.empty a A) (hz : My.Run.NoSchemaHazard b a)
    (hs : Serves reads My.Run.Exec B w.db state)
    (hsend : ∀ l, diff (My.ops w.sd) (some b) (some a) = .ok l →
      (∀ x ∈ l, Sendable (My.ops w.sd) reads x) ∧ ShortLines (ddlStr (My.ops w.sd) l)) :
    (applyCommand w (.ok c) [left, dir] stdin).2 = .ok () ∧ state (queriesOf (applyCommand w (.ok c) [left, dir] stdin).1) = A := by
  have hl' := annotated_resolve (dialect := c.dialect) hg (by rw [hd]; decide)
  have hp : My.parse (fprint w.short .mysql g) = .ok a := by rw [← ha]; unfold My.parse; rw [annotated_lex hg (by decide)]
  exact C54_mysql_partial w hd hr hl hl' hb hp db da tb ta told ss hB hA hz hs hsend

/-- A schema before. -/
def goMy : Str := s%"CREATE TABLE gone (z BIGINT); CREATE TABLE u (x BIGINT NOT NULL, y BIGINT, PRIMARY KEY (x))"

/-- The migration to the annotated one. -/
def goMigMy : List My.MStmt :=
  valueOf (diff (My.ops fun _ _ => s%"x") (some (valueOf (My.parse goMy))) (some (valueOf (My.parse (handFile .mysql (goSources s%"BIGINT").stmts)))))

set_option maxRecDepth 8000 in
/-- The table `gone` is dropped, a column and an index are added. -/
example : goMigMy.length = 3 ∧ ∃ B A db state, Runs My.Run.Exec My.Run.Db.empty (valueOf (My.parse goMy)) B ∧
    Runs My.Run.Exec My.Run.Db.empty (valueOf (My.parse (handFile .mysql (goSources s%"BIGINT").stmts))) A ∧
    Serves (readsOf (My.ops fun _ _ => s%"x") goMigMy) My.Run.Exec B db state ∧
    (applyCommand (goSite goMy s%"BIGINT" db) (.ok (sampleConfig s%"mysql")) [s%"dsn", s%"d"] s%"yes\n").2 = .ok () ∧
    state (queriesOf (applyCommand (goSite goMy s%"BIGINT" db) (.ok (sampleConfig s%"mysql")) [s%"dsn", s%"d"] s%"yes\n").1) = A :=
  have hs := serves_answer (reads := readsOf (My.ops fun _ _ => s%"x") goMigMy) My.Run.exec_functional
    (My.Run.st (valueOf (My.parse goMy))) (fun _ => [])
  have hB := My.Run.loads (l := valueOf (My.parse goMy)) (by decide +kernel)
  have hA := My.Run.loads (l := valueOf (My.parse (handFile .mysql (goSources s%"BIGINT").stmts))) (by decide +kernel)
  ⟨by decide +kernel, _, _, _, _, hB, hA, hs,
    C72_mysql_partial (goSite goMy s%"BIGINT" _) rfl
      ⟨.inr (.inr (.inr ⟨[], .inl rfl⟩)), rfl, rfl, fun _ => rfl, rfl, fun _ => Nat.succ_pos _⟩
      rfl (goSite_annotated _ _ _ _ _ (by decide +kernel))
      (b := valueOf (My.parse goMy)) (a := valueOf (My.parse (handFile .mysql (goSources s%"BIGINT").stmts))) (by decide +kernel) (by decide +kernel)
      (by decide +kernel) (by decide +kernel) (by decide +kernel) (by decide +kernel) (by decide +kernel) (by decide +kernel) hB hA
      (My.Run.noSchemaHazard_of (by decide +kernel)) hs (sends_of (by decide +kernel) (by decide +kernel))⟩

/-- C72 (Spanner), partial: the same under the hypotheses of C51. -/
theorem C72_spanner_partial (w : Site) {c : Conf.Config} {left dir stdin s : Str} {g : DDL} {b a : List Sp.SStmt} {B A : Sp.Run.Db}
    {reads : Str → Option Sp.SStmt} {state : Hist → Sp.Run.Db} (hd : c.dialect = s%"spanner") (hr : Ready w c left stdin)
    (hl : resolve w.toWorld c.language c.dialect left = .ok s) (hg : Annotated w.toWorld c.language dir .spanner .spanner g)
    (hb : Sp.parse s = .ok b) (ha : Sp.parse (handFile .spanner g.stmts) = .ok a)
    (db : DistinctObjects (Sp.ops w.sd) b) (da : DistinctObjects (Sp.ops w.sd) a)
    (tb : Sp.Run.TameSchema b) (ta : Sp.Run.TameSchema a) (told : Told (Sp.ops w.sd) b a)
    (ss : SameSchemas (Sp.ops w.sd) b a) (hB : Runs Sp.Run.Exec Sp.Run.Db.empty b B)
    (hA : Runs Sp.Run.Exec Sp.Run.Db.empty a A) (hz : Sp.Run.NoSchemaHazard b a) (hf : DropsCommentLines w.withoutCommentLines)
    (hs : ServesBatch reads Sp.Run.Exec B w.db state)
    (hsend : ∀ l, diff (Sp.ops w.sd) (some b) (some a) = .ok l → ∀ x ∈ l, Sendable (Sp.ops w.sd) reads x) :
    (applyCommand w (.ok c) [left, dir] stdin).2 = .ok () ∧ state (queriesOf (applyCommand w (.ok c) [left, dir] stdin).1) = A := by
  have hl' := annotated_resolve (dialect := c.dialect) hg (by rw [hd]; decide)
  have hp : Sp.parse (fprint w.short .spanner g) = .ok a := by rw [← ha]; unfold Sp.parse; rw [annotated_lex hg (by decide)]
  exact C54_spanner_partial w hd hr hl hl' hb hp db da tb ta told ss hB hA hz hf hs hsend

/-- A schema before. -/
def goSp : Str := s%"CREATE TABLE gone (z INT64) PRIMARY KEY (z); CREATE TABLE u (x INT64 NOT NULL, y INT64) PRIMARY KEY (x)"

/-- The migration to the annotated one. -/
def goMigSp : List Sp.SStmt :=
  valueOf (diff (Sp.ops fun _ _ => s%"x") (some (valueOf (Sp.parse goSp))) (some (valueOf (Sp.parse (handFile .spanner (goSources s%"INT64").stmts)))))

set_option maxRecDepth 8000 in
/-- The table `gone` is dropped, a column and an index are added. -/
example : goMigSp.length = 3 ∧ ∃ B A db state, Runs Sp.Run.Exec Sp.Run.Db.empty (valueOf (Sp.parse goSp)) B ∧
    Runs Sp.Run.Exec Sp.Run.Db.empty (valueOf (Sp.parse (handFile .spanner (goSources s%"INT64").stmts))) A ∧
    ServesBatch (readsOf (Sp.ops fun _ _ => s%"x") goMigSp) Sp.Run.Exec B db state ∧
    (applyCommand (goSite goSp s%"INT64" db) (.ok (sampleConfig s%"spanner")) [s%"dsn", s%"d"] s%"yes\n").2 = .ok () ∧
    state (queriesOf (applyCommand (goSite goSp s%"INT64" db) (.ok (sampleConfig s%"spanner")) [s%"dsn", s%"d"] s%"yes\n").1) = A :=
  have hs := servesBatch_answer (reads := readsOf (Sp.ops fun _ _ => s%"x") goMigSp) Sp.Run.exec_functional
    (Sp.Run.st (valueOf (Sp.parse goSp))) (by decide +kernel)
  have hB := Sp.Run.loads (l := valueOf (Sp.parse goSp)) (by decide +kernel)
  have hA := Sp.Run.loads (l := valueOf (Sp.parse (handFile .spanner (goSources s%"INT64").stmts))) (by decide +kernel)
  have rB : Sp.ReadFrom goSp (valueOf (Sp.parse goSp)) :=
    ⟨⟨_, writes_of_lex .spanner _ (by decide +kernel), by decide +kernel⟩, by decide +kernel, by decide +kernel⟩
  have rA : Sp.ReadFrom (handFile .spanner (goSources s%"INT64").stmts) (valueOf (Sp.parse (handFile .spanner (goSources s%"INT64").stmts))) :=
    ⟨⟨_, writes_of_lex .spanner _ (by decide +kernel), by decide +kernel⟩, by decide +kernel, by decide +kernel⟩
  have hr := C51_read (fun _ _ => s%"x") rB rA
  ⟨by decide +kernel, _, _, _, _, hB, hA, hs,
    C72_spanner_partial (goSite goSp s%"INT64" _) rfl
      ⟨.inr (.inr (.inr ⟨[], .inl rfl⟩)), rfl, rfl, fun _ => rfl, rfl, fun _ => Nat.succ_pos _⟩
      rfl (goSite_annotated _ _ _ _ _ (by decide +kernel))
      (b := valueOf (Sp.parse goSp)) (a := valueOf (Sp.parse (handFile .spanner (goSources s%"INT64").stmts))) (by decide +kernel) (by decide +kernel)
      (by decide +kernel) (by decide +kernel) (by decide +kernel) (by decide +kernel) hr.2.2 (by decide +kernel) hB hA
      (Sp.Run.noSchemaHazard_of (by decide +kernel)) keepLines_drops hs fun l h => (sends_of (by decide +kernel) (by decide +kernel) l h).1⟩

/-! ## Annotations that cannot be applied -/

/-- A table with a key and one constraint. -/
def goConstraint (t constraint : Str) : DDL :=
  newDDL [.table
    { sourceFile := s%"a.go", sourceLine := 12, comments := [], createTable := s%"CREATE TABLE t", columns := [⟨[], s%"a", t⟩]
      constraints := [⟨[], constraint⟩], options := [], primaryKey := [s%"a"] }]

/-- C72 is violated in all dialects: annotations that are complete SQL and mean one table, for which `apply` refuses the text it has itself
generated from them; nothing is sent, whatever the database shows, if that can be read. -/
theorem C72_refused_fails (w : Site) {c : Conf.Config} {left dir stdin s : Str}
    (hl : resolve w.toWorld c.language c.dialect left = .ok s) :
    (c.dialect = s%"postgres" → Annotated w.toWorld c.language dir .postgres .postgres (goConstraint s%"INTEGER" s%"CHECK (a > 0)") →
      (∃ b, Pg.parse s = .ok b) → applyCommand w (.ok c) [left, dir] stdin = ([], .err .unexpectedCurrentToken)) ∧
    (c.dialect = s%"cockroachdb" → Annotated w.toWorld c.language dir .cockroachdb .postgres (goConstraint s%"INT8" s%"CHECK (a > 0)") →
      (∃ b, Crdb.parse s = .ok b) → applyCommand w (.ok c) [left, dir] stdin = ([], .err .unexpectedCurrentToken)) ∧
    (c.dialect = s%"mysql" → Annotated w.toWorld c.language dir .mysql .mysql (goConstraint s%"BIGINT" s%"UNIQUE (a)") →
      (∃ b, My.parse s = .ok b) → applyCommand w (.ok c) [left, dir] stdin = ([], .err .unexpectedCurrentToken)) ∧
    (c.dialect = s%"spanner" →
      Annotated w.toWorld c.language dir .spanner .spanner (goConstraint s%"INT64" s%"FOREIGN KEY (a) REFERENCES u (id) ON DELETE CASCADE") →
      (∃ b, Sp.parse s = .ok b) → applyCommand w (.ok c) [left, dir] stdin = ([], .err .unexpectedCurrentToken)) := by
  refine ⟨?_, ?_, ?_, ?_⟩ <;> intro hd hg ⟨b, hb⟩
  · have hr := annotated_resolve (dialect := c.dialect) hg (by rw [hd]; decide)
    have hp : Pg.parse (fprint w.short .postgres (goConstraint s%"INTEGER" s%"CHECK (a > 0)")) = .err .unexpectedCurrentToken := by
      unfold Pg.parse; rw [annotated_lex hg (by decide)]; decide +kernel
    rw [hd] at hl hr
    simp [applyCommand, diffSources, hd, hl, hr, diffText, hb, hp, myDialect, pgDialect]
  · have hr := annotated_resolve (dialect := c.dialect) hg (by rw [hd]; decide)
    have hp : Crdb.parse (fprint w.short .postgres (goConstraint s%"INT8" s%"CHECK (a > 0)")) = .err .unexpectedCurrentToken := by
      unfold Crdb.parse; rw [annotated_lex hg (by decide)]; decide +kernel
    rw [hd] at hl hr
    simp [applyCommand, diffSources, hd, hl, hr, diffText, hb, hp, myDialect, pgDialect, crdbDialect]
  · have hr := annotated_resolve (dialect := c.dialect) hg (by rw [hd]; decide)
    have hp : My.parse (fprint w.short .mysql (goConstraint s%"BIGINT" s%"UNIQUE (a)")) = .err .unexpectedCurrentToken := by
      unfold My.parse; rw [annotated_lex hg (by decide)]; decide +kernel
    rw [hd] at hl hr
    simp [applyCommand, diffSources, hd, hl, hr, diffText, hb, hp, myDialect]
  · have hr := annotated_resolve (dialect := c.dialect) hg (by rw [hd]; decide)
    have hp : Sp.parse (fprint w.short .spanner (goConstraint s%"INT64" s%"FOREIGN KEY (a) REFERENCES u (id) ON DELETE CASCADE")) =
        .err .unexpectedCurrentToken := by
      unfold Sp.parse; rw [annotated_lex hg (by decide)]; decide +kernel
    rw [hd] at hl hr
    simp [applyCommand, diffSources, hd, hl, hr, diffText, hb, hp, myDialect, pgDialect, crdbDialect, spDialect]

/-- The annotations of the theorem on an empty database. -/
example : ∃ w : Site, resolve w.toWorld s%"go" s%"postgres" s%"dsn" = .ok [] ∧
    Annotated w.toWorld s%"go" s%"d" .postgres .postgres (goConstraint s%"INTEGER" s%"CHECK (a > 0)") ∧ ∃ b, Pg.parse [] = .ok b :=
  ⟨{ goSite [] [] (fun _ _ => none) with parseGo := fun _ => .ok (goConstraint s%"INTEGER" s%"CHECK (a > 0)") }, rfl,
    { go := rfl, notFile := rfl, found := rfl, parsed := rfl, lines := fun _ => line_of (s := s%"a.go") (by decide +kernel)
      indent := by simp [goConstraint, newDDL, Blank]
      header := by intro c hc; simp [goConstraint, newDDL] at hc; rcases hc with rfl | rfl <;> exact line_of (by decide +kernel)
      named := by simp [goConstraint, newDDL, Named]
      complete := fun s hs => stmtOk_of (by revert s; decide +kernel) }, [], by decide +kernel⟩

end Ddl.Props
