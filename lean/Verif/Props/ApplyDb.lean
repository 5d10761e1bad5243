import Verif.Lemmas.ApplyExec
import Verif.Lemmas.ParseCreates
import Verif.Props.Migration
import Verif.Props.Schema
import Verif.Props.SchemaCrdb
import Verif.Props.SchemaMy
import Verif.Props.Apply
import Verif.Lemmas.DecideApply

/-!
# `apply` brings the database to the new schema: C54
-/

namespace Ddl.Props
open Ddl Spec Cmd Ddl.Apply
set_option autoImplicit false

/-! ## Statements that can be executed in order -/

/-- C54: if the server can execute the shown statements in order, then `apply` succeeds, sends each of them once, and the server ends in
the state after the last one. -/
theorem C54_in_order {S X : Type} {reads : Str → Option X} {exec : S → X → S → Prop} {d d' : S} {state : Hist → S} {w : Site} {c : Conf.Config}
    {left right t stdin : Str} {bodies : List Str} {l : List X} (hr : Ready w c left stdin)
    (hd : diffSources w.toWorld c.dialect c.language left right = .ok t) (hsp : c.dialect ≠ s%"spanner") (hsh : Shown t bodies)
    (hl : ShortLines t) (hs : Serves reads exec d w.db state) (hb : bodies.map reads = l.map some) (hx : Runs exec d l d') :
    (applyCommand w (.ok c) [left, right] stdin).2 = .ok () ∧
    queriesOf (applyCommand w (.ok c) [left, right] stdin).1 = bodies.map (fun q => (q, none)) ∧
    state (queriesOf (applyCommand w (.ok c) [left, right] stdin).1) = d' :=
  apply_split hr hd hsp hsh hl hs hb hx

/-- C54: the same for Spanner, where the statements are sent as one batch. -/
theorem C54_batch {S X : Type} {reads : Str → Option X} {exec : S → X → S → Prop} {d d' : S} {state : Hist → S} {w : Site} {c : Conf.Config}
    {left right t stdin : Str} {bodies : List Str} {l : List X} (hr : Ready w c left stdin)
    (hd : diffSources w.toWorld c.dialect c.language left right = .ok t) (hsp : c.dialect = s%"spanner") (hsh : Shown t bodies)
    (hf : DropsCommentLines w.withoutCommentLines) (hs : ServesBatch reads exec d w.db state) (hb : bodies.map reads = l.map some)
    (hx : Runs exec d l d') :
    (applyCommand w (.ok c) [left, right] stdin).2 = .ok () ∧
    queriesOf (applyCommand w (.ok c) [left, right] stdin).1 = batch bodies ++ [(s%"RUN BATCH", none)] ∧
    state (queriesOf (applyCommand w (.ok c) [left, right] stdin).1) = d' :=
  apply_batch hr hd hsp hsh hf hs hb hx

/-! ## Migrations -/

/-- C54 (PostgreSQL), partial: let the left argument show the schema `s` of the database the server has, `B`, and let the right one be
the schema `s'`, which gives `A`.  Under the hypotheses of C03, if the server understands the statements of the diff, `apply`
succeeds and leaves the server with `A`.  Missing: what is missing in C03 and C18. -/
theorem C54_postgres_partial (w : Site) {c : Conf.Config} {left right stdin s s' : Str} {b a : List Pg.PStmt} {B A : Pg.Db.Catalog}
    {reads : Str → Option Pg.PStmt} {state : Hist → Pg.Db.Catalog} (hd : c.dialect = s%"postgres") (hr : Ready w c left stdin)
    (hl : resolve w.toWorld c.language c.dialect left = .ok s) (hl' : resolve w.toWorld c.language c.dialect right = .ok s')
    (hb : Pg.ReadFrom s b) (ha : Pg.ReadFrom s' a) (tb : Pg.TameSchema b) (ta : Pg.TameSchema a) (db : DistinctObjects (Pg.ops w.sd) b)
    (da : DistinctObjects (Pg.ops w.sd) a) (hB : Pg.Db.Execs Pg.Db.empty b B) (hA : Pg.Db.Execs Pg.Db.empty a A) (hz : Pg.Db.NoHazard b a)
    (hs : Serves reads Pg.Db.Exec B w.db state)
    (hsend : ∀ l, diff (Pg.ops w.sd) (some b) (some a) = .ok l →
      (∀ x ∈ l, Sendable (Pg.ops w.sd) reads x) ∧ ShortLines (ddlStr (Pg.ops w.sd) l)) :
    (applyCommand w (.ok c) [left, right] stdin).2 = .ok () ∧ state (queriesOf (applyCommand w (.ok c) [left, right] stdin).1) = A := by
  rw [hd] at hl hl'
  refine apply_migration (Pg.stmtStr_bare w.sd) (fun _ _ _ => Pg.Db.exec_bare) hr (by rw [hd]; exact sources_postgres hl hl' hb.2.2 ha.2.2)
    (by rw [hd]; decide) hs hsend ?_
  exact (C03_migration_partial w.sd hb ha tb ta db da hB hA hz).imp_left fun ⟨l, h1, h2⟩ => ⟨l, h1, Pg.Db.execs_runs h2⟩

/-- An old schema. -/
def oldPg : Str := s%"CREATE TABLE u (x INT, y INT NOT NULL, PRIMARY KEY (x)); CREATE TABLE gone (z INT); CREATE INDEX i ON u (y)"

/-- A new schema. -/
def newPg : Str :=
  s%"CREATE TABLE n (q INT); CREATE TABLE u (x INT, y TEXT, w INT DEFAULT 3, PRIMARY KEY (x)); CREATE UNIQUE INDEX i ON u (y)"

/-- Its migration. -/
def migPg : List Pg.PStmt := valueOf (diff (Pg.ops fun _ _ => s%"x") (some (valueOf (Pg.parse oldPg))) (some (valueOf (Pg.parse newPg))))

set_option maxRecDepth 8000 in
example : migPg.length = 7 ∧ ∃ B A db state, Pg.Db.Execs Pg.Db.empty (valueOf (Pg.parse oldPg)) B ∧
    Pg.Db.Execs Pg.Db.empty (valueOf (Pg.parse newPg)) A ∧ Serves (readsOf (Pg.ops fun _ _ => s%"x") migPg) Pg.Db.Exec B db state ∧
    (applyCommand (sampleSite oldPg newPg db) (.ok (sampleConfig s%"postgres")) [s%"a", s%"b"] s%"yes\n").2 = .ok () ∧
    state (queriesOf (applyCommand (sampleSite oldPg newPg db) (.ok (sampleConfig s%"postgres")) [s%"a", s%"b"] s%"yes\n").1) = A := by
  have hB := (Pg.Db.loads (l := valueOf (Pg.parse oldPg)) (by decide +kernel)).choose_spec
  have hA := (Pg.Db.loads (l := valueOf (Pg.parse newPg)) (by decide +kernel)).choose_spec
  have hs := serves_answer (reads := readsOf (Pg.ops fun _ _ => s%"x") migPg) Pg.Db.exec_functional
    (Pg.Db.loads (l := valueOf (Pg.parse oldPg)) (by decide +kernel)).choose (fun _ => [])
  exact ⟨by decide +kernel, _, _, _, _, hB, hA, hs,
    C54_postgres_partial (sampleSite oldPg newPg _) rfl
      ⟨.inr (.inr (.inr ⟨[], .inl rfl⟩)), rfl, rfl, fun _ => rfl, rfl, fun _ => Nat.succ_pos _⟩
      rfl rfl ⟨⟨_, writes_of_lex .postgres _ (by decide +kernel), by decide +kernel⟩, by decide +kernel, by decide +kernel⟩
      ⟨⟨_, writes_of_lex .postgres _ (by decide +kernel), by decide +kernel⟩, by decide +kernel, by decide +kernel⟩
      (by decide +kernel) (by decide +kernel) (by decide +kernel) (by decide +kernel) hB hA
      (Pg.Db.noHazard_of (by decide +kernel)) hs (sends_of (by decide +kernel) (by decide +kernel))⟩

/-- C54 (CockroachDB), partial: the same under the hypotheses of C52. -/
theorem C54_cockroachdb_partial (w : Site) {c : Conf.Config} {left right stdin s s' : Str} {b a : List Crdb.CStmt} {B A : Crdb.Run.Db}
    {reads : Str → Option Crdb.CStmt} {state : Hist → Crdb.Run.Db} (hd : c.dialect = s%"cockroachdb") (hr : Ready w c left stdin)
    (hl : resolve w.toWorld c.language c.dialect left = .ok s) (hl' : resolve w.toWorld c.language c.dialect right = .ok s')
    (hb : Crdb.parse s = .ok b) (ha : Crdb.parse s' = .ok a)
    (db : DistinctObjects (Crdb.ops w.sd) b) (da : DistinctObjects (Crdb.ops w.sd) a)
    (tb : Crdb.Run.TameSchema b) (ta : Crdb.Run.TameSchema a) (told : Told (Crdb.ops w.sd) b a)
    (ss : SameSchemas (Crdb.ops w.sd) b a) (hB : Runs Crdb.Run.Exec Crdb.Run.Db.empty b B)
    (hA : Runs Crdb.Run.Exec Crdb.Run.Db.empty a A) (hz : Crdb.Run.NoSchemaHazard b a)
    (hs : Serves reads Crdb.Run.Exec B w.db state)
    (hsend : ∀ l, diff (Crdb.ops w.sd) (some b) (some a) = .ok l →
      (∀ x ∈ l, Sendable (Crdb.ops w.sd) reads x) ∧ ShortLines (ddlStr (Crdb.ops w.sd) l)) :
    (applyCommand w (.ok c) [left, right] stdin).2 = .ok () ∧ state (queriesOf (applyCommand w (.ok c) [left, right] stdin).1) = A := by
  rw [hd] at hl hl'
  exact apply_migration (Crdb.stmtStr_bare w.sd) (fun _ _ _ => Crdb.Run.exec_bare) hr (by rw [hd]; exact sources_cockroachdb hl hl' hb ha)
    (by rw [hd]; decide) hs hsend (C52_cockroachdb_partial w.sd (Crdb.parse_creates hb) (Crdb.parse_creates ha) db da tb ta told ss hB hA hz)

/-- An old schema. -/
def oldCrdb : Str := s%"CREATE TABLE p (x INT8 NOT NULL, y INT8, PRIMARY KEY (x)); CREATE TABLE gone (z INT8); CREATE INDEX i ON p (y)"

/-- A new schema. -/
def newCrdb : Str := s%"CREATE TABLE n (q INT8); CREATE TABLE p (x INT8 NOT NULL, y STRING, w INT8, PRIMARY KEY (x)); CREATE UNIQUE INDEX i ON p (y)"

/-- Its migration. -/
def migCrdb : List Crdb.CStmt :=
  valueOf (diff (Crdb.ops fun _ _ => s%"x") (some (valueOf (Crdb.parse oldCrdb))) (some (valueOf (Crdb.parse newCrdb))))

set_option maxRecDepth 8000 in
example : migCrdb.length = 6 ∧ ∃ B A db state, Runs Crdb.Run.Exec Crdb.Run.Db.empty (valueOf (Crdb.parse oldCrdb)) B ∧
    Runs Crdb.Run.Exec Crdb.Run.Db.empty (valueOf (Crdb.parse newCrdb)) A ∧
    Serves (readsOf (Crdb.ops fun _ _ => s%"x") migCrdb) Crdb.Run.Exec B db state ∧
    (applyCommand (sampleSite oldCrdb newCrdb db) (.ok (sampleConfig s%"cockroachdb")) [s%"a", s%"b"] s%"yes\n").2 = .ok () ∧
    state (queriesOf (applyCommand (sampleSite oldCrdb newCrdb db) (.ok (sampleConfig s%"cockroachdb")) [s%"a", s%"b"] s%"yes\n").1) = A :=
  have hs := serves_answer (reads := readsOf (Crdb.ops fun _ _ => s%"x") migCrdb) Crdb.Run.exec_functional
    (Crdb.Run.st (valueOf (Crdb.parse oldCrdb))) (fun _ => [])
  have hB := Crdb.Run.loads (l := valueOf (Crdb.parse oldCrdb)) (by decide +kernel)
  have hA := Crdb.Run.loads (l := valueOf (Crdb.parse newCrdb)) (by decide +kernel)
  ⟨by decide +kernel, _, _, _, _, hB, hA, hs,
    C54_cockroachdb_partial (sampleSite oldCrdb newCrdb _) rfl
      ⟨.inr (.inr (.inr ⟨[], .inl rfl⟩)), rfl, rfl, fun _ => rfl, rfl, fun _ => Nat.succ_pos _⟩
      rfl rfl (b := valueOf (Crdb.parse oldCrdb)) (a := valueOf (Crdb.parse newCrdb)) (by decide +kernel) (by decide +kernel)
      (by decide +kernel) (by decide +kernel) (by decide +kernel) (by decide +kernel)
      (by decide +kernel) (by decide +kernel) hB hA
      (Crdb.Run.noSchemaHazard_of (by decide +kernel)) hs (sends_of (by decide +kernel) (by decide +kernel))⟩

/-- C54 (MySQL), partial: the same under the hypotheses of C53. -/
theorem C54_mysql_partial (w : Site) {c : Conf.Config} {left right stdin s s' : Str} {b a : List My.MStmt} {B A : My.Run.Db}
    {reads : Str → Option My.MStmt} {state : Hist → My.Run.Db} (hd : c.dialect = s%"mysql") (hr : Ready w c left stdin)
    (hl : resolve w.toWorld c.language c.dialect left = .ok s) (hl' : resolve w.toWorld c.language c.dialect right = .ok s')
    (hb : My.parse s = .ok b) (ha : My.parse s' = .ok a)
    (db : DistinctObjects (My.ops w.sd) b) (da : DistinctObjects (My.ops w.sd) a)
    (tb : My.Run.TameSchema b) (ta : My.Run.TameSchema a) (told : Told (My.ops w.sd) b a)
    (ss : SameSchemas (My.ops w.sd) b a) (hB : Runs My.Run.Exec My.Run.Db.empty b B)
    (hA : Runs My.Run.Exec My.Run.Db.empty a A) (hz : My.Run.NoSchemaHazard b a)
    (hs : Serves reads My.Run.Exec B w.db state)
    (hsend : ∀ l, diff (My.ops w.sd) (some b) (some a) = .ok l →
      (∀ x ∈ l, Sendable (My.ops w.sd) reads x) ∧ ShortLines (ddlStr (My.ops w.sd) l)) :
    (applyCommand w (.ok c) [left, right] stdin).2 = .ok () ∧ state (queriesOf (applyCommand w (.ok c) [left, right] stdin).1) = A := by
  rw [hd] at hl hl'
  exact apply_migration (My.stmtStr_bare w.sd) (fun _ _ _ => My.Run.exec_bare) hr (by rw [hd]; exact sources_mysql hl hl' hb ha)
    (by rw [hd]; decide) hs hsend (C53_mysql_partial w.sd (My.parse_creates hb) (My.parse_creates ha) db da tb ta told ss hB hA hz)

/-- An old schema. -/
def oldMy : Str := s%"CREATE TABLE p (x BIGINT NOT NULL, y INTEGER, PRIMARY KEY (x)); CREATE TABLE gone (z BIGINT); CREATE INDEX i ON p (y)"

/-- A new schema. -/
def newMy : Str := s%"CREATE TABLE n (q BIGINT); CREATE TABLE p (x BIGINT NOT NULL, y INTEGER, w TEXT, PRIMARY KEY (x)); CREATE INDEX i ON p (y); CREATE INDEX j ON p (x, y)"

/-- Its migration. -/
def migMy : List My.MStmt :=
  valueOf (diff (My.ops fun _ _ => s%"x") (some (valueOf (My.parse oldMy))) (some (valueOf (My.parse newMy))))

set_option maxRecDepth 8000 in
example : migMy.length = 4 ∧ ∃ B A db state, Runs My.Run.Exec My.Run.Db.empty (valueOf (My.parse oldMy)) B ∧
    Runs My.Run.Exec My.Run.Db.empty (valueOf (My.parse newMy)) A ∧
    Serves (readsOf (My.ops fun _ _ => s%"x") migMy) My.Run.Exec B db state ∧
    (applyCommand (sampleSite oldMy newMy db) (.ok (sampleConfig s%"mysql")) [s%"a", s%"b"] s%"yes\n").2 = .ok () ∧
    state (queriesOf (applyCommand (sampleSite oldMy newMy db) (.ok (sampleConfig s%"mysql")) [s%"a", s%"b"] s%"yes\n").1) = A :=
  have hs := serves_answer (reads := readsOf (My.ops fun _ _ => s%"x") migMy) My.Run.exec_functional
    (My.Run.st (valueOf (My.parse oldMy))) (fun _ => [])
  have hB := My.Run.loads (l := valueOf (My.parse oldMy)) (by decide +kernel)
  have hA := My.Run.loads (l := valueOf (My.parse newMy)) (by decide +kernel)
  ⟨by decide +kernel, _, _, _, _, hB, hA, hs,
    C54_mysql_partial (sampleSite oldMy newMy _) rfl
      ⟨.inr (.inr (.inr ⟨[], .inl rfl⟩)), rfl, rfl, fun _ => rfl, rfl, fun _ => Nat.succ_pos _⟩
      rfl rfl (b := valueOf (My.parse oldMy)) (a := valueOf (My.parse newMy)) (by decide +kernel) (by decide +kernel)
      (by decide +kernel) (by decide +kernel) (by decide +kernel) (by decide +kernel)
      (by decide +kernel) (by decide +kernel) hB hA
      (My.Run.noSchemaHazard_of (by decide +kernel)) hs (sends_of (by decide +kernel) (by decide +kernel))⟩

/-- C54 (Spanner), partial: the same under the hypotheses of C51, with a server that executes batches. -/
theorem C54_spanner_partial (w : Site) {c : Conf.Config} {left right stdin s s' : Str} {b a : List Sp.SStmt} {B A : Sp.Run.Db}
    {reads : Str → Option Sp.SStmt} {state : Hist → Sp.Run.Db} (hd : c.dialect = s%"spanner") (hr : Ready w c left stdin)
    (hl : resolve w.toWorld c.language c.dialect left = .ok s) (hl' : resolve w.toWorld c.language c.dialect right = .ok s')
    (hb : Sp.parse s = .ok b) (ha : Sp.parse s' = .ok a)
    (db : DistinctObjects (Sp.ops w.sd) b) (da : DistinctObjects (Sp.ops w.sd) a)
    (tb : Sp.Run.TameSchema b) (ta : Sp.Run.TameSchema a) (told : Told (Sp.ops w.sd) b a)
    (ss : SameSchemas (Sp.ops w.sd) b a) (hB : Runs Sp.Run.Exec Sp.Run.Db.empty b B)
    (hA : Runs Sp.Run.Exec Sp.Run.Db.empty a A) (hz : Sp.Run.NoSchemaHazard b a) (hf : DropsCommentLines w.withoutCommentLines)
    (hs : ServesBatch reads Sp.Run.Exec B w.db state)
    (hsend : ∀ l, diff (Sp.ops w.sd) (some b) (some a) = .ok l → ∀ x ∈ l, Sendable (Sp.ops w.sd) reads x) :
    (applyCommand w (.ok c) [left, right] stdin).2 = .ok () ∧ state (queriesOf (applyCommand w (.ok c) [left, right] stdin).1) = A := by
  rw [hd] at hl hl'
  exact apply_migration_batch (Sp.stmtStr_bare w.sd) (fun _ _ _ => Sp.Run.exec_bare) hr (by rw [hd]; exact sources_spanner hl hl' hb ha)
    hd hf hs hsend (C51_spanner_partial w.sd (Sp.parse_creates hb) (Sp.parse_creates ha) db da tb ta told ss hB hA hz)

/-- An old schema. -/
def oldSp : Str := s%"CREATE TABLE p (x INT64 NOT NULL, y INT64) PRIMARY KEY (x); CREATE TABLE gone (z INT64) PRIMARY KEY (z); CREATE INDEX i ON p (y)"

/-- A new schema. -/
def newSp : Str := s%"CREATE TABLE n (q INT64) PRIMARY KEY (q); CREATE TABLE p (x INT64 NOT NULL, y INT64 NOT NULL, w STRING(10)) PRIMARY KEY (x);
  CREATE UNIQUE INDEX i ON p (y)"

/-- Its migration. -/
def migSp : List Sp.SStmt := valueOf (diff (Sp.ops fun _ _ => s%"x") (some (valueOf (Sp.parse oldSp))) (some (valueOf (Sp.parse newSp))))

set_option maxRecDepth 8000 in
example : migSp.length = 6 ∧ ∃ (B A : Sp.Run.Db) (w : Site) (state : Hist → Sp.Run.Db), Runs Sp.Run.Exec Sp.Run.Db.empty (valueOf (Sp.parse oldSp)) B ∧
    Runs Sp.Run.Exec Sp.Run.Db.empty (valueOf (Sp.parse newSp)) A ∧
    ServesBatch (readsOf (Sp.ops fun _ _ => s%"x") migSp) Sp.Run.Exec B w.db state ∧
    (applyCommand w (.ok (sampleConfig s%"spanner")) [s%"a", s%"b"] s%"yes\n").2 = .ok () ∧
    state (queriesOf (applyCommand w (.ok (sampleConfig s%"spanner")) [s%"a", s%"b"] s%"yes\n").1) = A :=
  have hs := servesBatch_answer (reads := readsOf (Sp.ops fun _ _ => s%"x") migSp) Sp.Run.exec_functional
    (Sp.Run.st (valueOf (Sp.parse oldSp))) (by decide +kernel)
  have hB := Sp.Run.loads (l := valueOf (Sp.parse oldSp)) (by decide +kernel)
  have hA := Sp.Run.loads (l := valueOf (Sp.parse newSp)) (by decide +kernel)
  have rB : Sp.ReadFrom oldSp (valueOf (Sp.parse oldSp)) :=
    ⟨⟨_, writes_of_lex .spanner _ (by decide +kernel), by decide +kernel⟩, by decide +kernel, by decide +kernel⟩
  have rA : Sp.ReadFrom newSp (valueOf (Sp.parse newSp)) :=
    ⟨⟨_, writes_of_lex .spanner _ (by decide +kernel), by decide +kernel⟩, by decide +kernel, by decide +kernel⟩
  have hr := C51_read (fun _ _ => s%"x") rB rA
  ⟨by decide +kernel, _, _, { sampleSite oldSp newSp (batchAnswer _ _ _) with withoutCommentLines := keepLines }, _, hB, hA, hs,
    C54_spanner_partial _ rfl
      ⟨.inr (.inr (.inr ⟨[], .inl rfl⟩)), rfl, rfl, fun _ => rfl, rfl, fun _ => Nat.succ_pos _⟩
      rfl rfl (b := valueOf (Sp.parse oldSp)) (a := valueOf (Sp.parse newSp)) (by decide +kernel) (by decide +kernel)
      (by decide +kernel) (by decide +kernel) (by decide +kernel) (by decide +kernel)
      hr.2.2 (by decide +kernel) hB hA
      (Sp.Run.noSchemaHazard_of (by decide +kernel)) keepLines_drops hs fun l h => (sends_of (by decide +kernel) (by decide +kernel) l h).1⟩

/-! ## Witnesses -/

/-- C54 is violated (CockroachDB): every statement of the migration succeeds and so does `apply`, but the database does not have the
new schema: an index is lost. -/
theorem C54_index_lost_fails (w : Site) {c : Conf.Config} {left right stdin : Str} {b a : List Crdb.CStmt} {B A : Crdb.Run.Db}
    {reads : Str → Option Crdb.CStmt} {state : Hist → Crdb.Run.Db} (hd : c.dialect = s%"cockroachdb") (hr : Ready w c left stdin)
    (hl : resolve w.toWorld c.language c.dialect left = .ok s%"CREATE TABLE t (a INT8, INDEX i (a))")
    (hl' : resolve w.toWorld c.language c.dialect right = .ok s%"CREATE TABLE t (a INT8); CREATE INDEX IF NOT EXISTS i ON t (a)")
    (hb : Crdb.parse s%"CREATE TABLE t (a INT8, INDEX i (a))" = .ok b)
    (ha : Crdb.parse s%"CREATE TABLE t (a INT8); CREATE INDEX IF NOT EXISTS i ON t (a)" = .ok a)
    (hB : Runs Crdb.Run.Exec Crdb.Run.Db.empty b B) (hA : Runs Crdb.Run.Exec Crdb.Run.Db.empty a A)
    (hs : Serves reads Crdb.Run.Exec B w.db state)
    (hsend : ∀ l, diff (Crdb.ops w.sd) (some b) (some a) = .ok l →
      (∀ x ∈ l, Sendable (Crdb.ops w.sd) reads x) ∧ ShortLines (ddlStr (Crdb.ops w.sd) l)) :
    (applyCommand w (.ok c) [left, right] stdin).2 = .ok () ∧ state (queriesOf (applyCommand w (.ok c) [left, right] stdin).1) ≠ A := by
  rw [hd] at hl hl'
  obtain ⟨b', a', hb', ha', B', A', l, hB', hA', hl₁, ⟨D, hD⟩, hlost⟩ := C52_index_lost_fails w.sd
  rw [hb] at hb'
  rw [ha] at ha'
  cases hb'
  cases ha'
  cases runs_unique Crdb.Run.exec_functional hB hB'
  cases runs_unique Crdb.Run.exec_functional hA hA'
  have := apply_migration (Crdb.stmtStr_bare w.sd) (fun _ _ _ => Crdb.Run.exec_bare) hr (by rw [hd]; exact sources_cockroachdb hl hl' hb ha)
    (by rw [hd]; decide) hs hsend (.inl ⟨l, hl₁, hD⟩)
  exact ⟨this.1, by rw [this.2]; exact (hlost D hD).1⟩

/-- An old schema. -/
def oldLost : Str := s%"CREATE TABLE t (a INT8, INDEX i (a))"

/-- A new schema. -/
def newLost : Str := s%"CREATE TABLE t (a INT8); CREATE INDEX IF NOT EXISTS i ON t (a)"

/-- Its migration. -/
def migLost : List Crdb.CStmt :=
  valueOf (diff (Crdb.ops fun _ _ => s%"x") (some (valueOf (Crdb.parse oldLost))) (some (valueOf (Crdb.parse newLost))))

set_option maxRecDepth 8000 in
example : migLost.length = 2 ∧ ∃ B A db state, Runs Crdb.Run.Exec Crdb.Run.Db.empty (valueOf (Crdb.parse oldLost)) B ∧
    Runs Crdb.Run.Exec Crdb.Run.Db.empty (valueOf (Crdb.parse newLost)) A ∧
    Serves (readsOf (Crdb.ops fun _ _ => s%"x") migLost) Crdb.Run.Exec B db state ∧
    (applyCommand (sampleSite oldLost newLost db) (.ok (sampleConfig s%"cockroachdb")) [s%"a", s%"b"] s%"yes\n").2 = .ok () ∧
    state (queriesOf (applyCommand (sampleSite oldLost newLost db) (.ok (sampleConfig s%"cockroachdb")) [s%"a", s%"b"] s%"yes\n").1) ≠ A :=
  have hs := serves_answer (reads := readsOf (Crdb.ops fun _ _ => s%"x") migLost) Crdb.Run.exec_functional
    (Crdb.Run.st (valueOf (Crdb.parse oldLost))) (fun _ => [])
  have hB := Crdb.Run.loads (l := valueOf (Crdb.parse oldLost)) (by decide +kernel)
  have hA := Crdb.Run.loads (l := valueOf (Crdb.parse newLost)) (by decide +kernel)
  ⟨by decide +kernel, _, _, _, _, hB, hA, hs,
    C54_index_lost_fails (sampleSite oldLost newLost _) rfl
      ⟨.inr (.inr (.inr ⟨[], .inl rfl⟩)), rfl, rfl, fun _ => rfl, rfl, fun _ => Nat.succ_pos _⟩ 
      rfl rfl (b := valueOf (Crdb.parse oldLost)) (a := valueOf (Crdb.parse newLost)) (by decide +kernel) (by decide +kernel)
      hB hA hs  (sends_of (by decide +kernel) (by decide +kernel))⟩

set_option maxRecDepth 8000 in
/-- C54 is violated (CockroachDB): a new column with an index. The index is refused until the column is there, and then the column is refused
because it is there. All attempts are used up and `apply` reports an error, although the database has the new schema since the second
attempt. -/
theorem C54_retry_fails (w : Site) {c : Conf.Config} {left right stdin : Str} {b a : List Crdb.CStmt} {B A : Crdb.Run.Db}
    {reads : Str → Option Crdb.CStmt} {state : Hist → Crdb.Run.Db} (hd : c.dialect = s%"cockroachdb") (hr : Ready w c left stdin)
    (hc : ∀ h, w.cancelled h = false) (ht : 2 ≤ w.attempts 3)
    (hl : resolve w.toWorld c.language c.dialect left = .ok s%"CREATE TABLE t (a INT8)")
    (hl' : resolve w.toWorld c.language c.dialect right = .ok s%"CREATE TABLE t (a INT8, b INT8); CREATE INDEX i ON t (b)")
    (hb : Crdb.parse s%"CREATE TABLE t (a INT8)" = .ok b)
    (ha : Crdb.parse s%"CREATE TABLE t (a INT8, b INT8); CREATE INDEX i ON t (b)" = .ok a)
    (hB : Runs Crdb.Run.Exec Crdb.Run.Db.empty b B) (hA : Runs Crdb.Run.Exec Crdb.Run.Db.empty a A)
    (hs : Serves reads Crdb.Run.Exec B w.db state)
    (hsend : ∀ l, diff (Crdb.ops w.sd) (some b) (some a) = .ok l →
      (∀ x ∈ l, Sendable (Crdb.ops w.sd) reads x) ∧ ShortLines (ddlStr (Crdb.ops w.sd) l)) :
    (applyCommand w (.ok c) [left, right] stdin).2 ≠ .ok () ∧ state (queriesOf (applyCommand w (.ok c) [left, right] stdin).1) = A := by
  rw [hd] at hl hl'
  have e₁ : b = valueOf (Crdb.parse s%"CREATE TABLE t (a INT8)") := valueOf_ok hb
  have e₂ : a = valueOf (Crdb.parse s%"CREATE TABLE t (a INT8, b INT8); CREATE INDEX i ON t (b)") := valueOf_ok ha
  subst e₁ e₂
  cases runs_unique Crdb.Run.exec_functional hB (Crdb.Run.loads (by decide +kernel))
  cases runs_unique Crdb.Run.exec_functional hA (Crdb.Run.loads (by decide +kernel))
  have h₁ := C52_cockroachdb_partial (fun _ _ => []) (b := valueOf (Crdb.parse s%"CREATE TABLE t (a INT8)"))
    (a := valueOf (Crdb.parse s%"CREATE TABLE t (a INT8, b INT8)")) (by decide +kernel) (by decide +kernel) (by decide +kernel) (by decide +kernel)
    (by decide +kernel) (by decide +kernel) (by decide +kernel) (by decide +kernel) (Crdb.Run.loads (by decide +kernel))
    (Crdb.Run.loads (by decide +kernel)) (Crdb.Run.noSchemaHazard_of (by decide +kernel))
  have h₂ := C52_cockroachdb_partial (fun _ _ => []) (b := valueOf (Crdb.parse s%"CREATE TABLE t (a INT8, b INT8)"))
    (a := valueOf (Crdb.parse s%"CREATE TABLE t (a INT8, b INT8); CREATE INDEX i ON t (b)")) (by decide +kernel) (by decide +kernel)
    (by decide +kernel) (by decide +kernel) (by decide +kernel) (by decide +kernel) (by decide +kernel) (by decide +kernel)
    (Crdb.Run.loads (by decide +kernel)) (Crdb.Run.loads (by decide +kernel)) (Crdb.Run.noSchemaHazard_of (by decide +kernel))
  have h₁ := Crdb.Run.exec_bare (only_one h₁ rfl)
  have h₂ := Crdb.Run.exec_bare (only_one h₂ rfl)
  have hD : diff (Crdb.ops w.sd) (some (valueOf (Crdb.parse s%"CREATE TABLE t (a INT8)")))
    (some (valueOf (Crdb.parse s%"CREATE TABLE t (a INT8, b INT8); CREATE INDEX i ON t (b)"))) = .ok _ := rfl
  obtain ⟨hs₁, hs₂⟩ := hsend _ hD
  have hsrc := sources_cockroachdb hl hl' hb ha
  rw [hD] at hsrc
  exact apply_swapped (Crdb.stmtStr_bare w.sd) hr (by rw [hd]; exact hsrc) (by rw [hd]; decide) (by rw [hd]; decide) hc ht hs
    (hs₁ _ (.head _)) (hs₁ _ (.tail _ (.head _))) hs₂
    (fun d h => Crdb.Run.not_createIndex (by decide +kernel) (.head _) rfl (.head _) (by decide +kernel) rfl (.cons h (.nil _)))
    h₁ h₂ (fun d => Crdb.Run.createIndex_twice rfl h₂) (fun d => Crdb.Run.addColumn_twice rfl rfl h₁ h₂)

/-- An old schema. -/
def oldStuck : Str := s%"CREATE TABLE t (a INT8)"

/-- A new schema. -/
def newStuck : Str := s%"CREATE TABLE t (a INT8, b INT8); CREATE INDEX i ON t (b)"

/-- Its migration. -/
def migStuck : List Crdb.CStmt :=
  valueOf (diff (Crdb.ops fun _ _ => s%"x") (some (valueOf (Crdb.parse oldStuck))) (some (valueOf (Crdb.parse newStuck))))

set_option maxRecDepth 8000 in
example : migStuck.length = 2 ∧ ∃ B A db state, Runs Crdb.Run.Exec Crdb.Run.Db.empty (valueOf (Crdb.parse oldStuck)) B ∧
    Runs Crdb.Run.Exec Crdb.Run.Db.empty (valueOf (Crdb.parse newStuck)) A ∧
    Serves (readsOf (Crdb.ops fun _ _ => s%"x") migStuck) Crdb.Run.Exec B db state ∧
    (applyCommand (sampleSite oldStuck newStuck db) (.ok (sampleConfig s%"cockroachdb")) [s%"a", s%"b"] s%"yes\n").2 ≠ .ok () ∧
    state (queriesOf (applyCommand (sampleSite oldStuck newStuck db) (.ok (sampleConfig s%"cockroachdb")) [s%"a", s%"b"] s%"yes\n").1) = A :=
  have hs := serves_answer (reads := readsOf (Crdb.ops fun _ _ => s%"x") migStuck) Crdb.Run.exec_functional
    (Crdb.Run.st (valueOf (Crdb.parse oldStuck))) (fun _ => [])
  have hB := Crdb.Run.loads (l := valueOf (Crdb.parse oldStuck)) (by decide +kernel)
  have hA := Crdb.Run.loads (l := valueOf (Crdb.parse newStuck)) (by decide +kernel)
  ⟨by decide +kernel, _, _, _, _, hB, hA, hs,
    C54_retry_fails (sampleSite oldStuck newStuck _) rfl
      ⟨.inr (.inr (.inr ⟨[], .inl rfl⟩)), rfl, rfl, fun _ => rfl, rfl, fun _ => Nat.succ_pos _⟩ (fun _ => rfl) (by decide)
      rfl rfl (b := valueOf (Crdb.parse oldStuck)) (a := valueOf (Crdb.parse newStuck)) (by decide +kernel) (by decide +kernel)
      hB hA hs  (sends_of (by decide +kernel) (by decide +kernel))⟩

set_option maxRecDepth 8000 in
/-- C54 (MySQL): the same migration succeeds at the second attempt, if the server says that the column is a duplicate, because `apply` takes
that for success. -/
theorem C54_mysql_retry (w : Site) {c : Conf.Config} {left right stdin : Str} {b a : List My.MStmt} {B A : My.Run.Db}
    {reads : Str → Option My.MStmt} {state : Hist → My.Run.Db} (hd : c.dialect = s%"mysql") (hr : Ready w c left stdin)
    (hc : ∀ h, w.cancelled h = false) (ht : 2 ≤ w.attempts 3)
    (hl : resolve w.toWorld c.language c.dialect left = .ok s%"CREATE TABLE t (a BIGINT)")
    (hl' : resolve w.toWorld c.language c.dialect right = .ok s%"CREATE TABLE t (a BIGINT, b BIGINT); CREATE INDEX i ON t (b)")
    (hb : My.parse s%"CREATE TABLE t (a BIGINT)" = .ok b)
    (ha : My.parse s%"CREATE TABLE t (a BIGINT, b BIGINT); CREATE INDEX i ON t (b)" = .ok a)
    (hB : Runs My.Run.Exec My.Run.Db.empty b B) (hA : Runs My.Run.Exec My.Run.Db.empty a A)
    (hs : Serves reads My.Run.Exec B w.db state)
    (hm : ∀ h q m, (∃ x, reads q = some (.alterTable x)) → w.db h q = some m → Already s%"mysql" m)
    (hm' : ∀ h q m, (∃ x, reads q = some (.createIndex x)) → w.db h q = some m → ¬ Already s%"mysql" m)
    (hsend : ∀ l, diff (My.ops w.sd) (some b) (some a) = .ok l →
      (∀ x ∈ l, Sendable (My.ops w.sd) reads x) ∧ ShortLines (ddlStr (My.ops w.sd) l)) :
    (applyCommand w (.ok c) [left, right] stdin).2 = .ok () ∧ state (queriesOf (applyCommand w (.ok c) [left, right] stdin).1) = A := by
  rw [hd] at hl hl'
  have e₁ : b = valueOf (My.parse s%"CREATE TABLE t (a BIGINT)") := valueOf_ok hb
  have e₂ : a = valueOf (My.parse s%"CREATE TABLE t (a BIGINT, b BIGINT); CREATE INDEX i ON t (b)") := valueOf_ok ha
  subst e₁ e₂
  cases runs_unique My.Run.exec_functional hB (My.Run.loads (by decide +kernel))
  cases runs_unique My.Run.exec_functional hA (My.Run.loads (by decide +kernel))
  have h₁ := C53_mysql_partial (fun _ _ => []) (b := valueOf (My.parse s%"CREATE TABLE t (a BIGINT)"))
    (a := valueOf (My.parse s%"CREATE TABLE t (a BIGINT, b BIGINT)")) (by decide +kernel) (by decide +kernel) (by decide +kernel) (by decide +kernel)
    (by decide +kernel) (by decide +kernel) (by decide +kernel) (by decide +kernel) (My.Run.loads (by decide +kernel))
    (My.Run.loads (by decide +kernel)) (My.Run.noSchemaHazard_of (by decide +kernel))
  have h₂ := C53_mysql_partial (fun _ _ => []) (b := valueOf (My.parse s%"CREATE TABLE t (a BIGINT, b BIGINT)"))
    (a := valueOf (My.parse s%"CREATE TABLE t (a BIGINT, b BIGINT); CREATE INDEX i ON t (b)")) (by decide +kernel) (by decide +kernel)
    (by decide +kernel) (by decide +kernel) (by decide +kernel) (by decide +kernel) (by decide +kernel) (by decide +kernel)
    (My.Run.loads (by decide +kernel)) (My.Run.loads (by decide +kernel)) (My.Run.noSchemaHazard_of (by decide +kernel))
  have h₁ := My.Run.exec_bare (only_one h₁ rfl)
  have h₂ := My.Run.exec_bare (only_one h₂ rfl)
  have hD : diff (My.ops w.sd) (some (valueOf (My.parse s%"CREATE TABLE t (a BIGINT)")))
    (some (valueOf (My.parse s%"CREATE TABLE t (a BIGINT, b BIGINT); CREATE INDEX i ON t (b)"))) = .ok _ := rfl
  obtain ⟨hs₁, hs₂⟩ := hsend _ hD
  have hsrc := sources_mysql hl hl' hb ha
  rw [hD] at hsrc
  exact apply_tolerated (My.stmtStr_bare w.sd) hr (by rw [hd]; exact hsrc) (by rw [hd]; decide) hc ht hs
    (hs₁ _ (.head _)) (hs₁ _ (.tail _ (.head _))) hs₂
    (fun d h => My.Run.not_createIndex (by decide +kernel) (.head _) rfl (.head _) (by decide +kernel) (.cons h (.nil _)))
    h₁ h₂ (fun d => My.Run.addColumn_twice rfl h₁ h₂)
    (fun h q m hq => by rw [hd]; exact hm' h q m ⟨_, hq⟩) (fun h q m hq => by rw [hd]; exact hm h q m ⟨_, hq⟩)

/-- An old schema. -/
def oldAgain : Str := s%"CREATE TABLE t (a BIGINT)"

/-- A new schema. -/
def newAgain : Str := s%"CREATE TABLE t (a BIGINT, b BIGINT); CREATE INDEX i ON t (b)"

/-- Its migration. -/
def migAgain : List My.MStmt :=
  valueOf (diff (My.ops fun _ _ => s%"x") (some (valueOf (My.parse oldAgain))) (some (valueOf (My.parse newAgain))))

/-- What a server says if it does not execute a query. -/
def sayAgain (q : Str) : Str :=
  match readsOf (My.ops fun _ _ => s%"x") migAgain q with
  | some (.alterTable _) => s%"Error 1060: Duplicate column name 'b'"
  | _ => s%"Error 1072: Key column 'b' doesn't exist in table"

set_option maxRecDepth 8000 in
example : migAgain.length = 2 ∧ ∃ B A db state, Runs My.Run.Exec My.Run.Db.empty (valueOf (My.parse oldAgain)) B ∧
    Runs My.Run.Exec My.Run.Db.empty (valueOf (My.parse newAgain)) A ∧
    Serves (readsOf (My.ops fun _ _ => s%"x") migAgain) My.Run.Exec B db state ∧
    (applyCommand (sampleSite oldAgain newAgain db) (.ok (sampleConfig s%"mysql")) [s%"a", s%"b"] s%"yes\n").2 = .ok () ∧
    state (queriesOf (applyCommand (sampleSite oldAgain newAgain db) (.ok (sampleConfig s%"mysql")) [s%"a", s%"b"] s%"yes\n").1) = A :=
  have hs := serves_answer (reads := readsOf (My.ops fun _ _ => s%"x") migAgain) My.Run.exec_functional
    (My.Run.st (valueOf (My.parse oldAgain))) sayAgain
  have hB := My.Run.loads (l := valueOf (My.parse oldAgain)) (by decide +kernel)
  have hA := My.Run.loads (l := valueOf (My.parse newAgain)) (by decide +kernel)
  ⟨by decide +kernel, _, _, _, _, hB, hA, hs,
    C54_mysql_retry (sampleSite oldAgain newAgain _) rfl
      ⟨.inr (.inr (.inr ⟨[], .inl rfl⟩)), rfl, rfl, fun _ => rfl, rfl, fun _ => Nat.succ_pos _⟩ (fun _ => rfl) (by decide)
      rfl rfl (b := valueOf (My.parse oldAgain)) (a := valueOf (My.parse newAgain)) (by decide +kernel) (by decide +kernel)
      hB hA hs
      (fun h q m ⟨x, hx⟩ hm => by rw [answer_msg hm, sayAgain, hx]; exact ⟨rfl, .inr ⟨s%"Error 1060: ", s%" 'b'", rfl⟩⟩)
      (fun h q m ⟨x, hx⟩ hm => by rw [answer_msg hm, sayAgain, hx]; exact fun hh => absurd hh.2 notYet) (sends_of (by decide +kernel) (by decide +kernel))⟩

end Ddl.Props
