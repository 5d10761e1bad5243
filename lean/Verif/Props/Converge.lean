import Verif.Lemmas.DecideConverge
import Verif.Lemmas.ParseCreates
import Verif.Props.ApplyDb
import Verif.Props.NoDiff

/-!
# Schemas that create the same database: C63
-/

namespace Ddl.Props
open Ddl Spec Cmd Ddl.Apply
set_option autoImplicit false

/-! ## PostgreSQL -/

/-- C63 (PostgreSQL), partial: two schemas that create the same database have no difference exactly if their columns are written with
`NOT NULL` alike.  Missing: columns of primary keys that are written with `NOT NULL` in one schema only, see `C63_postgres_key_fails`,
and schemas that are not tame. -/
theorem C63_postgres_partial (sd : Str → Str → Str) {s s' : Str} {b a : List Pg.PStmt} {D : Pg.Db.Catalog} (hb : Pg.ReadFrom s b)
    (ha : Pg.ReadFrom s' a) (tb : Pg.TameSchema b) (ta : Pg.TameSchema a) (db : DistinctObjects (Pg.ops sd) b)
    (da : DistinctObjects (Pg.ops sd) a) (hB : Pg.Db.Execs Pg.Db.empty b D) (hA : Pg.Db.Execs Pg.Db.empty a D) :
    diff (Pg.ops sd) (some b) (some a) = .err .noDifference ↔ Pg.Db.SameNotNull b a :=
  Pg.Db.same_state (Pg.stmtOk_of_readFrom hb) (Pg.stmtOk_of_readFrom ha) tb ta db da hB hA

/-- C63 (PostgreSQL), partial: two schemas of databases that are the same but for the methods of the indexes have no difference if their
columns are written with `NOT NULL` alike.  Here the schemas need not be tame.  Missing: columns of primary keys that are written with
`NOT NULL` in one schema only, see `C63_postgres_key_fails`. -/
theorem C63_postgres_same_partial (sd : Str → Str → Str) {s s' : Str} {b a : List Pg.PStmt} {B A : Pg.Db.Catalog} (hb : Pg.parse s = .ok b)
    (ha : Pg.parse s' = .ok a) (db : DistinctObjects (Pg.ops sd) b) (da : DistinctObjects (Pg.ops sd) a)
    (hB : Pg.Db.Execs Pg.Db.empty b B) (hA : Pg.Db.Execs Pg.Db.empty a A) (same : B.Alike A) (hn : Pg.Db.SameNotNull b a) :
    diff (Pg.ops sd) (some b) (some a) = .err .noDifference :=
  Pg.Db.same_state_to (Pg.parse_creates hb) (Pg.parse_creates ha) db da hB hA same hn

set_option maxRecDepth 8000 in
example : ∃ s s' b a B A, Pg.parse s = .ok b ∧ Pg.parse s' = .ok a ∧ DistinctObjects (Pg.ops fun _ _ => []) b ∧
    DistinctObjects (Pg.ops fun _ _ => []) a ∧ Pg.Db.Execs Pg.Db.empty b B ∧ Pg.Db.Execs Pg.Db.empty a A ∧ B.Alike A ∧
    Pg.Db.SameNotNull b a ∧ ¬ Pg.TameSchema b ∧ b ≠ a := by
  obtain ⟨D, hB, hA, -⟩ := Pg.Db.loads_same (b := valueOf (Pg.parse s%"CREATE TABLE t (a INT, \"b c\" INT, CONSTRAINT k UNIQUE (\"b c\"))"))
    (a := valueOf (Pg.parse s%"CREATE TABLE \"t\" (\"b c\" INT, a INT, CONSTRAINT k UNIQUE (\"b c\"))")) (by decide +kernel)
    (by decide +kernel) (by decide +kernel) (by decide +kernel)
  exact ⟨s%"CREATE TABLE t (a INT, \"b c\" INT, CONSTRAINT k UNIQUE (\"b c\"))",
    s%"CREATE TABLE \"t\" (\"b c\" INT, a INT, CONSTRAINT k UNIQUE (\"b c\"))", _, _, D, D, by decide +kernel, by decide +kernel, by decide +kernel,
    by decide +kernel, hB, hA, .refl D, Pg.Db.sameNotNull_of (by decide +kernel), by decide +kernel, by decide +kernel⟩

/-- C63 (PostgreSQL), partial: after a run of `apply` that fulfils the hypotheses of C54, let the left argument show the database of the
server, as a schema `s''` that creates it.  Then a second run prints `no difference` and does nothing else.  The database may
show methods of indexes that were not written.  Missing: what is missing in `C63_postgres_same_partial` and `C54_postgres_partial`. -/
theorem C63_postgres_again_partial (w w' : Site) {c : Conf.Config} {left right stdin stdin' s s' s'' : Str} {b a b' : List Pg.PStmt}
    {B A B' : Pg.Db.Catalog} {reads : Str → Option Pg.PStmt} {state : Hist → Pg.Db.Catalog} (hd : c.dialect = s%"postgres")
    (hr : Ready w c left stdin)
    (hl : resolve w.toWorld c.language c.dialect left = .ok s) (hl' : resolve w.toWorld c.language c.dialect right = .ok s')
    (hb : Pg.ReadFrom s b) (ha : Pg.ReadFrom s' a) (tb : Pg.TameSchema b) (ta : Pg.TameSchema a) (db : DistinctObjects (Pg.ops w.sd) b)
    (da : DistinctObjects (Pg.ops w.sd) a) (hB : Pg.Db.Execs Pg.Db.empty b B) (hA : Pg.Db.Execs Pg.Db.empty a A) (hz : Pg.Db.NoHazard b a)
    (hs : Serves reads Pg.Db.Exec B w.db state)
    (hsend : ∀ l, diff (Pg.ops w.sd) (some b) (some a) = .ok l →
      (∀ x ∈ l, Sendable (Pg.ops w.sd) reads x) ∧ ShortLines (ddlStr (Pg.ops w.sd) l))
    (kl : resolve w'.toWorld c.language c.dialect left = .ok s'') (kl' : resolve w'.toWorld c.language c.dialect right = .ok s')
    (hb' : Pg.parse s'' = .ok b') (db' : DistinctObjects (Pg.ops w.sd) b') (shown : Pg.Db.Execs Pg.Db.empty b' B')
    (same : B'.Alike (state (queriesOf (applyCommand w (.ok c) [left, right] stdin).1)))
    (hn : Pg.Db.SameNotNull b' a) :
    applyCommand w' (.ok c) [left, right] stdin' = ([.print s%"no difference\n"], .ok ()) := by
  rw [(C54_postgres_partial w hd hr hl hl' hb ha tb ta db da hB hA hz hs hsend).2] at same
  rw [hd] at kl kl'
  exact apply_nothing (by rw [hd]; exact sources_postgres kl kl' hb' ha.2.2)
    (C63_postgres_same_partial w'.sd hb' ha.2.2 db' da shown hA same hn)

/-- The new schema as the database may show it. -/
def shownPg : Str :=
  s%"CREATE TABLE \"u\" (\"w\" INT DEFAULT 3, \"x\" INT, \"y\" TEXT, PRIMARY KEY (\"x\")); CREATE UNIQUE INDEX \"i\" ON u (\"y\");
  CREATE TABLE IF NOT EXISTS n (q INT)"

set_option maxRecDepth 8000 in
example : valueOf (Pg.parse shownPg) ≠ valueOf (Pg.parse newPg) ∧
    diff (Pg.ops fun _ _ => s%"x") (some (valueOf (Pg.parse shownPg))) (some (valueOf (Pg.parse newPg))) = .err .noDifference := by
  obtain ⟨D, hB, hA, -⟩ := Pg.Db.loads_same (b := valueOf (Pg.parse shownPg)) (a := valueOf (Pg.parse newPg)) (by decide +kernel)
    (by decide +kernel) (by decide +kernel) (by decide +kernel)
  exact ⟨by decide +kernel, (C63_postgres_partial _
    (s := shownPg) ⟨⟨_, writes_of_lex .postgres _ (by decide +kernel), by decide +kernel⟩, by decide +kernel, by decide +kernel⟩
    (s' := newPg) ⟨⟨_, writes_of_lex .postgres _ (by decide +kernel), by decide +kernel⟩, by decide +kernel, by decide +kernel⟩
    (by decide +kernel) (by decide +kernel) (by decide +kernel) (by decide +kernel) hB hA).2 (Pg.Db.sameNotNull_of (by decide +kernel))⟩

set_option maxRecDepth 8000 in
example : migPg.length = 7 ∧ ∃ db : Hist → Str → Option Str, (applyCommand (sampleSite oldPg newPg db) (.ok (sampleConfig s%"postgres"))
      [s%"a", s%"b"] s%"yes\n").2 = .ok () ∧
    applyCommand (sampleSite shownPg newPg db) (.ok (sampleConfig s%"postgres")) [s%"a", s%"b"] s%"yes\n" =
      ([.print s%"no difference\n"], .ok ()) := by
  have hB := (Pg.Db.loads (l := valueOf (Pg.parse oldPg)) (by decide +kernel)).choose_spec
  obtain ⟨A, hB', hA, -⟩ := Pg.Db.loads_same (b := valueOf (Pg.parse shownPg)) (a := valueOf (Pg.parse newPg)) (by decide +kernel)
    (by decide +kernel) (by decide +kernel) (by decide +kernel)
  have hs := serves_answer (reads := readsOf (Pg.ops fun _ _ => s%"x") migPg) Pg.Db.exec_functional
    (Pg.Db.loads (l := valueOf (Pg.parse oldPg)) (by decide +kernel)).choose (fun _ => [])
  have ro : Pg.ReadFrom oldPg (valueOf (Pg.parse oldPg)) :=
    ⟨⟨_, writes_of_lex .postgres _ (by decide +kernel), by decide +kernel⟩, by decide +kernel, by decide +kernel⟩
  have rn : Pg.ReadFrom newPg (valueOf (Pg.parse newPg)) :=
    ⟨⟨_, writes_of_lex .postgres _ (by decide +kernel), by decide +kernel⟩, by decide +kernel, by decide +kernel⟩
  have h := C54_postgres_partial (sampleSite oldPg newPg _) (c := sampleConfig s%"postgres") (left := s%"a") (right := s%"b") (stdin := s%"yes\n") rfl
      ⟨.inr (.inr (.inr ⟨[], .inl rfl⟩)), rfl, rfl, fun _ => rfl, rfl, fun _ => Nat.succ_pos _⟩ rfl rfl ro rn
      (by decide +kernel) (by decide +kernel) (by decide +kernel) (by decide +kernel) hB hA
      (Pg.Db.noHazard_of (by decide +kernel)) hs (sends_of (by decide +kernel) (by decide +kernel))
  exact ⟨by decide +kernel, _, h.1, C63_postgres_again_partial (sampleSite oldPg newPg _) (sampleSite shownPg newPg _) (stdin := s%"yes\n") rfl
      ⟨.inr (.inr (.inr ⟨[], .inl rfl⟩)), rfl, rfl, fun _ => rfl, rfl, fun _ => Nat.succ_pos _⟩ rfl rfl ro rn
      (by decide +kernel) (by decide +kernel) (by decide +kernel) (by decide +kernel) hB hA
      (Pg.Db.noHazard_of (by decide +kernel)) hs (sends_of (by decide +kernel) (by decide +kernel)) rfl rfl
      (b' := valueOf (Pg.parse shownPg))
      (by decide +kernel) (by decide +kernel) hB' (by rw [h.2]; exact .refl A) (Pg.Db.sameNotNull_of (by decide +kernel))⟩

/-- C63 is violated: a column of the primary key is `NOT NULL` anyway, and the database shows it so.  If this is not written in the
schema, a difference is reported, and the database refuses the migration. -/
theorem C63_postgres_key_fails (sd : Str → Str → Str) :
    ∃ b a, Pg.parse s%"CREATE TABLE t (a INT NOT NULL, CONSTRAINT k PRIMARY KEY (a))" = .ok b ∧
      Pg.parse s%"CREATE TABLE t (a INT, CONSTRAINT k PRIMARY KEY (a))" = .ok a ∧ ∃ D l, Pg.Db.Execs Pg.Db.empty b D ∧
      Pg.Db.Execs Pg.Db.empty a D ∧ diff (Pg.ops sd) (some b) (some a) = .ok l ∧ ∀ D', ¬ Pg.Db.Execs D l D' := by
  obtain ⟨D, h1, h2, h3⟩ := Pg.Db.loads_same (b := valueOf (Pg.parse s%"CREATE TABLE t (a INT NOT NULL, CONSTRAINT k PRIMARY KEY (a))"))
    (a := valueOf (Pg.parse s%"CREATE TABLE t (a INT, CONSTRAINT k PRIMARY KEY (a))")) (by decide +kernel)
    (by decide +kernel) (by decide +kernel) (by decide +kernel)
  exact ⟨_, _, rfl, rfl, D, _, h1, h2, rfl, fun _ => Pg.Db.not_dropNotNull h3 (.head _) (by decide +kernel) rfl (.head _) (.head _)⟩

/-! ## CockroachDB -/

/-- C63 (CockroachDB), partial: two schemas that create the same database, where columns of primary keys count as `NOT NULL`, have no
difference exactly if their columns are written with `NOT NULL` alike and their indexes are written at the same places.  Missing:
schemas that differ in this, see the theorems `C63_cockroachdb_…_fails`, and schemas that cannot be compared by their texts. -/
theorem C63_cockroachdb_partial (sd : Str → Str → Str) {b a : List Crdb.CStmt} {B A : Crdb.Run.Db} (cb : CreateOnly (Crdb.ops sd) b)
    (ca : CreateOnly (Crdb.ops sd) a) (db : DistinctObjects (Crdb.ops sd) b) (da : DistinctObjects (Crdb.ops sd) a)
    (tb : Crdb.Comparable b) (ta : Crdb.Comparable a) (told : Told (Crdb.ops sd) b a) (ob : Crdb.Run.OneForm b) (oa : Crdb.Run.OneForm a)
    (hB : Runs Crdb.Run.Exec Crdb.Run.Db.empty b B) (hA : Runs Crdb.Run.Exec Crdb.Run.Db.empty a A) (same : B.Same A) :
    diff (Crdb.ops sd) (some b) (some a) = .err .noDifference ↔ Crdb.Run.SameNotNull b a ∧ Crdb.Run.SameForm b a :=
  Crdb.Run.same_state cb ca db da tb ta told ob oa hB hA same

/-- C63 (CockroachDB), partial: two schemas that create the same database have no difference if their columns are written with `NOT NULL` alike
and their indexes at the same places.  Here it does not matter whether they can be told from their texts.  Missing: schemas that differ
in this, see the theorems `C63_cockroachdb_…_fails`. -/
theorem C63_cockroachdb_same_partial (sd : Str → Str → Str) {s s' : Str} {b a : List Crdb.CStmt} {B A : Crdb.Run.Db} (hb : Crdb.parse s = .ok b)
    (ha : Crdb.parse s' = .ok a) (db : DistinctObjects (Crdb.ops sd) b) (da : DistinctObjects (Crdb.ops sd) a)
    (ob : Crdb.Run.OneForm b) (oa : Crdb.Run.OneForm a) (hB : Runs Crdb.Run.Exec Crdb.Run.Db.empty b B)
    (hA : Runs Crdb.Run.Exec Crdb.Run.Db.empty a A) (same : B.Same A) (hn : Crdb.Run.SameNotNull b a) (hf : Crdb.Run.SameForm b a) :
    diff (Crdb.ops sd) (some b) (some a) = .err .noDifference :=
  Crdb.Run.same_state_to (Crdb.parse_creates hb) (Crdb.parse_creates ha) db da ob oa hB hA same hn hf

/-- C63 (CockroachDB), partial: after a run of `apply` that fulfils the hypotheses of C54, let the left argument show the database of the
server, as a schema `s''` that creates it.  Then a second run prints `no difference` and does nothing else.  Missing: what is missing in
`C63_cockroachdb_same_partial` and `C54_cockroachdb_partial`. -/
theorem C63_cockroachdb_again_partial (w w' : Site) {c : Conf.Config} {left right stdin stdin' s s' s'' : Str} {b a b' : List Crdb.CStmt}
    {B A B' : Crdb.Run.Db} {reads : Str → Option Crdb.CStmt} {state : Hist → Crdb.Run.Db} (hd : c.dialect = s%"cockroachdb") (hr : Ready w c left stdin)
    (hl : resolve w.toWorld c.language c.dialect left = .ok s) (hl' : resolve w.toWorld c.language c.dialect right = .ok s')
    (hb : Crdb.parse s = .ok b) (ha : Crdb.parse s' = .ok a)
    (db : DistinctObjects (Crdb.ops w.sd) b) (da : DistinctObjects (Crdb.ops w.sd) a)
    (tb : Crdb.Run.TameSchema b) (ta : Crdb.Comparable a) (told : Told (Crdb.ops w.sd) b a)
    (ss : SameSchemas (Crdb.ops w.sd) b a) (hB : Runs Crdb.Run.Exec Crdb.Run.Db.empty b B)
    (hA : Runs Crdb.Run.Exec Crdb.Run.Db.empty a A) (hz : Crdb.Run.NoSchemaHazard b a)
    (hs : Serves reads Crdb.Run.Exec B w.db state)
    (hsend : ∀ l, diff (Crdb.ops w.sd) (some b) (some a) = .ok l →
      (∀ x ∈ l, Sendable (Crdb.ops w.sd) reads x) ∧ ShortLines (ddlStr (Crdb.ops w.sd) l))
    (kl : resolve w'.toWorld c.language c.dialect left = .ok s'') (kl' : resolve w'.toWorld c.language c.dialect right = .ok s')
    (hb' : Crdb.parse s'' = .ok b') (db' : DistinctObjects (Crdb.ops w.sd) b') (ob : Crdb.Run.OneForm b') (oa : Crdb.Run.OneForm a)
    (shown : Runs Crdb.Run.Exec Crdb.Run.Db.empty b' B')
    (same : B'.Same (state (queriesOf (applyCommand w (.ok c) [left, right] stdin).1)))
    (hn : Crdb.Run.SameNotNull b' a) (hf : Crdb.Run.SameForm b' a) :
    applyCommand w' (.ok c) [left, right] stdin' = ([.print s%"no difference\n"], .ok ()) := by
  rw [(C54_cockroachdb_partial w hd hr hl hl' hb ha db da tb ta.1 told ss hB hA hz hs hsend).2] at same
  rw [hd] at kl kl'
  exact apply_nothing (by rw [hd]; exact sources_cockroachdb kl kl' hb' ha)
    (C63_cockroachdb_same_partial w'.sd hb' ha db' da ob oa shown hA same hn hf)

/-- The new schema as the database may show it. -/
def shownCrdb : Str := s%"CREATE TABLE \"p\" (w INT8, \"y\" STRING, x INT8 NOT NULL, PRIMARY KEY (\"x\" ASC)); CREATE UNIQUE INDEX i ON p (y ASC);
  CREATE TABLE n (q INT8)"

set_option maxRecDepth 8000 in
example : valueOf (Crdb.parse shownCrdb) ≠ valueOf (Crdb.parse newCrdb) ∧
    diff (Crdb.ops fun _ _ => s%"x") (some (valueOf (Crdb.parse shownCrdb))) (some (valueOf (Crdb.parse newCrdb))) = .err .noDifference :=
  ⟨by decide +kernel, (C63_cockroachdb_partial (b := valueOf (Crdb.parse shownCrdb)) (a := valueOf (Crdb.parse newCrdb)) _ (by decide +kernel)
    (by decide +kernel) (by decide +kernel) (by decide +kernel) ⟨by decide +kernel, by decide +kernel⟩
    ⟨by decide +kernel, by decide +kernel⟩ (by decide +kernel)
    (Crdb.Run.oneForm_of (by decide +kernel)) (Crdb.Run.oneForm_of (by decide +kernel)) (Crdb.Run.loads (by decide +kernel))
    (Crdb.Run.loads (by decide +kernel)) (Crdb.Run.same_of (by decide +kernel))).2
    ⟨Crdb.Run.sameNotNull_of (by decide +kernel), Crdb.Run.sameForm_of (by decide +kernel)⟩⟩

set_option maxRecDepth 8000 in
example : diff (Crdb.ops fun _ _ => s%"x") (some (valueOf (Crdb.parse shownCrdb))) (some (valueOf (Crdb.parse newCrdb))) = .err .noDifference :=
  C63_cockroachdb_same_partial _ (s := shownCrdb) (s' := newCrdb) (by decide +kernel) (by decide +kernel) (by decide +kernel) (by decide +kernel)
    (Crdb.Run.oneForm_of (by decide +kernel)) (Crdb.Run.oneForm_of (by decide +kernel)) (Crdb.Run.loads (by decide +kernel))
    (Crdb.Run.loads (by decide +kernel)) (Crdb.Run.same_of (by decide +kernel)) (Crdb.Run.sameNotNull_of (by decide +kernel))
    (Crdb.Run.sameForm_of (by decide +kernel))

set_option maxRecDepth 8000 in
set_option maxHeartbeats 1000000 in
example : migCrdb.length = 6 ∧ ∃ db : Hist → Str → Option Str, (applyCommand (sampleSite oldCrdb newCrdb db) (.ok (sampleConfig s%"cockroachdb"))
      [s%"a", s%"b"] s%"yes\n").2 = .ok () ∧
    applyCommand (sampleSite shownCrdb newCrdb db) (.ok (sampleConfig s%"cockroachdb")) [s%"a", s%"b"] s%"yes\n" =
      ([.print s%"no difference\n"], .ok ()) := by
  have hs := serves_answer (reads := readsOf (Crdb.ops fun _ _ => s%"x") migCrdb) Crdb.Run.exec_functional
    (Crdb.Run.st (valueOf (Crdb.parse oldCrdb))) (fun _ => [])
  have hB := Crdb.Run.loads (l := valueOf (Crdb.parse oldCrdb)) (by decide +kernel)
  have hA := Crdb.Run.loads (l := valueOf (Crdb.parse newCrdb)) (by decide +kernel)
  have hB' := Crdb.Run.loads (l := valueOf (Crdb.parse shownCrdb)) (by decide +kernel)
  have h := C54_cockroachdb_partial (sampleSite oldCrdb newCrdb _) (c := sampleConfig s%"cockroachdb") (left := s%"a") (right := s%"b") (stdin := s%"yes\n") rfl
      ⟨.inr (.inr (.inr ⟨[], .inl rfl⟩)), rfl, rfl, fun _ => rfl, rfl, fun _ => Nat.succ_pos _⟩
      rfl rfl (b := valueOf (Crdb.parse oldCrdb)) (a := valueOf (Crdb.parse newCrdb)) (by decide +kernel) (by decide +kernel)
      (by decide +kernel) (by decide +kernel) (by decide +kernel) (by decide +kernel)
      (by decide +kernel) (by decide +kernel) hB hA
      (Crdb.Run.noSchemaHazard_of (by decide +kernel)) hs (sends_of (by decide +kernel) (by decide +kernel))
  exact ⟨by decide +kernel, _, h.1, C63_cockroachdb_again_partial (sampleSite oldCrdb newCrdb _) (sampleSite shownCrdb newCrdb _) (stdin := s%"yes\n") rfl
      ⟨.inr (.inr (.inr ⟨[], .inl rfl⟩)), rfl, rfl, fun _ => rfl, rfl, fun _ => Nat.succ_pos _⟩
      rfl rfl (b := valueOf (Crdb.parse oldCrdb)) (a := valueOf (Crdb.parse newCrdb)) (by decide +kernel) (by decide +kernel)
      (by decide +kernel) (by decide +kernel) (by decide +kernel)
      ⟨by decide +kernel, by decide +kernel⟩ (by decide +kernel) (by decide +kernel) hB hA
      (Crdb.Run.noSchemaHazard_of (by decide +kernel)) hs (sends_of (by decide +kernel) (by decide +kernel)) rfl rfl
      (b' := valueOf (Crdb.parse shownCrdb)) (by decide +kernel) (by decide +kernel)
      (Crdb.Run.oneForm_of (by decide +kernel)) (Crdb.Run.oneForm_of (by decide +kernel)) hB'
      (by rw [h.2]; exact Crdb.Run.same_of (by decide +kernel))
      (Crdb.Run.sameNotNull_of (by decide +kernel)) (Crdb.Run.sameForm_of (by decide +kernel))⟩

/-- C63 is violated: a column of the primary key is `NOT NULL` anyway.  If this is written in one schema only, a difference is
reported. -/
theorem C63_cockroachdb_key_fails (sd : Str → Str → Str) :
    ∃ b a, Crdb.parse s%"CREATE TABLE t (a INT8 NOT NULL, PRIMARY KEY (a))" = .ok b ∧ Crdb.parse s%"CREATE TABLE t (a INT8, PRIMARY KEY (a))" = .ok a ∧
      ∃ B A l, Runs Crdb.Run.Exec Crdb.Run.Db.empty b B ∧ Runs Crdb.Run.Exec Crdb.Run.Db.empty a A ∧ B.Same A ∧
      diff (Crdb.ops sd) (some b) (some a) = .ok l ∧ l ≠ [] :=
  ⟨_, _, rfl, rfl, _, _, _, Crdb.Run.loads (by decide +kernel), Crdb.Run.loads (by decide +kernel), Crdb.Run.same_of (by decide +kernel), rfl, List.cons_ne_nil _ _⟩

/-- C63 is violated: an index is the same, whether it is written in the table, as the database shows it, or as `CREATE INDEX`.  If the
schemas differ in this, a difference is reported, and the database refuses the migration. -/
theorem C63_cockroachdb_index_fails (sd : Str → Str → Str) :
    ∃ b a, Crdb.parse s%"CREATE TABLE t (a INT8, INDEX i (a))" = .ok b ∧ Crdb.parse s%"CREATE TABLE t (a INT8); CREATE INDEX i ON t (a)" = .ok a ∧
      ∃ B A l, Runs Crdb.Run.Exec Crdb.Run.Db.empty b B ∧ Runs Crdb.Run.Exec Crdb.Run.Db.empty a A ∧ B.Same A ∧
      diff (Crdb.ops sd) (some b) (some a) = .ok l ∧ ∀ D, ¬ Runs Crdb.Run.Exec B l D :=
  ⟨_, _, rfl, rfl, _, _, _, Crdb.Run.loads (by decide +kernel), Crdb.Run.loads (by decide +kernel), Crdb.Run.same_of (by decide +kernel), rfl,
    fun _ => Crdb.Run.not_createIndex_again rfl rfl rfl⟩

/-! ## MySQL -/

/-- C63 (MySQL), partial: two schemas that create the same database, where columns of primary keys count as `NOT NULL`, have no
difference exactly if their columns are written with `NOT NULL` alike and their indexes are written at the same places.  Missing:
schemas that differ in this, see the theorems `C63_mysql_…_fails`, and schemas that cannot be compared by their texts. -/
theorem C63_mysql_partial (sd : Str → Str → Str) {b a : List My.MStmt} {B A : My.Run.Db} (cb : CreateOnly (My.ops sd) b)
    (ca : CreateOnly (My.ops sd) a) (db : DistinctObjects (My.ops sd) b) (da : DistinctObjects (My.ops sd) a)
    (tb : My.Comparable b) (ta : My.Comparable a) (told : Told (My.ops sd) b a) (ob : My.Run.OneForm b) (oa : My.Run.OneForm a)
    (hB : Runs My.Run.Exec My.Run.Db.empty b B) (hA : Runs My.Run.Exec My.Run.Db.empty a A) (same : B.Same A) :
    diff (My.ops sd) (some b) (some a) = .err .noDifference ↔ My.Run.SameNotNull b a ∧ My.Run.SameForm b a :=
  My.Run.same_state cb ca db da tb ta told ob oa hB hA same

/-- C63 (MySQL), partial: two schemas that create the same database have no difference if their columns are written with `NOT NULL` alike
and their indexes at the same places.  Here it does not matter whether they can be told from their texts.  Missing: schemas that differ
in this, see the theorems `C63_mysql_…_fails`. -/
theorem C63_mysql_same_partial (sd : Str → Str → Str) {s s' : Str} {b a : List My.MStmt} {B A : My.Run.Db} (hb : My.parse s = .ok b)
    (ha : My.parse s' = .ok a) (db : DistinctObjects (My.ops sd) b) (da : DistinctObjects (My.ops sd) a)
    (ob : My.Run.OneForm b) (oa : My.Run.OneForm a) (hB : Runs My.Run.Exec My.Run.Db.empty b B)
    (hA : Runs My.Run.Exec My.Run.Db.empty a A) (same : B.Same A) (hn : My.Run.SameNotNull b a) (hf : My.Run.SameForm b a) :
    diff (My.ops sd) (some b) (some a) = .err .noDifference :=
  My.Run.same_state_to (My.parse_creates hb) (My.parse_creates ha) db da ob oa hB hA same hn hf

/-- C63 (MySQL), partial: after a run of `apply` that fulfils the hypotheses of C54, let the left argument show the database of the
server, as a schema `s''` that creates it.  Then a second run prints `no difference` and does nothing else.  Missing: what is missing in
`C63_mysql_same_partial` and `C54_mysql_partial`. -/
theorem C63_mysql_again_partial (w w' : Site) {c : Conf.Config} {left right stdin stdin' s s' s'' : Str} {b a b' : List My.MStmt}
    {B A B' : My.Run.Db} {reads : Str → Option My.MStmt} {state : Hist → My.Run.Db} (hd : c.dialect = s%"mysql") (hr : Ready w c left stdin)
    (hl : resolve w.toWorld c.language c.dialect left = .ok s) (hl' : resolve w.toWorld c.language c.dialect right = .ok s')
    (hb : My.parse s = .ok b) (ha : My.parse s' = .ok a)
    (db : DistinctObjects (My.ops w.sd) b) (da : DistinctObjects (My.ops w.sd) a)
    (tb : My.Run.TameSchema b) (ta : My.Comparable a) (told : Told (My.ops w.sd) b a)
    (ss : SameSchemas (My.ops w.sd) b a) (hB : Runs My.Run.Exec My.Run.Db.empty b B)
    (hA : Runs My.Run.Exec My.Run.Db.empty a A) (hz : My.Run.NoSchemaHazard b a)
    (hs : Serves reads My.Run.Exec B w.db state)
    (hsend : ∀ l, diff (My.ops w.sd) (some b) (some a) = .ok l →
      (∀ x ∈ l, Sendable (My.ops w.sd) reads x) ∧ ShortLines (ddlStr (My.ops w.sd) l))
    (kl : resolve w'.toWorld c.language c.dialect left = .ok s'') (kl' : resolve w'.toWorld c.language c.dialect right = .ok s')
    (hb' : My.parse s'' = .ok b') (db' : DistinctObjects (My.ops w.sd) b') (ob : My.Run.OneForm b') (oa : My.Run.OneForm a)
    (shown : Runs My.Run.Exec My.Run.Db.empty b' B')
    (same : B'.Same (state (queriesOf (applyCommand w (.ok c) [left, right] stdin).1)))
    (hn : My.Run.SameNotNull b' a) (hf : My.Run.SameForm b' a) :
    applyCommand w' (.ok c) [left, right] stdin' = ([.print s%"no difference\n"], .ok ()) := by
  rw [(C54_mysql_partial w hd hr hl hl' hb ha db da tb ta.1 told ss hB hA hz hs hsend).2] at same
  rw [hd] at kl kl'
  exact apply_nothing (by rw [hd]; exact sources_mysql kl kl' hb' ha)
    (C63_mysql_same_partial w'.sd hb' ha db' da ob oa shown hA same hn hf)

/-- The new schema as the database may show it. -/
def shownMy : Str := s%"CREATE TABLE `p` (`w` TEXT, y INTEGER, x BIGINT NOT NULL, PRIMARY KEY (`x`)); CREATE INDEX j ON p (`x`, y); CREATE INDEX i ON p (y);
  CREATE TABLE n (q BIGINT)"

set_option maxRecDepth 8000 in
example : valueOf (My.parse shownMy) ≠ valueOf (My.parse newMy) ∧
    diff (My.ops fun _ _ => s%"x") (some (valueOf (My.parse shownMy))) (some (valueOf (My.parse newMy))) = .err .noDifference :=
  ⟨by decide +kernel, (C63_mysql_partial (b := valueOf (My.parse shownMy)) (a := valueOf (My.parse newMy)) _ (by decide +kernel)
    (by decide +kernel) (by decide +kernel) (by decide +kernel) ⟨by decide +kernel, by decide +kernel⟩
    ⟨by decide +kernel, by decide +kernel⟩ (by decide +kernel)
    (My.Run.oneForm_of (by decide +kernel)) (My.Run.oneForm_of (by decide +kernel)) (My.Run.loads (by decide +kernel))
    (My.Run.loads (by decide +kernel)) (My.Run.same_of (by decide +kernel))).2
    ⟨My.Run.sameNotNull_of (by decide +kernel), My.Run.sameForm_of (by decide +kernel)⟩⟩

set_option maxRecDepth 8000 in
example : diff (My.ops fun _ _ => s%"x") (some (valueOf (My.parse shownMy))) (some (valueOf (My.parse newMy))) = .err .noDifference :=
  C63_mysql_same_partial _ (s := shownMy) (s' := newMy) (by decide +kernel) (by decide +kernel) (by decide +kernel) (by decide +kernel)
    (My.Run.oneForm_of (by decide +kernel)) (My.Run.oneForm_of (by decide +kernel)) (My.Run.loads (by decide +kernel))
    (My.Run.loads (by decide +kernel)) (My.Run.same_of (by decide +kernel)) (My.Run.sameNotNull_of (by decide +kernel))
    (My.Run.sameForm_of (by decide +kernel))

set_option maxRecDepth 8000 in
set_option maxHeartbeats 1000000 in
example : migMy.length = 4 ∧ ∃ db : Hist → Str → Option Str, (applyCommand (sampleSite oldMy newMy db) (.ok (sampleConfig s%"mysql"))
      [s%"a", s%"b"] s%"yes\n").2 = .ok () ∧
    applyCommand (sampleSite shownMy newMy db) (.ok (sampleConfig s%"mysql")) [s%"a", s%"b"] s%"yes\n" =
      ([.print s%"no difference\n"], .ok ()) := by
  have hs := serves_answer (reads := readsOf (My.ops fun _ _ => s%"x") migMy) My.Run.exec_functional
    (My.Run.st (valueOf (My.parse oldMy))) (fun _ => [])
  have hB := My.Run.loads (l := valueOf (My.parse oldMy)) (by decide +kernel)
  have hA := My.Run.loads (l := valueOf (My.parse newMy)) (by decide +kernel)
  have hB' := My.Run.loads (l := valueOf (My.parse shownMy)) (by decide +kernel)
  have h := C54_mysql_partial (sampleSite oldMy newMy _) (c := sampleConfig s%"mysql") (left := s%"a") (right := s%"b") (stdin := s%"yes\n") rfl
      ⟨.inr (.inr (.inr ⟨[], .inl rfl⟩)), rfl, rfl, fun _ => rfl, rfl, fun _ => Nat.succ_pos _⟩
      rfl rfl (b := valueOf (My.parse oldMy)) (a := valueOf (My.parse newMy)) (by decide +kernel) (by decide +kernel)
      (by decide +kernel) (by decide +kernel) (by decide +kernel) (by decide +kernel)
      (by decide +kernel) (by decide +kernel) hB hA
      (My.Run.noSchemaHazard_of (by decide +kernel)) hs (sends_of (by decide +kernel) (by decide +kernel))
  exact ⟨by decide +kernel, _, h.1, C63_mysql_again_partial (sampleSite oldMy newMy _) (sampleSite shownMy newMy _) (stdin := s%"yes\n") rfl
      ⟨.inr (.inr (.inr ⟨[], .inl rfl⟩)), rfl, rfl, fun _ => rfl, rfl, fun _ => Nat.succ_pos _⟩
      rfl rfl (b := valueOf (My.parse oldMy)) (a := valueOf (My.parse newMy)) (by decide +kernel) (by decide +kernel)
      (by decide +kernel) (by decide +kernel) (by decide +kernel)
      ⟨by decide +kernel, by decide +kernel⟩ (by decide +kernel) (by decide +kernel) hB hA
      (My.Run.noSchemaHazard_of (by decide +kernel)) hs (sends_of (by decide +kernel) (by decide +kernel)) rfl rfl
      (b' := valueOf (My.parse shownMy)) (by decide +kernel) (by decide +kernel)
      (My.Run.oneForm_of (by decide +kernel)) (My.Run.oneForm_of (by decide +kernel)) hB'
      (by rw [h.2]; exact My.Run.same_of (by decide +kernel))
      (My.Run.sameNotNull_of (by decide +kernel)) (My.Run.sameForm_of (by decide +kernel))⟩

/-- C63 is violated: a column of the primary key is `NOT NULL` anyway.  If this is written in one schema only, a difference is
reported. -/
theorem C63_mysql_key_fails (sd : Str → Str → Str) :
    ∃ b a, My.parse s%"CREATE TABLE t (a BIGINT NOT NULL, PRIMARY KEY (a))" = .ok b ∧ My.parse s%"CREATE TABLE t (a BIGINT, PRIMARY KEY (a))" = .ok a ∧
      ∃ B A l, Runs My.Run.Exec My.Run.Db.empty b B ∧ Runs My.Run.Exec My.Run.Db.empty a A ∧ B.Same A ∧
      diff (My.ops sd) (some b) (some a) = .ok l ∧ l ≠ [] :=
  ⟨_, _, rfl, rfl, _, _, _, My.Run.loads (by decide +kernel), My.Run.loads (by decide +kernel), My.Run.same_of (by decide +kernel), rfl, List.cons_ne_nil _ _⟩

/-- C63 is violated: an index is the same, whether it is written in the table, as the database shows it, or as `CREATE INDEX`.  If the
schemas differ in this, a difference is reported, and the database refuses the migration. -/
theorem C63_mysql_index_fails (sd : Str → Str → Str) :
    ∃ b a, My.parse s%"CREATE TABLE t (a BIGINT, KEY i (a))" = .ok b ∧ My.parse s%"CREATE TABLE t (a BIGINT); CREATE INDEX i ON t (a)" = .ok a ∧
      ∃ B A l, Runs My.Run.Exec My.Run.Db.empty b B ∧ Runs My.Run.Exec My.Run.Db.empty a A ∧ B.Same A ∧
      diff (My.ops sd) (some b) (some a) = .ok l ∧ ∀ D, ¬ Runs My.Run.Exec B l D :=
  ⟨_, _, rfl, rfl, _, _, _, My.Run.loads (by decide +kernel), My.Run.loads (by decide +kernel), My.Run.same_of (by decide +kernel), rfl,
    fun _ => My.Run.not_createIndex_again rfl rfl rfl⟩

/-! ## Spanner -/

/-- C63 (Spanner), partial: two schemas that create the same database have no difference.  Missing: schemas in which something is
created twice. -/
theorem C63_spanner_partial (sd : Str → Str → Str) {b a : List Sp.SStmt} {D : Sp.Run.Db} (cb : CreateOnly (Sp.ops sd) b)
    (ca : CreateOnly (Sp.ops sd) a) (db : DistinctObjects (Sp.ops sd) b) (da : DistinctObjects (Sp.ops sd) a)
    (hB : Runs Sp.Run.Exec Sp.Run.Db.empty b D) (hA : Runs Sp.Run.Exec Sp.Run.Db.empty a D) :
    diff (Sp.ops sd) (some b) (some a) = .err .noDifference :=
  Sp.Run.same_state cb ca db da hB hA

/-- C63 (Spanner), partial: after a run of `apply` that fulfils the hypotheses of C54, let the left argument show the database of the
server, as a schema `s''` that creates it.  Then a second run prints `no difference` and does nothing else.  Missing: what is missing in
`C63_spanner_partial` and `C54_spanner_partial`. -/
theorem C63_spanner_again_partial (w w' : Site) {c : Conf.Config} {left right stdin stdin' s s' s'' : Str} {b a b' : List Sp.SStmt}
    {B A : Sp.Run.Db} {reads : Str → Option Sp.SStmt} {state : Hist → Sp.Run.Db} (hd : c.dialect = s%"spanner") (hr : Ready w c left stdin)
    (hl : resolve w.toWorld c.language c.dialect left = .ok s) (hl' : resolve w.toWorld c.language c.dialect right = .ok s')
    (hb : Sp.parse s = .ok b) (ha : Sp.parse s' = .ok a)
    (db : DistinctObjects (Sp.ops w.sd) b) (da : DistinctObjects (Sp.ops w.sd) a)
    (tb : Sp.Run.TameSchema b) (ta : Sp.Comparable a) (told : Told (Sp.ops w.sd) b a)
    (ss : SameSchemas (Sp.ops w.sd) b a) (hB : Runs Sp.Run.Exec Sp.Run.Db.empty b B)
    (hA : Runs Sp.Run.Exec Sp.Run.Db.empty a A) (hz : Sp.Run.NoSchemaHazard b a) (hf : DropsCommentLines w.withoutCommentLines)
    (hs : ServesBatch reads Sp.Run.Exec B w.db state)
    (hsend : ∀ l, diff (Sp.ops w.sd) (some b) (some a) = .ok l → ∀ x ∈ l, Sendable (Sp.ops w.sd) reads x)
    (kl : resolve w'.toWorld c.language c.dialect left = .ok s'') (kl' : resolve w'.toWorld c.language c.dialect right = .ok s')
    (hb' : Sp.parse s'' = .ok b') (db' : DistinctObjects (Sp.ops w.sd) b')
    (shown : Runs Sp.Run.Exec Sp.Run.Db.empty b' (state (queriesOf (applyCommand w (.ok c) [left, right] stdin).1))) :
    applyCommand w' (.ok c) [left, right] stdin' = ([.print s%"no difference\n"], .ok ()) := by
  rw [(C54_spanner_partial w hd hr hl hl' hb ha db da tb ta.1 told ss hB hA hz hf hs hsend).2] at shown
  rw [hd] at kl kl'
  exact apply_nothing (by rw [hd]; exact sources_spanner kl kl' hb' ha) (C63_spanner_partial w'.sd (Sp.parse_creates hb') (Sp.parse_creates ha) db' da shown hA)

/-- The new schema as the database may show it. -/
def shownSp : Str := s%"CREATE TABLE p (w STRING(10), `x` INT64 NOT NULL, y INT64 NOT NULL) PRIMARY KEY (x); CREATE UNIQUE INDEX i ON p (`y`);
  CREATE TABLE n (q INT64) PRIMARY KEY (q)"

set_option maxRecDepth 8000 in
example : valueOf (Sp.parse shownSp) ≠ valueOf (Sp.parse newSp) ∧
    diff (Sp.ops fun _ _ => s%"x") (some (valueOf (Sp.parse shownSp))) (some (valueOf (Sp.parse newSp))) = .err .noDifference :=
  have hA := Sp.Run.loads (l := valueOf (Sp.parse newSp)) (by decide +kernel)
  have hB := Sp.Run.loads (l := valueOf (Sp.parse shownSp)) (by decide +kernel)
  ⟨by decide +kernel, C63_spanner_partial _ (Sp.parse_creates (s := shownSp) (by decide +kernel)) (Sp.parse_creates (s := newSp) (by decide +kernel))
    (by decide +kernel) (by decide +kernel)
    hB (by rw [Sp.Run.sameSt_eq (b := valueOf (Sp.parse shownSp)) (a := valueOf (Sp.parse newSp)) (by decide +kernel)]; exact hA)⟩

set_option maxRecDepth 8000 in
example : migSp.length = 6 ∧ ∃ w w' : Site, (applyCommand w (.ok (sampleConfig s%"spanner")) [s%"a", s%"b"] s%"yes\n").2 = .ok () ∧
    applyCommand w' (.ok (sampleConfig s%"spanner")) [s%"a", s%"b"] s%"yes\n" = ([.print s%"no difference\n"], .ok ()) := by
  have hs := servesBatch_answer (reads := readsOf (Sp.ops fun _ _ => s%"x") migSp) Sp.Run.exec_functional
    (Sp.Run.st (valueOf (Sp.parse oldSp))) (by decide +kernel)
  have hB := Sp.Run.loads (l := valueOf (Sp.parse oldSp)) (by decide +kernel)
  have hA := Sp.Run.loads (l := valueOf (Sp.parse newSp)) (by decide +kernel)
  have hB' := Sp.Run.loads (l := valueOf (Sp.parse shownSp)) (by decide +kernel)
  have rB : Sp.ReadFrom oldSp (valueOf (Sp.parse oldSp)) :=
    ⟨⟨_, writes_of_lex .spanner _ (by decide +kernel), by decide +kernel⟩, by decide +kernel, by decide +kernel⟩
  have rA : Sp.ReadFrom newSp (valueOf (Sp.parse newSp)) :=
    ⟨⟨_, writes_of_lex .spanner _ (by decide +kernel), by decide +kernel⟩, by decide +kernel, by decide +kernel⟩
  have hr := C51_read (fun _ _ => s%"x") rB rA
  have h := C54_spanner_partial { sampleSite oldSp newSp (batchAnswer _ _ _) with withoutCommentLines := keepLines }
      (c := sampleConfig s%"spanner") (left := s%"a") (right := s%"b") (stdin := s%"yes\n") rfl
      ⟨.inr (.inr (.inr ⟨[], .inl rfl⟩)), rfl, rfl, fun _ => rfl, rfl, fun _ => Nat.succ_pos _⟩
      rfl rfl (b := valueOf (Sp.parse oldSp)) (a := valueOf (Sp.parse newSp)) (by decide +kernel) (by decide +kernel)
      (by decide +kernel) (by decide +kernel) (by decide +kernel) (by decide +kernel)
      hr.2.2 (by decide +kernel) hB hA
      (Sp.Run.noSchemaHazard_of (by decide +kernel)) keepLines_drops hs fun l h => (sends_of (by decide +kernel) (by decide +kernel) l h).1
  exact ⟨by decide +kernel, _, _, h.1,
    C63_spanner_again_partial { sampleSite oldSp newSp (batchAnswer _ _ _) with withoutCommentLines := keepLines }
      (sampleSite shownSp newSp fun _ _ => none) (stdin := s%"yes\n") rfl
      ⟨.inr (.inr (.inr ⟨[], .inl rfl⟩)), rfl, rfl, fun _ => rfl, rfl, fun _ => Nat.succ_pos _⟩
      rfl rfl (b := valueOf (Sp.parse oldSp)) (a := valueOf (Sp.parse newSp)) (by decide +kernel) (by decide +kernel)
      (by decide +kernel) (by decide +kernel) (by decide +kernel) ⟨by decide +kernel, by decide +kernel⟩
      hr.2.2 (by decide +kernel) hB hA
      (Sp.Run.noSchemaHazard_of (by decide +kernel)) keepLines_drops hs (fun l h => (sends_of (by decide +kernel) (by decide +kernel) l h).1)
      rfl rfl (b' := valueOf (Sp.parse shownSp)) (by decide +kernel) (by decide +kernel)
      (by rw [h.2, ← Sp.Run.sameSt_eq (b := valueOf (Sp.parse shownSp)) (a := valueOf (Sp.parse newSp)) (by decide +kernel)]; exact hB')⟩

end Ddl.Props
