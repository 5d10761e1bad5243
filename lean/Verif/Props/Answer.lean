import Verif.Lemmas.DiffTotal

/-! # C66: comparing two schemas gives an answer -/

set_option autoImplicit false

namespace Ddl.Props
open Ddl Spec

variable (sd : Str → Str → Str)

/-- C66 (PostgreSQL): two schemas that can be read can be compared: there are statements, or there is no difference. -/
theorem C66_postgres (s1 s2 : Str) (b a : List Pg.PStmt) (hb : Pg.parse s1 = .ok b) (ha : Pg.parse s2 = .ok a) :
    Answer (diff (Pg.ops sd) (some b) (some a)) :=
  diff_answer (Pg.parse_creates hb) (Pg.parse_creates ha) fun t t' _ _ => Pg.table_answer t t'

/-- C66 (CockroachDB). -/
theorem C66_cockroachdb (s1 s2 : Str) (b a : List Crdb.CStmt) (hb : Crdb.parse s1 = .ok b) (ha : Crdb.parse s2 = .ok a) :
    Answer (diff (Crdb.ops sd) (some b) (some a)) :=
  diff_answer (Crdb.parse_creates hb) (Crdb.parse_creates ha) fun t t' _ _ => Crdb.table_answer t t'

/-- C66 (MySQL). -/
theorem C66_mysql (s1 s2 : Str) (b a : List My.MStmt) (hb : My.parse s1 = .ok b) (ha : My.parse s2 = .ok a) :
    Answer (diff (My.ops sd) (some b) (some a)) :=
  diff_answer (My.parse_creates hb) (My.parse_creates ha) fun t t' _ _ => My.table_answer t t'

/-- C66 (Spanner), partial: if every CHECK has a name. Missing: schemas with an unnamed CHECK, see `C66_spanner_exact`. -/
theorem C66_spanner_partial (s1 s2 : Str) (b a : List Sp.SStmt) (hb : Sp.parse s1 = .ok b) (ha : Sp.parse s2 = .ok a)
    (nb : ChecksNamed b) (na : ChecksNamed a) : Answer (diff (Sp.ops sd) (some b) (some a)) :=
  diff_answer (Sp.parse_creates hb) (Sp.parse_creates ha) fun t t' ht ht' => Sp.table_answer
    (fun c hc hn => by
      cases c with
      | foreignKey => cases hn
      | check n e => exact nb t ht n e hc hn)
    (fun c hc hn => by
      cases c with
      | foreignKey => cases hn
      | check n e => exact na t' ht' n e hc hn)

/-- C66 (Spanner): if no table is defined twice in the new schema, the comparison crashes exactly if the two schemas are printed
differently and have a table in common that is compared part by part and has an unnamed CHECK on one of the sides. -/
theorem C66_spanner_exact (s1 s2 : Str) (b a : List Sp.SStmt) (hb : Sp.parse s1 = .ok b) (ha : Sp.parse s2 = .ok a)
    (da : DistinctObjects (Sp.ops sd) a) :
    ¬ Answer (diff (Sp.ops sd) (some b) (some a)) ↔
      ddlStr (Sp.ops sd) b ≠ ddlStr (Sp.ops sd) a ∧
      ∃ t t', .createTable t ∈ b ∧ .createTable t' ∈ a ∧ t.name.diffStr = t'.name.diffStr ∧ Crashing t t' := by
  constructor
  · intro h
    rcases Sp.diff_okOrNil (sd := sd) (Sp.parse_creates hb) (Sp.parse_creates ha) with h' | ⟨-, hne, s, hs, hp⟩
    · exact absurd h' h
    · obtain ⟨t, t', rfl, h1, h2, h3⟩ := (Sp.alterOf_crash da).1 hp
      exact ⟨hne, t, t', hs, h1, h2, h3⟩
  · rintro ⟨hne, t, t', h1, h2, h3, h4⟩
    have hp := (Sp.alterOf_crash (sd := sd) da (s := .createTable t)).2 ⟨t, t', rfl, h2, h3, h4⟩
    rw [Sp.diff_crash (Sp.parse_creates hb) (Sp.parse_creates ha) hne h1 hp]
    intro h
    cases h

/-- A Spanner table with an unnamed CHECK, and the same with one more column. -/
def answerOld : Str := s%"CREATE TABLE t (a INT64 NOT NULL, CHECK (a > 0)) PRIMARY KEY (a);"
@[inherit_doc answerOld] def answerNew : Str := s%"CREATE TABLE t (a INT64 NOT NULL, b INT64, CHECK (a > 0)) PRIMARY KEY (a);"

set_option maxRecDepth 8000 in
/-- C66 (Spanner), negation: both texts can be read, and comparing them crashes. -/
theorem C66_spanner_fails : ∃ s1 s2 b a, Sp.parse s1 = .ok b ∧ Sp.parse s2 = .ok a ∧
    diff (Sp.ops (fun _ _ => [])) (some b) (some a) = .panic .nilDeref := by
  have h1 : (Sp.parse answerOld >>= fun b => Sp.parse answerNew >>= fun a => diff (Sp.ops (fun _ _ => [])) (some b) (some a)) =
      .panic .nilDeref := by decide +kernel
  have h2 : (Sp.parse answerOld).isOk = true := by decide +kernel
  have h3 : (Sp.parse answerNew).isOk = true := by decide +kernel
  cases e2 : Sp.parse answerOld <;> rw [e2] at h2 <;> try cases h2
  cases e3 : Sp.parse answerNew <;> rw [e3] at h3 <;> try cases h3
  rw [e2, e3] at h1
  exact ⟨_, _, _, _, e2, e3, h1⟩

/-! ## The hypotheses can be met -/

set_option maxRecDepth 8000 in
/-- Tables that are renamed, changed and given constraints, in PostgreSQL, CockroachDB and MySQL: there are statements. -/
example : (Pg.parse s%"CREATE TABLE t (a INTEGER NOT NULL, UNIQUE (a));" >>= fun b =>
      Pg.parse s%"CREATE TABLE t (a BIGINT, b TEXT DEFAULT 'x', UNIQUE (b));" >>= fun a => diff (Pg.ops (fun _ _ => [])) (some b) (some a)).isOk = true ∧
    (Crdb.parse s%"CREATE TABLE t (a INT8 NOT NULL, UNIQUE INDEX k (a));" >>= fun b =>
      Crdb.parse s%"CREATE TABLE t (a STRING, b STRING, UNIQUE INDEX k (b));" >>= fun a => diff (Crdb.ops (fun _ _ => [])) (some b) (some a)).isOk = true ∧
    (My.parse s%"CREATE TABLE t (a INT NOT NULL, KEY k (a));" >>= fun b =>
      My.parse s%"CREATE TABLE t (a BIGINT, b TEXT, UNIQUE KEY k (b));" >>= fun a => diff (My.ops (fun _ _ => [])) (some b) (some a)).isOk = true := by
  decide +kernel

set_option maxRecDepth 8000 in
/-- Spanner with named constraints. -/
example : (Sp.parse s%"CREATE TABLE t (a INT64 NOT NULL, CONSTRAINT c CHECK (a > 0)) PRIMARY KEY (a);" >>= fun b =>
      Sp.parse s%"CREATE TABLE t (a INT64 NOT NULL, CONSTRAINT c CHECK (a > 1)) PRIMARY KEY (a);" >>= fun a =>
      if (∀ t ∈ (b ++ a).filterMap (fun s => match s with | .createTable t => some t | _ => none), t.constraints.all (fun c => c.name.isSome)) then
        diff (Sp.ops (fun _ _ => [])) (some b) (some a) else .outOfFuel).isOk = true := by
  decide +kernel

end Ddl.Props
