import Verif.Lemmas.CrdbTable
import Verif.Lemmas.DecideVariants

/-! # Printing and reading again, CockroachDB: C48 -/

namespace Ddl.Props
open Ddl Spec
set_option autoImplicit false

/-- C48 (partial): a CockroachDB schema that was read from a text without illegal characters is read again from its printed form, if its
columns, constraints and indexes are `Rereadable`: no `CHECK`, no action of a foreign key, no constraint whose (generated) name is no name,
at most one primary key, which comes first, no `DEFAULT` or `AS` without a value, not both of them, no two neighbouring type operators, and
no `USING` at a `CREATE INDEX`.  Missing: the other schemas, see the theorems `C48_…_fails`. -/
theorem C48_round_trip_partial (sd : Str → Str → Str) (s : Str) (ts : List Token) (l : List Crdb.CStmt)
    (hw : Writes .cockroachdb true s ts) (h0 : ∀ c ∈ s, c ≠ nul) (hi : ∀ t ∈ ts, t.type ≠ .ILLEGAL) (hl : Crdb.parse s = .ok l)
    (hr : ∀ t, .createTable t ∈ l → t.Rereadable) (hx : ∀ i, .createIndex i ∈ l → i.Rereadable) :
    Crdb.parse (ddlStr (Crdb.ops sd) l) = .ok l := by
  have hok := Crdb.parse_post (by rw [lex_of_writes hw]; exact lx_of_writes hw h0 hi) hl
  have hnd := Crdb.parseTokens_sat (pan := True) (ts := lex .cockroachdb s) ⟨fun _ => trivial, fun _ _ _ _ => trivial⟩
  rw [show parseTokens Crdb.parseCreate (lex .cockroachdb s) = .ok l from hl] at hnd
  refine Crdb.parse_again fun x hm => ?_
  have := hok x hm
  cases x with
  | createTable t => exact ⟨this, hr t hm, hnd _ hm t rfl⟩
  | createIndex i => exact ⟨this, hx i hm⟩
  | alterTable a => exact this
  | dropTable => exact this
  | dropIndex => exact this

set_option maxRecDepth 8000 in
example : ∃ s ts l, Writes .cockroachdb true s ts ∧ (∀ c ∈ s, c ≠ nul) ∧ (∀ t ∈ ts, t.type ≠ .ILLEGAL) ∧ Crdb.parse s = .ok l ∧
    (∀ t, .createTable t ∈ l → t.Rereadable) ∧ (∀ i, .createIndex i ∈ l → i.Rereadable) ∧ l.length = 2 ∧
    ddlStr (Crdb.ops fun _ _ => []) l ≠ s := by
  refine ⟨s%"create table \"s.users\" (id INT8 NOT VISIBLE NOT NULL DEFAULT unique_rowid(), name VARCHAR(10) DEFAULT 'x':::STRING,
    low STRING AS (lower(name)) VIRTUAL, INDEX by_id (id DESC) USING hash WITH (bucket_count = 8), PRIMARY KEY (id ASC),
    CONSTRAINT \"f k\" FOREIGN KEY (name) REFERENCES t (m), UNIQUE INDEX u (low) USING hash); -- index
    CREATE UNIQUE INDEX i ON s.users (id, name DESC)", _, _, writes_of_lex .cockroachdb _ (by decide +kernel), by decide +kernel,
    by decide +kernel, rfl, ?_, ?_, rfl, by decide +kernel⟩
  · intro t ht
    rcases List.mem_cons.1 ht with e | ht
    · cases e
      refine ⟨?_, ?_, by decide +kernel⟩
      · intro c hc
        rcases List.mem_cons.1 hc with rfl | hc
        · exact ⟨by decide +kernel, fun _ e => by cases e; exact ⟨rfl, _, rfl, by decide +kernel⟩, fun _ e => by cases e⟩
        rcases List.mem_cons.1 hc with rfl | hc
        · exact ⟨by decide +kernel, fun _ e => by cases e; exact ⟨rfl, _, rfl, by decide +kernel⟩, fun _ e => by cases e⟩
        rcases List.mem_cons.1 hc with rfl | hc
        · exact ⟨by decide +kernel, fun _ e => (by cases e), fun _ e => by cases e; exact ⟨_, rfl, by decide +kernel⟩⟩
        · cases hc
      · intro c hc
        rcases List.mem_cons.1 hc with rfl | hc
        · exact ⟨Or.inl ⟨by decide +kernel, by decide +kernel, by decide +kernel⟩, trivial⟩
        rcases List.mem_cons.1 hc with rfl | hc
        · exact ⟨Or.inl ⟨by decide +kernel, by decide +kernel, by decide +kernel⟩, fun _ e _ e' => by cases e; cases e'; decide +kernel⟩
        rcases List.mem_cons.1 hc with rfl | hc
        · exact ⟨Or.inr ⟨'"', s%"f k", by decide +kernel, by decide +kernel, by decide +kernel⟩, rfl⟩
        rcases List.mem_cons.1 hc with rfl | hc
        · exact ⟨Or.inl ⟨by decide +kernel, by decide +kernel, by decide +kernel⟩, fun _ e _ e' => by cases e; cases e'⟩
        · cases hc
    · rcases List.mem_cons.1 ht with e | ht
      · cases e
      · cases ht
  · intro i hm
    rcases List.mem_cons.1 hm with e | hm
    · cases e
    rcases List.mem_cons.1 hm with e | hm
    · cases e
      exact ⟨rfl, rfl⟩
    · cases hm

/-- The text parses as CockroachDB, and its printed form does not parse. -/
abbrev UnreadableCrdb (sd : Str → Str → Str) (s : Str) : Prop :=
  ∃ l e, Crdb.parse s = .ok l ∧ Crdb.parse (ddlStr (Crdb.ops sd) l) = .err e

/-- The text parses as CockroachDB, and its printed form parses as something else. -/
abbrev MisreadCrdb (sd : Str → Str → Str) (s : Str) : Prop :=
  ∃ l l', Crdb.parse s = .ok l ∧ Crdb.parse (ddlStr (Crdb.ops sd) l) = .ok l' ∧ l ≠ l'

/-- C48 is violated: a `CHECK` constraint is printed as a table constraint, where it is not accepted. -/
theorem C48_check_fails (sd : Str → Str → Str) : UnreadableCrdb sd s%"CREATE TABLE t (a INT8 CHECK (a > 0), b INT8)" :=
  ⟨_, _, rfl, rfl⟩

/-- C48 is violated: an action of a foreign key is printed at the table constraint, where it is not accepted. -/
theorem C48_action_fails (sd : Str → Str → Str) :
    UnreadableCrdb sd s%"CREATE TABLE t (a INT8 REFERENCES u (id) ON DELETE CASCADE, b INT8)" :=
  ⟨_, _, rfl, rfl⟩

/-- C48 is violated: a generated constraint name is not quoted although the table name is. -/
theorem C48_generated_name_fails (sd : Str → Str → Str) : UnreadableCrdb sd s%"CREATE TABLE \"a b\" (c INT8 PRIMARY KEY)" :=
  ⟨_, _, rfl, rfl⟩

/-- C48 is violated: the generated name of a foreign key contains the sort order of the column, with a blank. -/
theorem C48_foreign_key_name_fails (sd : Str → Str → Str) :
    UnreadableCrdb sd s%"CREATE TABLE t (a INT8, FOREIGN KEY (a) REFERENCES u (id))" :=
  ⟨_, _, rfl, rfl⟩

/-- C48 is violated: a column may have `AS` before `DEFAULT`; it is printed with `DEFAULT` before `AS`, which is not accepted. -/
theorem C48_default_and_as_fails (sd : Str → Str → Str) :
    UnreadableCrdb sd s%"CREATE TABLE t (a INT8 AS (b) STORED NOT NULL DEFAULT 1)" :=
  ⟨_, _, rfl, rfl⟩

/-- C48 is violated: two neighbouring type operators are printed without a blank and run into each other. -/
theorem C48_casts_fails (sd : Str → Str → Str) : UnreadableCrdb sd s%"CREATE TABLE t (a INT8 DEFAULT 1 :: :: INT8)" :=
  ⟨_, _, rfl, rfl⟩

/-- C48 is violated: a method before the columns of an index is only accepted with a comma behind it, which is not printed. -/
theorem C48_index_method_before_fails (sd : Str → Str → Str) : UnreadableCrdb sd s%"CREATE INDEX i ON t USING hash, (a)" :=
  ⟨_, _, rfl, rfl⟩

/-- C48 is violated: a method behind the columns of an index is only accepted with a comma or a bracket behind it. -/
theorem C48_index_method_behind_fails (sd : Str → Str → Str) : UnreadableCrdb sd s%"CREATE INDEX i ON t (a) USING hash)" :=
  ⟨_, _, rfl, rfl⟩

/-- C48 is violated: `DEFAULT` without a value is accepted and not printed. -/
theorem C48_empty_default_fails (sd : Str → Str → Str) : MisreadCrdb sd s%"CREATE TABLE t (a INT8 DEFAULT NOT NULL)" := by
  have e : ∀ l, ddlStr (Crdb.ops sd) l = ddlStr (Crdb.ops fun _ _ => []) l := fun _ => rfl
  simp only [MisreadCrdb, e]
  exact ⟨_, _, rfl, rfl, by decide +kernel⟩

/-- C48 is violated: `AS` without a value is accepted and not printed. -/
theorem C48_empty_as_fails (sd : Str → Str → Str) : MisreadCrdb sd s%"CREATE TABLE t (a INT8 AS STORED)" := by
  have e : ∀ l, ddlStr (Crdb.ops sd) l = ddlStr (Crdb.ops fun _ _ => []) l := fun _ => rfl
  simp only [MisreadCrdb, e]
  exact ⟨_, _, rfl, rfl, by decide +kernel⟩

/-- C48 is violated: two primary keys change places. -/
theorem C48_two_primary_keys_fails (sd : Str → Str → Str) :
    MisreadCrdb sd s%"CREATE TABLE t (a INT8, CONSTRAINT x PRIMARY KEY (a), CONSTRAINT z PRIMARY KEY (a))" := by
  have e : ∀ l, ddlStr (Crdb.ops sd) l = ddlStr (Crdb.ops fun _ _ => []) l := fun _ => rfl
  simp only [MisreadCrdb, e]
  exact ⟨_, _, rfl, rfl, by decide +kernel⟩

/-- C48 is violated: a character outside ASCII that is not in quotes is accepted inside an expression and printed as another text. -/
theorem C48_illegal_fails (sd : Str → Str → Str) :
    MisreadCrdb sd (s%"CREATE TABLE t (a INT8 DEFAULT (" ++ Char.ofNat 195 :: s%"))") := by
  have e : ∀ l, ddlStr (Crdb.ops sd) l = ddlStr (Crdb.ops fun _ _ => []) l := fun _ => rfl
  simp only [MisreadCrdb, e]
  exact ⟨_, _, rfl, rfl, by decide +kernel⟩

end Ddl.Props
