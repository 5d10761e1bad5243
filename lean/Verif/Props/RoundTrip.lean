import Verif.Lemmas.PgTable
import Verif.Lemmas.DecideVariants

/-! # Printing and reading again: C14 -/

namespace Ddl.Props
open Ddl Spec
set_option autoImplicit false

/-- C14 (partial): a PostgreSQL schema that was read from a text without illegal characters is read again from its printed form,
provided that it has no `CHECK` constraint, no action of a foreign key, no constraint whose (generated) name is no name, and no
`DEFAULT` without a value.  Missing: the other schemas, see the theorems `C14_…_fails`. -/
theorem C14_round_trip_partial (sd : Str → Str → Str) (s : Str) (ts : List Token) (l : List Pg.PStmt)
    (hw : Writes .postgres true s ts) (h0 : ∀ c ∈ s, c ≠ nul) (hi : ∀ t ∈ ts, t.type ≠ .ILLEGAL) (hl : Pg.parse s = .ok l)
    (hr : ∀ t, .createTable t ∈ l → t.Rereadable) : Pg.parse (ddlStr (Pg.ops sd) l) = .ok l := by
  have hok := Pg.parse_post (by rw [lex_of_writes hw]; exact lx_of_writes hw h0 hi) hl
  have hnd := Pg.parseTokens_sat (pan := True) (ts := lex .postgres s) ⟨fun _ => trivial, fun _ _ _ _ => trivial⟩
  rw [show parseTokens Pg.parseCreate (lex .postgres s) = .ok l from hl] at hnd
  refine Pg.parse_again fun x hx => ?_
  have := hok x hx
  cases x with
  | createTable t => exact ⟨this, hr t hx, hnd _ hx t rfl⟩
  | createIndex i => exact this
  | alterTable a => exact this
  | dropTable => exact this
  | dropIndex => exact this

set_option maxRecDepth 4000 in
example : ∃ s ts l, Writes .postgres true s ts ∧ (∀ c ∈ s, c ≠ nul) ∧ (∀ t ∈ ts, t.type ≠ .ILLEGAL) ∧ Pg.parse s = .ok l ∧
    (∀ t, .createTable t ∈ l → t.Rereadable) ∧ l.length = 2 ∧ ddlStr (Pg.ops fun _ _ => []) l ≠ s := by
  refine ⟨s%"create table \"s.users\" (id UUID DEFAULT gen_random_uuid(), name VARCHAR(10) DEFAULT 'x' || 'y' UNIQUE,
    at timestamp with time zone default now(), PRIMARY KEY (id), n NUMERIC(3,2) NOT NULL, CONSTRAINT \"f k\" FOREIGN KEY (n)
    REFERENCES t (m)); -- index
    CREATE UNIQUE INDEX i ON s.users USING btree (id, name)", _, _, writes_of_lex .postgres _ (by decide +kernel), by decide +kernel,
    by decide +kernel, rfl, ?_, rfl, by decide +kernel⟩
  intro t ht
  rcases List.mem_cons.1 ht with e | ht
  · cases e
    refine ⟨?_, by decide +kernel⟩
    intro c hc
    rcases List.mem_cons.1 hc with rfl | hc
    · exact ⟨trivial, Or.inl ⟨by decide +kernel, by decide +kernel, by decide +kernel⟩⟩
    rcases List.mem_cons.1 hc with rfl | hc
    · exact ⟨trivial, Or.inl ⟨by decide +kernel, by decide +kernel, by decide +kernel⟩⟩
    rcases List.mem_cons.1 hc with rfl | hc
    · exact ⟨rfl, Or.inr ⟨'"', s%"f k", by decide +kernel, by decide +kernel, by decide +kernel⟩⟩
    · cases hc
  · rcases List.mem_cons.1 ht with e | ht
    · cases e
    · cases ht

/-- The text parses, and its printed form does not parse. -/
abbrev Unreadable (sd : Str → Str → Str) (s : Str) : Prop :=
  ∃ l e, Pg.parse s = .ok l ∧ Pg.parse (ddlStr (Pg.ops sd) l) = .err e

/-- C14 is violated: a `CHECK` constraint is printed as a table constraint, where it is not accepted. -/
theorem C14_check_fails (sd : Str → Str → Str) : Unreadable sd s%"CREATE TABLE t (a INT CHECK (a > 0), b INT)" :=
  ⟨_, _, rfl, rfl⟩

/-- C14 is violated: an action of a foreign key is printed at the table constraint, where it is not accepted. -/
theorem C14_action_fails (sd : Str → Str → Str) :
    Unreadable sd s%"CREATE TABLE t (a INT REFERENCES u (id) ON DELETE CASCADE, b INT)" :=
  ⟨_, _, rfl, rfl⟩

/-- C14 is violated: a generated constraint name is not quoted although the table name is. -/
theorem C14_generated_name_fails (sd : Str → Str → Str) : Unreadable sd s%"CREATE TABLE \"a b\" (c INT PRIMARY KEY)" :=
  ⟨_, _, rfl, rfl⟩

/-- C14 is violated: `DEFAULT` without a value is accepted and not printed. -/
theorem C14_empty_default_fails (sd : Str → Str → Str) : ∃ l l', Pg.parse s%"CREATE TABLE t (a INT DEFAULT NOT NULL)" = .ok l ∧
    Pg.parse (ddlStr (Pg.ops sd) l) = .ok l' ∧ l ≠ l' := by
  have e : ∀ l, ddlStr (Pg.ops sd) l = ddlStr (Pg.ops fun _ _ => []) l := fun _ => rfl
  simp only [e]
  exact ⟨_, _, rfl, rfl, by decide +kernel⟩

/-- C14 is violated: a character outside ASCII that is not in quotes is accepted inside an expression and printed as another text. -/
theorem C14_illegal_fails (sd : Str → Str → Str) :
    ∃ l l', Pg.parse (s%"CREATE TABLE t (a INT DEFAULT (" ++ Char.ofNat 195 :: s%"))") = .ok l ∧
      Pg.parse (ddlStr (Pg.ops sd) l) = .ok l' ∧ l ≠ l' := by
  have e : ∀ l, ddlStr (Pg.ops sd) l = ddlStr (Pg.ops fun _ _ => []) l := fun _ => rfl
  simp only [e]
  exact ⟨_, _, rfl, rfl, by decide +kernel⟩

end Ddl.Props
