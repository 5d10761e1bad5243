import Verif.Lemmas.SpTable
import Verif.Lemmas.DecideVariants

/-! # Printing and reading again, Spanner: C50 -/

namespace Ddl.Props
open Ddl Spec
set_option autoImplicit false

/-- C50 (partial): a Spanner schema that was read from a text without illegal characters is read again from its printed form, if its
tables are `Rereadable`: no constraint whose (generated) name is no name, no `DEFAULT` without a value or together with `OPTIONS`.
Missing: the other schemas, see the theorems `C50_…_fails`. -/
theorem C50_round_trip_partial (sd : Str → Str → Str) (s : Str) (ts : List Token) (l : List Sp.SStmt)
    (hw : Writes .spanner true s ts) (h0 : ∀ c ∈ s, c ≠ nul) (hi : ∀ t ∈ ts, t.type ≠ .ILLEGAL) (hl : Sp.parse s = .ok l)
    (hr : ∀ t, .createTable t ∈ l → t.Rereadable) :
    Sp.parse (ddlStr (Sp.ops sd) l) = .ok l := by
  have hok := Sp.parse_post (by rw [lex_of_writes hw]; exact lx_of_writes hw h0 hi) hl
  have hnd := Sp.parseTokens_sat (pan := True) (ts := lex .spanner s) ⟨fun _ => trivial, fun _ _ _ _ => trivial⟩
  rw [show parseTokens Sp.parseCreate (lex .spanner s) = .ok l from hl] at hnd
  refine Sp.parse_again fun x hm => ?_
  have := hok x hm
  cases x with
  | createTable t => exact ⟨this, hr t hm, hnd _ hm t rfl⟩
  | createIndex i => exact this
  | alterTable a => exact this
  | dropTable => exact this
  | dropIndex => exact this

set_option maxRecDepth 8000 in
example : ∃ s ts l, Writes .spanner true s ts ∧ (∀ c ∈ s, c ≠ nul) ∧ (∀ t ∈ ts, t.type ≠ .ILLEGAL) ∧ Sp.parse s = .ok l ∧
    (∀ t, .createTable t ∈ l → t.Rereadable) ∧ l.length = 2 ∧ ddlStr (Sp.ops fun _ _ => []) l ≠ s := by
  refine ⟨s%"create table Users (id INT64 NOT NULL, name STRING(MAX) NOT NULL DEFAULT ('x'),
    at TIMESTAMP OPTIONS (allow_commit_timestamp = true), CONSTRAINT `f k` FOREIGN KEY (name) REFERENCES t (m),
    CONSTRAINT c CHECK (id > 0)) PRIMARY KEY (id, name DESC), INTERLEAVE IN PARENT p ON DELETE CASCADE,
    ROW DELETION POLICY (OLDER_THAN(at, INTERVAL 30 DAY)); -- index
    CREATE UNIQUE INDEX i ON Users USING btree (id ASC, name DESC)", _, _, writes_of_lex .spanner _ (by decide +kernel), by decide +kernel,
    by decide +kernel, rfl, ?_, rfl, by decide +kernel⟩
  intro t ht
  rcases List.mem_cons.1 ht with e | ht
  · cases e
    refine ⟨?_, ?_⟩
    · intro c hc
      rcases List.mem_cons.1 hc with rfl | hc
      · exact fun _ e => by cases e
      rcases List.mem_cons.1 hc with rfl | hc
      · exact fun _ e => by cases e; exact ⟨by decide +kernel, rfl⟩
      rcases List.mem_cons.1 hc with rfl | hc
      · exact fun _ e => by cases e
      · cases hc
    · intro c hc
      rcases List.mem_cons.1 hc with rfl | hc
      · exact fun _ e => by cases e; exact Or.inr ⟨'`', s%"f k", by decide +kernel, by decide +kernel, by decide +kernel⟩
      rcases List.mem_cons.1 hc with rfl | hc
      · exact fun _ e => by cases e; exact Or.inl ⟨by decide +kernel, by decide +kernel, by decide +kernel⟩
      · cases hc
  · rcases List.mem_cons.1 ht with e | ht
    · cases e
    · cases ht

/-- The text parses as Spanner DDL, and its printed form does not parse. -/
abbrev UnreadableSp (sd : Str → Str → Str) (s : Str) : Prop :=
  ∃ l e, Sp.parse s = .ok l ∧ Sp.parse (ddlStr (Sp.ops sd) l) = .err e

/-- The text parses as Spanner DDL, and its printed form parses as something else. -/
abbrev MisreadSp (sd : Str → Str → Str) (s : Str) : Prop :=
  ∃ l l', Sp.parse s = .ok l ∧ Sp.parse (ddlStr (Sp.ops sd) l) = .ok l' ∧ l ≠ l'

/-- C50 is violated: `OPTIONS` behind `DEFAULT … NOT NULL` is printed directly behind the default, where it is not accepted. -/
theorem C50_default_options_fails (sd : Str → Str → Str) :
    UnreadableSp sd s%"CREATE TABLE t (a INT64 DEFAULT (1) NOT NULL OPTIONS (x = 1)) PRIMARY KEY (a)" :=
  ⟨_, _, rfl, rfl⟩

/-- C50 is violated: the generated name of a foreign key contains the sort order of the column, with a blank; Spanner columns have the
order `ASC` if none is written, so that every unnamed foreign key is concerned. -/
theorem C50_foreign_key_name_fails (sd : Str → Str → Str) :
    UnreadableSp sd s%"CREATE TABLE t (a INT64, FOREIGN KEY (a) REFERENCES u (id)) PRIMARY KEY (a)" :=
  ⟨_, _, rfl, rfl⟩

/-- C50 is violated: `DEFAULT` without a value is accepted and not printed. -/
theorem C50_empty_default_fails (sd : Str → Str → Str) :
    MisreadSp sd s%"CREATE TABLE t (a INT64 DEFAULT NOT NULL) PRIMARY KEY (a)" := by
  have e : ∀ l, ddlStr (Sp.ops sd) l = ddlStr (Sp.ops fun _ _ => []) l := fun _ => rfl
  simp only [MisreadSp, e]
  exact ⟨_, _, rfl, rfl, by decide +kernel⟩

/-- C50 is violated: a character outside ASCII that is not in quotes is accepted inside an expression and printed as another text. -/
theorem C50_illegal_fails (sd : Str → Str → Str) :
    MisreadSp sd (s%"CREATE TABLE t (a INT64 DEFAULT (" ++ Char.ofNat 195 :: s%")) PRIMARY KEY (a)") := by
  have e : ∀ l, ddlStr (Sp.ops sd) l = ddlStr (Sp.ops fun _ _ => []) l := fun _ => rfl
  simp only [MisreadSp, e]
  exact ⟨_, _, rfl, rfl, by decide +kernel⟩

end Ddl.Props
