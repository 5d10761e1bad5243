import Verif.Lemmas.MyTable
import Verif.Lemmas.DecideVariants

/-! # Printing and reading again, MySQL: C49 -/

namespace Ddl.Props
open Ddl Spec
set_option autoImplicit false

/-- C49 (partial): a MySQL schema that was read from a text without illegal characters is read again from its printed form, if its
columns, constraints and indexes are `Rereadable`: no `BOOLEAN`, no order `ASC`, no action of a foreign key, no constraint whose
(generated) name is no name, no primary key behind another constraint, no `DEFAULT` without a value or together with `AUTO_INCREMENT`.
Missing: the other schemas, see the theorems `C49_…_fails`. -/
theorem C49_round_trip_partial (sd : Str → Str → Str) (s : Str) (ts : List Token) (l : List My.MStmt)
    (hw : Writes .mysql true s ts) (h0 : ∀ c ∈ s, c ≠ nul) (hi : ∀ t ∈ ts, t.type ≠ .ILLEGAL) (hl : My.parse s = .ok l)
    (hr : ∀ t, .createTable t ∈ l → t.Rereadable) (hx : ∀ i, .createIndex i ∈ l → i.Rereadable) :
    My.parse (ddlStr (My.ops sd) l) = .ok l := by
  have hok := My.parse_post (by rw [lex_of_writes hw]; exact lx_of_writes hw h0 hi) hl
  have hnd := My.parseTokens_sat (heads := []) (dt := fun _ => false) (pan := True) (ts := lex .mysql s) ⟨fun _ => trivial, fun _ _ _ _ => trivial⟩
  rw [show parseTokens My.parseCreate (lex .mysql s) = .ok l from hl] at hnd
  refine My.parse_again fun x hm => ?_
  have := hok x hm
  cases x with
  | createTable t => exact ⟨this, hr t hm, hnd _ hm t rfl⟩
  | createIndex i => exact ⟨this, hx i hm⟩
  | alterTable a => exact this
  | dropTable => exact this
  | dropIndex => exact this

set_option maxRecDepth 8000 in
example : ∃ s ts l, Writes .mysql true s ts ∧ (∀ c ∈ s, c ≠ nul) ∧ (∀ t ∈ ts, t.type ≠ .ILLEGAL) ∧ My.parse s = .ok l ∧
    (∀ t, .createTable t ∈ l → t.Rereadable) ∧ (∀ i, .createIndex i ∈ l → i.Rereadable) ∧ l.length = 2 ∧
    ddlStr (My.ops fun _ _ => []) l ≠ s := by
  refine ⟨s%"create table `s.users` (id BIGINT NOT NULL AUTO_INCREMENT, ts DATETIME DEFAULT CURRENT_TIMESTAMP ON UPDATE CURRENT_TIMESTAMP,
    name VARCHAR(10) CHARACTER SET utf8mb4 COLLATE utf8mb4_bin NOT NULL DEFAULT 'x' COMMENT 'the name', KEY by_name (name DESC, id),
    PRIMARY KEY (id), CONSTRAINT `f k` FOREIGN KEY (name) REFERENCES t (m), UNIQUE KEY u (id), CHECK (id > 0))
    ENGINE=InnoDB DEFAULT CHARSET=utf8mb4; -- index
    CREATE UNIQUE INDEX i ON s.users USING btree (id, name DESC)", _, _, writes_of_lex .mysql _ (by decide +kernel), by decide +kernel,
    by decide +kernel, rfl, ?_, ?_, rfl, by decide +kernel⟩
  · intro t ht
    rcases List.mem_cons.1 ht with e | ht
    · cases e
      refine ⟨?_, ?_, by decide +kernel⟩
      · intro c hc
        rcases List.mem_cons.1 hc with rfl | hc
        · exact ⟨by decide +kernel, fun _ e => by cases e⟩
        rcases List.mem_cons.1 hc with rfl | hc
        · exact ⟨by decide +kernel, fun _ e => by cases e; exact ⟨by decide +kernel, rfl⟩⟩
        rcases List.mem_cons.1 hc with rfl | hc
        · exact ⟨by decide +kernel, fun _ e => by cases e; exact ⟨by decide +kernel, rfl⟩⟩
        · cases hc
      · intro c hc
        rcases List.mem_cons.1 hc with rfl | hc
        · exact by unfold My.Constraint.Rereadable My.NoAsc; decide +kernel
        rcases List.mem_cons.1 hc with rfl | hc
        · exact ⟨Or.inl ⟨by decide +kernel, by decide +kernel, by decide +kernel⟩, by unfold My.NoAsc; decide +kernel⟩
        rcases List.mem_cons.1 hc with rfl | hc
        · exact ⟨Or.inr ⟨'`', s%"f k", by decide +kernel, by decide +kernel, by decide +kernel⟩, by unfold My.NoAsc; decide +kernel,
            by unfold My.NoAsc; decide +kernel, rfl⟩
        rcases List.mem_cons.1 hc with rfl | hc
        · exact ⟨Or.inl ⟨by decide +kernel, by decide +kernel, by decide +kernel⟩, by unfold My.NoAsc; decide +kernel⟩
        rcases List.mem_cons.1 hc with rfl | hc
        · exact Or.inl ⟨by decide +kernel, by decide +kernel, by decide +kernel⟩
        · cases hc
    · rcases List.mem_cons.1 ht with e | ht
      · cases e
      · cases ht
  · intro i hm
    rcases List.mem_cons.1 hm with e | hm
    · cases e
    rcases List.mem_cons.1 hm with e | hm
    · cases e
      exact by unfold My.CreateIndex.Rereadable My.NoAsc; decide +kernel
    · cases hm

/-- The text parses as MySQL, and its printed form does not parse. -/
abbrev UnreadableMy (sd : Str → Str → Str) (s : Str) : Prop :=
  ∃ l e, My.parse s = .ok l ∧ My.parse (ddlStr (My.ops sd) l) = .err e

/-- The text parses as MySQL, and its printed form parses as something else. -/
abbrev MisreadMy (sd : Str → Str → Str) (s : Str) : Prop :=
  ∃ l l', My.parse s = .ok l ∧ My.parse (ddlStr (My.ops sd) l) = .ok l' ∧ l ≠ l'

/-- C49 is violated: `AUTO_INCREMENT` before `DEFAULT` is printed behind it, where it is not accepted. -/
theorem C49_default_auto_increment_fails (sd : Str → Str → Str) :
    UnreadableMy sd s%"CREATE TABLE t (a INTEGER AUTO_INCREMENT DEFAULT 1)" :=
  ⟨_, _, rfl, rfl⟩

/-- C49 is violated: a generated constraint name is not quoted although the table name is. -/
theorem C49_generated_name_fails (sd : Str → Str → Str) : UnreadableMy sd s%"CREATE TABLE `a b` (c INTEGER UNIQUE)" :=
  ⟨_, _, rfl, rfl⟩

/-- C49 is violated: the generated name of a foreign key contains the sort order of the column, with a blank. -/
theorem C49_foreign_key_name_fails (sd : Str → Str → Str) :
    UnreadableMy sd s%"CREATE TABLE t (a INTEGER, FOREIGN KEY (a DESC) REFERENCES u (id))" :=
  ⟨_, _, rfl, rfl⟩

/-- C49 is violated: `BOOLEAN` is printed as `TINYINT(1)`, which is another type. -/
theorem C49_boolean_fails (sd : Str → Str → Str) :
    MisreadMy sd s%"CREATE TABLE t (a BOOLEAN)" := by
  have e : ∀ l, ddlStr (My.ops sd) l = ddlStr (My.ops fun _ _ => []) l := fun _ => rfl
  simp only [MisreadMy, e]
  exact ⟨_, _, rfl, rfl, by decide +kernel⟩

/-- C49 is violated: the order `ASC` is accepted and not printed. -/
theorem C49_order_fails (sd : Str → Str → Str) :
    MisreadMy sd s%"CREATE TABLE t (a INTEGER, KEY k (a ASC))" := by
  have e : ∀ l, ddlStr (My.ops sd) l = ddlStr (My.ops fun _ _ => []) l := fun _ => rfl
  simp only [MisreadMy, e]
  exact ⟨_, _, rfl, rfl, by decide +kernel⟩

/-- C49 is violated: the order `ASC` of an index is accepted and not printed. -/
theorem C49_index_order_fails (sd : Str → Str → Str) :
    MisreadMy sd s%"CREATE INDEX i ON t (a ASC)" := by
  have e : ∀ l, ddlStr (My.ops sd) l = ddlStr (My.ops fun _ _ => []) l := fun _ => rfl
  simp only [MisreadMy, e]
  exact ⟨_, _, rfl, rfl, by decide +kernel⟩

/-- C49 is violated: an action of a foreign key is accepted and not printed. -/
theorem C49_action_fails (sd : Str → Str → Str) :
    MisreadMy sd s%"CREATE TABLE t (a INTEGER, CONSTRAINT f FOREIGN KEY (a) REFERENCES u (id) ON DELETE CASCADE)" := by
  have e : ∀ l, ddlStr (My.ops sd) l = ddlStr (My.ops fun _ _ => []) l := fun _ => rfl
  simp only [MisreadMy, e]
  exact ⟨_, _, rfl, rfl, by decide +kernel⟩

/-- C49 is violated: `DEFAULT` without a value is accepted and not printed. -/
theorem C49_empty_default_fails (sd : Str → Str → Str) :
    MisreadMy sd s%"CREATE TABLE t (a INTEGER DEFAULT NOT NULL)" := by
  have e : ∀ l, ddlStr (My.ops sd) l = ddlStr (My.ops fun _ _ => []) l := fun _ => rfl
  simp only [MisreadMy, e]
  exact ⟨_, _, rfl, rfl, by decide +kernel⟩

/-- C49 is violated: a primary key takes the place of an index of the name "PRIMARY KEY"; when it is read again it comes first. -/
theorem C49_primary_key_order_fails (sd : Str → Str → Str) :
    MisreadMy sd s%"CREATE TABLE t (a INTEGER, KEY k (a), KEY `PRIMARY KEY` (a), PRIMARY KEY (a))" := by
  have e : ∀ l, ddlStr (My.ops sd) l = ddlStr (My.ops fun _ _ => []) l := fun _ => rfl
  simp only [MisreadMy, e]
  exact ⟨_, _, rfl, rfl, by decide +kernel⟩

/-- C49 is violated: a character outside ASCII that is not in quotes is accepted inside an expression and printed as another text. -/
theorem C49_illegal_fails (sd : Str → Str → Str) :
    MisreadMy sd (s%"CREATE TABLE t (a INTEGER DEFAULT (" ++ Char.ofNat 195 :: s%"))") := by
  have e : ∀ l, ddlStr (My.ops sd) l = ddlStr (My.ops fun _ _ => []) l := fun _ => rfl
  simp only [MisreadMy, e]
  exact ⟨_, _, rfl, rfl, by decide +kernel⟩

end Ddl.Props
