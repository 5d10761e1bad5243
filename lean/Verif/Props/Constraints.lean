import Verif.Lemmas.Append
import Verif.Lemmas.DecideVariants
import Verif.Lemmas.ColumnConstraints

/-! # Constraints of a table: C15 (which definition of a name wins), C35 (none is lost) -/

namespace Ddl.Props
open Ddl Spec
set_option autoImplicit false

/-- C15, second half, for the operation that all parsers use to collect constraints: among several definitions of a name the last one
wins.  In PostgreSQL and Spanner it stands at the position of the first one. -/
theorem C15_last_wins :
    (∀ l : List Pg.Constraint, LastWinsAtFirst (fun c => c.name.name) l (l.foldl Pg.appendConstraint [])) ∧
    (∀ l : List Crdb.Constraint, LastWins (fun c => c.name.name) l (l.foldl Crdb.appendConstraint [])) ∧
    (∀ l : List My.Constraint, LastWins (fun c => c.name.name) l (l.foldl My.appendConstraint [])) ∧
    (∀ l r : List Sp.Constraint, Sp.appendAll [] l = .ok r → LastWinsAtFirst (fun c : Sp.Constraint => c.name.map (·.name)) l r) :=
  ⟨fun l => LastWinsAtFirst.foldl (fun _ _ => Pg.appendConstraint_mem) Pg.mem_appendConstraint
     (fun r c => by convert Pg.appendConstraint_map_name r c) l,
   fun l => LastWins.foldl (fun _ _ => Crdb.appendConstraint_mem) Crdb.mem_appendConstraint
     (fun r c => by convert Crdb.appendConstraint_map_name r c) l,
   fun l => LastWins.foldl (fun _ _ => My.appendConstraint_mem) My.mem_appendConstraint
     (fun r c => by convert My.appendConstraint_map_name r c) l,
   fun l r h => by simpa using Sp.appendAll_lastWins l [] [] r ⟨by simp, rfl⟩ h⟩

/-- C15, second half, from the text on (PostgreSQL): a list of constraint definitions, names possibly repeated, is read such that the
last definition of a name wins at the position of the first one. -/
theorem C15_postgres_text (t : Pg.CreateTable) (raw : Str) (hname : IsName .postgres raw) (ht : t.name = newObjectName .postgres raw)
    (hc : t.comment = []) (ho : t.options = []) (hcol : t.columns = []) (hcon : ∀ c ∈ t.constraints, c.IsWritten) :
    ∃ cs, Pg.parse t.str = .ok [.createTable { t with constraints := cs }] ∧ LastWinsAtFirst (fun c => c.name.name) t.constraints cs :=
  ⟨_, Pg.parse_table ⟨hc, ho, ⟨raw, isName_lx hname, ht⟩, by simp [hcol], fun c h => (Pg.conOk_of_written (hcon c h)).1⟩
    ⟨fun c h => (Pg.conOk_of_written (hcon c h)).2, by simp [hcol]⟩, C15_last_wins.1 _⟩

example : Pg.parse s%"CREATE TABLE t (CONSTRAINT x UNIQUE (a), CONSTRAINT y UNIQUE (b), CONSTRAINT x PRIMARY KEY (c))" =
    .ok [.createTable ⟨[], false, newObjectName .postgres s%"t", [],
      [.primaryKey ⟨s%"x", [], s%"x"⟩ [⟨s%"c", [], s%"c"⟩], .unique ⟨s%"y", [], s%"y"⟩ [⟨s%"b", [], s%"b"⟩]], []⟩] := by
  decide +kernel

example : IsName .postgres s%"t" ∧
    ∀ c ∈ [Pg.Constraint.unique ⟨s%"x", [], s%"x"⟩ [⟨s%"a", [], s%"a"⟩], .primaryKey ⟨s%"x", s%"\"", s%"\"x\""⟩ [⟨s%"c", [], s%"c"⟩]],
      c.IsWritten := by
  have w : ∀ s : Str, s ≠ [] → (∀ c ∈ s, WordChar c) → ¬ IsKeyword .postgres s → IsName .postgres s := fun s h1 h2 h3 => Or.inl ⟨h1, h2, h3⟩
  refine ⟨w _ (by decide) (by decide) (by decide), ?_⟩
  simp only [List.forall_mem_cons, List.not_mem_nil, false_imp_iff, implies_true, and_true, Pg.Constraint.IsWritten, Pg.IsWritten]
  exact ⟨⟨⟨by decide, w _ (by decide) (by decide) (by decide)⟩, by decide, w _ (by decide) (by decide) (by decide)⟩,
    ⟨by decide, Or.inr ⟨'"', s%"x", by decide, by decide, by decide⟩⟩, by decide, w _ (by decide) (by decide) (by decide)⟩

/-- The position is not kept in CockroachDB and MySQL: a primary key is moved to the front. -/
theorem C15_position_fails :
    (∃ l : List Crdb.Constraint, ¬ LastWinsAtFirst (fun c => c.name.name) l (l.foldl Crdb.appendConstraint [])) ∧
    (∃ l : List My.Constraint, ¬ LastWinsAtFirst (fun c => c.name.name) l (l.foldl My.appendConstraint [])) := by
  refine ⟨⟨[.check ⟨s%"u", [], s%"u"⟩ [], .primaryKey ⟨s%"p", [], s%"p"⟩ []], fun h => ?_⟩,
    ⟨[.check ⟨s%"u", [], s%"u"⟩ [], .primaryKey ⟨s%"p", [], s%"p"⟩ []], fun h => ?_⟩⟩ <;> exact absurd h.2 (by decide +kernel)

/-! C35: if a CREATE TABLE parses, every column-level constraint written in the source appears in the result, for every column definition.

Two theorems on the constraints behind the type and attributes of a column, for lists of constraints of pairwise different kinds:
the constraints read are exactly the constraints written, in this order, and the parser stops behind them.  `C35_fails` shows what is
missing: a constraint behind `CHECK (…)` or behind `REFERENCES …` without `ON …` may be swallowed, and of two constraints of one kind
only the last is kept. -/

/-- C35 for `PRIMARY KEY`, `UNIQUE`, and `REFERENCES … ON …`. Missing: see above. -/
theorem C35_postgres_partial (tbl col : Ident) (htbl : tbl.name.head? ≠ some '"') (cs : List ColCon) (tss : List (List Token))
    (h : Pointwise ColCon.Tokens cs tss) (hex : ∀ c ∈ cs, c.Exact) (hnd : (cs.map ColCon.kind).Nodup) (rest : List Token)
    (hp : NoPanic (tss.flatten ++ rest)) (hrest : curT rest ∈ [TokType.IDENT, .COMMA, .CLOSE_PAREN]) :
    ∃ out, Pg.parseColumnConstraints tbl col (tss.flatten ++ rest) = .ok (out, rest) ∧ Pointwise (ColCon.Kept tbl col) cs out :=
  Pg.constraints_kept htbl h hex hnd hp hrest

/-- C35 if a `CHECK`, or `REFERENCES` without `ON`, comes last: it is kept too, but the token `y` behind it is skipped. Missing: see above. -/
theorem C35_postgres_last_partial (tbl col : Ident) (htbl : tbl.name.head? ≠ some '"') (cs : List ColCon) (tss : List (List Token))
    (h : Pointwise ColCon.Tokens cs tss) (hex : ∀ c ∈ cs, c.Exact) (c : ColCon) (ts : List Token) (hc : c.Tokens ts) (hne : ¬ c.Exact)
    (hnd : ((cs ++ [c]).map ColCon.kind).Nodup) (y : Token) (rest : List Token) (hp : NoPanic (tss.flatten ++ (ts ++ y :: rest)))
    (hy : y.type ≠ .ON) (hrest : curT rest ∈ [TokType.IDENT, .COMMA, .CLOSE_PAREN]) :
    ∃ out, Pg.parseColumnConstraints tbl col (tss.flatten ++ (ts ++ y :: rest)) = .ok (out, rest) ∧
      Pointwise (ColCon.Kept tbl col) (cs ++ [c]) out :=
  Pg.constraints_kept_last htbl h hex hc hne hnd hp hy hrest

/-- The hypotheses can be met: `UNIQUE REFERENCES u (i) ON DELETE NO ACTION CHECK (a >= (0)), b`. -/
example : ∃ (cs : List ColCon) (tss : List (List Token)) (c : ColCon) (ts : List Token) (y : Token) (rest : List Token),
    Pointwise ColCon.Tokens cs tss ∧ (∀ c ∈ cs, c.Exact) ∧ c.Tokens ts ∧ ¬ c.Exact ∧ ((cs ++ [c]).map ColCon.kind).Nodup ∧
    NoPanic (tss.flatten ++ (ts ++ y :: rest)) ∧ y.type ≠ .ON ∧ curT rest ∈ [TokType.IDENT, .COMMA, .CLOSE_PAREN] ∧
    tss.flatten ++ (ts ++ y :: rest) = lex .postgres s%"UNIQUE REFERENCES u (i) ON DELETE NO ACTION CHECK (a >= (0)), b" := by
  refine ⟨[.unique, .references ⟨.IDENT, s%"u"⟩ [⟨.IDENT, s%"i"⟩] [⟨.ON, s%"ON"⟩, ⟨.DELETE, s%"DELETE"⟩, ⟨.NO, s%"NO"⟩, ⟨.ACTION, s%"ACTION"⟩]],
    [[⟨.UNIQUE, s%"UNIQUE"⟩], [⟨.REFERENCES, s%"REFERENCES"⟩, ⟨.IDENT, s%"u"⟩, ⟨.OPEN_PAREN, s%"("⟩, ⟨.IDENT, s%"i"⟩, ⟨.CLOSE_PAREN, s%")"⟩,
      ⟨.ON, s%"ON"⟩, ⟨.DELETE, s%"DELETE"⟩, ⟨.NO, s%"NO"⟩, ⟨.ACTION, s%"ACTION"⟩]],
    .check [⟨.IDENT, s%"a"⟩, ⟨.GREATER, s%">"⟩, ⟨.EQUAL, s%"="⟩, ⟨.OPEN_PAREN, s%"("⟩, ⟨.IDENT, s%"0"⟩, ⟨.CLOSE_PAREN, s%")"⟩],
    [⟨.CHECK, s%"CHECK"⟩, ⟨.OPEN_PAREN, s%"("⟩, ⟨.IDENT, s%"a"⟩, ⟨.GREATER, s%">"⟩, ⟨.EQUAL, s%"="⟩, ⟨.OPEN_PAREN, s%"("⟩, ⟨.IDENT, s%"0"⟩,
      ⟨.CLOSE_PAREN, s%")"⟩, ⟨.CLOSE_PAREN, s%")"⟩], ⟨.COMMA, s%","⟩, [⟨.IDENT, s%"b"⟩], ?_, ?_, ?_, ?_, by decide, by unfold NoPanic; decide,
    by decide, by decide, by decide +kernel⟩
  · exact .cons rfl (.cons ⟨_, _, _, [⟨.IDENT, s%"i"⟩], rfl, rfl, rfl, rfl, rfl, .one _ rfl, .inr ⟨.DELETE, .inl rfl, .inr rfl⟩⟩ .nil)
  · simp [ColCon.Exact]
  · exact ⟨_, _, _, rfl, rfl, rfl, rfl, rfl, rfl, .word _ _ (by decide) (by decide) (by decide) (.word _ _ (by decide) (by decide) (by decide)
      (.word _ _ (by decide) (by decide) (by decide)
      (.paren _ _ [⟨.IDENT, s%"0"⟩] [] rfl rfl (.word _ _ (by decide) (by decide) (by decide) .nil) .nil))), by decide⟩
  · simp [ColCon.Exact]

/-- C35 is violated: the `UNIQUE` behind a `CHECK` is lost in PostgreSQL, CockroachDB and MySQL, and so is the first of two
`REFERENCES` in PostgreSQL. -/
theorem C35_fails :
    (∃ t : Pg.CreateTable, Pg.parse s%"CREATE TABLE t (a INT CHECK (a > 0) UNIQUE, b INT)" = .ok [.createTable t] ∧
      ∀ n cs, .unique n cs ∉ t.constraints) ∧
    (∃ t : Crdb.CreateTable, Crdb.parse s%"CREATE TABLE t (a INT CHECK (a > 0) UNIQUE, b INT)" = .ok [.createTable t] ∧
      ∀ n u ic cs us, .index n u ic cs us ∉ t.constraints) ∧
    (∃ t : My.CreateTable, My.parse s%"CREATE TABLE t (a INT CHECK (a > 0) UNIQUE, b INT)" = .ok [.createTable t] ∧
      ∀ n u cs, .index n u cs ∉ t.constraints) ∧
    (∃ t : Pg.CreateTable,
      Pg.parse s%"CREATE TABLE t (a INT REFERENCES x (i) ON DELETE CASCADE REFERENCES y (j) ON DELETE CASCADE, b INT)" =
        .ok [.createTable t] ∧ ∀ n cs r rcs act, .foreignKey n cs r rcs act ∈ t.constraints → r.name ≠ s%"x") := by
  refine ⟨⟨_, rfl, fun n cs => ?_⟩, ⟨_, rfl, fun n u ic cs us => ?_⟩, ⟨_, rfl, fun n u cs => ?_⟩, ⟨_, rfl, fun n cs r rcs act => ?_⟩⟩
  · intro h
    rcases List.mem_cons.mp h with h | h
    · cases h
    · exact absurd h List.not_mem_nil
  · intro h
    rcases List.mem_cons.mp h with h | h
    · cases h
    · exact absurd h List.not_mem_nil
  · intro h
    rcases List.mem_cons.mp h with h | h
    · cases h
    · exact absurd h List.not_mem_nil
  · intro h
    rcases List.mem_cons.mp h with h | h
    · cases h; decide
    · exact absurd h List.not_mem_nil

end Ddl.Props
