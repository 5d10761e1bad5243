import Verif.Lemmas.Synonyms
import Verif.Lemmas.Rel
/-! # C36: spelling variants of a type are the same type

C36: columns whose types are spelled with SQL synonyms do not differ, for every type parameter list and letter case.

The theorems are about one column definition: the name, the words of the type in any letter case, and any tokens after them
(parameters of the type, attributes, constraints, and the rest of the file).  Replacing the words by a synonym changes neither
whether the definition is read, nor anything that is read except for the name of the type as written, and `Diff` finds no
alteration between the two columns, in either direction.  The theorems are `_partial` because some documented synonyms are
different types to the code, see the theorems `C36_…_fails`. -/
set_option autoImplicit false
namespace Ddl.Props
open Ddl Spec
variable (sd : Str → Str → Str)

/-- C36 for PostgreSQL. Missing: the synonyms of `C36_postgres_fails`. -/
theorem C36_postgres_partial (cl : List (List Str)) (hcl : cl ∈ synonyms .postgres) (ws ws' : List Str) (hw : ws ∈ cl) (hw' : ws' ∈ cl)
    (tbl : Ident) (name : Token) (sp sp' rest : List Token) (hs : SpelledAs .postgres ws sp) (hs' : SpelledAs .postgres ws' sp')
    (hp : NoPanic (name :: (sp ++ rest))) (hp' : NoPanic (name :: (sp' ++ rest))) :
    SameOutcome (fun x x' => x'.2 = x.2 ∧ x'.1 = {x.1 with dataType := x'.1.dataType} ∧
        ∀ tn, Pg.alterColumn sd tn x.1 x'.1 = [] ∧ Pg.alterColumn sd tn x'.1 x.1 = [])
      (Pg.parseColumn tbl (name :: (sp ++ rest))) (Pg.parseColumn tbl (name :: (sp' ++ rest))) := by
  obtain ⟨ty, hty⟩ := Pg.spells_synonyms cl hcl
  refine (Pg.parseColumn_spells (hty _ hw) (hty _ hw') tbl name sp sp' rest hs hs' hp hp').imp ?_
  rintro ⟨c, x⟩ ⟨c', x'⟩ ⟨h1, nm, h2⟩
  simp only at h1 h2
  subst h1 h2
  refine ⟨rfl, rfl, fun tn => ?_⟩
  cases hd : c.default <;> simp [Pg.alterColumn, Pg.DataType.diffStr, hd]

/-- C36 for CockroachDB. Missing: the synonyms of `C36_cockroachdb_fails`. -/
theorem C36_cockroachdb_partial (cl : List (List Str)) (hcl : cl ∈ synonyms .cockroachdb) (ws ws' : List Str) (hw : ws ∈ cl) (hw' : ws' ∈ cl)
    (tbl : Ident) (name : Token) (sp sp' rest : List Token) (hs : SpelledAs .cockroachdb ws sp) (hs' : SpelledAs .cockroachdb ws' sp')
    (hp : NoPanic (name :: (sp ++ rest))) (hp' : NoPanic (name :: (sp' ++ rest))) :
    SameOutcome (fun x x' => x'.2 = x.2 ∧ x'.1 = {x.1 with dataType := x'.1.dataType} ∧
        ∀ tn, Crdb.alterColumn sd tn x.1 x'.1 = [] ∧ Crdb.alterColumn sd tn x'.1 x.1 = [])
      (Crdb.parseColumn tbl (name :: (sp ++ rest))) (Crdb.parseColumn tbl (name :: (sp' ++ rest))) := by
  obtain ⟨ty, hty⟩ := Crdb.spells_synonyms cl hcl
  refine (Crdb.parseColumn_spells (hty _ hw) (hty _ hw') tbl name sp sp' rest hs hs' hp hp').imp ?_
  rintro ⟨c, x⟩ ⟨c', x'⟩ ⟨h1, nm, h2⟩
  simp only at h1 h2
  subst h1 h2
  refine ⟨rfl, rfl, fun tn => ?_⟩
  cases hd : c.default <;> simp [Crdb.alterColumn, Crdb.DataType.diffStr, hd]

/-- C36 for MySQL. Missing: the synonyms of `C36_mysql_fails`. -/
theorem C36_mysql_partial (cl : List (List Str)) (hcl : cl ∈ synonyms .mysql) (ws ws' : List Str) (hw : ws ∈ cl) (hw' : ws' ∈ cl)
    (tbl : Ident) (name : Token) (sp sp' rest : List Token) (hs : SpelledAs .mysql ws sp) (hs' : SpelledAs .mysql ws' sp')
    (hp : NoPanic (name :: (sp ++ rest))) (hp' : NoPanic (name :: (sp' ++ rest))) :
    SameOutcome (fun x x' => x'.2 = x.2 ∧ x'.1 = {x.1 with dataType := x'.1.dataType} ∧
        ∀ tn, My.alterColumn sd tn x.1 x'.1 = [] ∧ My.alterColumn sd tn x'.1 x.1 = [])
      (My.parseColumn tbl (name :: (sp ++ rest))) (My.parseColumn tbl (name :: (sp' ++ rest))) := by
  obtain ⟨ty, hty⟩ := My.spells_synonyms cl hcl
  refine (My.parseColumn_spells (hty _ hw) (hty _ hw') tbl name sp sp' rest hs hs' hp hp').imp ?_
  rintro ⟨c, x⟩ ⟨c', x'⟩ ⟨h1, nm, h2⟩
  simp only at h1 h2
  subst h1 h2
  refine ⟨rfl, rfl, fun tn => ?_⟩
  cases hd : c.default <;> simp [My.alterColumn, My.needsModify, My.dropDefault, My.DataType.diffStr, hd]

/-- The hypotheses can be met: `a timestamptz(3) NOT NULL)` and `a Timestamp with time zone(3) NOT NULL)`, and both are read. -/
example : ∃ cl ∈ synonyms .postgres, ∃ ws ∈ cl, ∃ ws' ∈ cl, ∃ sp sp' rest,
    lex .postgres s%"a timestamptz(3) NOT NULL)" = ⟨.IDENT, s%"a"⟩ :: (sp ++ rest) ∧
    lex .postgres s%"a Timestamp with time zone(3) NOT NULL)" = ⟨.IDENT, s%"a"⟩ :: (sp' ++ rest) ∧
    SpelledAs .postgres ws sp ∧ SpelledAs .postgres ws' sp' ∧ NoPanic (⟨.IDENT, s%"a"⟩ :: (sp ++ rest)) ∧
    NoPanic (⟨.IDENT, s%"a"⟩ :: (sp' ++ rest)) ∧
    (Pg.parseColumn (Pg.rawIdent s%"t") (⟨.IDENT, s%"a"⟩ :: (sp' ++ rest))).isOk := by
  refine ⟨[[s%"TIMESTAMPTZ"], [s%"TIMESTAMP", s%"WITH", s%"TIME", s%"ZONE"]], by decide +kernel, _, List.mem_cons_self, _,
    List.mem_cons_of_mem _ List.mem_cons_self, [⟨.TIMESTAMPTZ, s%"timestamptz"⟩],
    [⟨.TIMESTAMP, s%"Timestamp"⟩, ⟨.WITH, s%"with"⟩, ⟨.TIME, s%"time"⟩, ⟨.ZONE, s%"zone"⟩],
    [⟨.OPEN_PAREN, s%"("⟩, ⟨.IDENT, s%"3"⟩, ⟨.CLOSE_PAREN, s%")"⟩, ⟨.NOT, s%"NOT"⟩, ⟨.NULL, s%"NULL"⟩, ⟨.CLOSE_PAREN, s%")"⟩],
    by decide +kernel, by decide +kernel, ?_, ?_, by unfold NoPanic; decide +kernel, by unfold NoPanic; decide +kernel, by decide +kernel⟩
  · exact .cons ⟨by decide +kernel, .inl (by decide +kernel)⟩ .nil
  · exact .cons ⟨by decide +kernel, .inl (by decide +kernel)⟩ (.cons ⟨by decide +kernel, .inl (by decide +kernel)⟩
      (.cons ⟨by decide +kernel, .inl (by decide +kernel)⟩ (.cons ⟨by decide +kernel, .inl (by decide +kernel)⟩ .nil)))

/-- C36 is violated for PostgreSQL: `VARCHAR` is read as the keyword `VARYING`, `CHARACTER VARYING` as `CHARACTER VARYING`. -/
theorem C36_postgres_fails : ∃ (b a out : List Pg.PStmt), Pg.parse s%"CREATE TABLE t (a VARCHAR(10))" = .ok b ∧ Pg.parse s%"CREATE TABLE t (a CHARACTER VARYING(10))" = .ok a ∧
    diff (Pg.ops sd) (some b) (some a) = .ok out ∧ out.length = 1 :=
  ⟨_, _, _, rfl, rfl, rfl, rfl⟩

/-- C36 is violated for PostgreSQL: `DECIMAL` and `NUMERIC` are the same type. -/
theorem C36_postgres_numeric_fails : ∃ (b a out : List Pg.PStmt), Pg.parse s%"CREATE TABLE t (a DECIMAL(10))" = .ok b ∧ Pg.parse s%"CREATE TABLE t (a NUMERIC(10))" = .ok a ∧
    diff (Pg.ops sd) (some b) (some a) = .ok out ∧ out.length = 1 :=
  ⟨_, _, _, rfl, rfl, rfl, rfl⟩

/-- C36 is violated for CockroachDB, where `INT` is an alias of `INT8`: the code reads it as `INT4`. -/
theorem C36_cockroachdb_fails : ∃ (b a out : List Crdb.CStmt), Crdb.parse s%"CREATE TABLE t (a INT)" = .ok b ∧ Crdb.parse s%"CREATE TABLE t (a BIGINT)" = .ok a ∧
    diff (Crdb.ops sd) (some b) (some a) = .ok out ∧ out.length = 1 :=
  ⟨_, _, _, rfl, rfl, rfl, rfl⟩

/-- C36 is violated for CockroachDB: `DECIMAL` and `NUMERIC` are the same type. -/
theorem C36_cockroachdb_numeric_fails : ∃ (b a out : List Crdb.CStmt), Crdb.parse s%"CREATE TABLE t (a DECIMAL(10))" = .ok b ∧ Crdb.parse s%"CREATE TABLE t (a NUMERIC(10))" = .ok a ∧
    diff (Crdb.ops sd) (some b) (some a) = .ok out ∧ out.length = 1 :=
  ⟨_, _, _, rfl, rfl, rfl, rfl⟩

/-- C36 is violated for CockroachDB: `REAL` and `FLOAT4` are the same type. -/
theorem C36_cockroachdb_real_fails : ∃ (b a out : List Crdb.CStmt), Crdb.parse s%"CREATE TABLE t (a REAL)" = .ok b ∧ Crdb.parse s%"CREATE TABLE t (a FLOAT4)" = .ok a ∧
    diff (Crdb.ops sd) (some b) (some a) = .ok out ∧ out.length = 1 :=
  ⟨_, _, _, rfl, rfl, rfl, rfl⟩

/-- C36 is violated for MySQL: `DOUBLE` and `DOUBLE PRECISION` are the same type. -/
theorem C36_mysql_fails : ∃ (b a out : List My.MStmt), My.parse s%"CREATE TABLE t (a DOUBLE)" = .ok b ∧ My.parse s%"CREATE TABLE t (a DOUBLE PRECISION)" = .ok a ∧
    diff (My.ops sd) (some b) (some a) = .ok out ∧ out.length = 1 :=
  ⟨_, _, _, rfl, rfl, rfl, rfl⟩

/-- C36 is violated for MySQL: `DECIMAL` and `NUMERIC` are the same type. -/
theorem C36_mysql_numeric_fails : ∃ (b a out : List My.MStmt), My.parse s%"CREATE TABLE t (a DECIMAL(10))" = .ok b ∧ My.parse s%"CREATE TABLE t (a NUMERIC(10))" = .ok a ∧
    diff (My.ops sd) (some b) (some a) = .ok out ∧ out.length = 1 :=
  ⟨_, _, _, rfl, rfl, rfl, rfl⟩

/-- C36 is violated for MySQL: `BOOLEAN` is written as `TINYINT(1)` but the two differ, as soon as the printed texts differ
at all (here by `INT` and `INTEGER`, which is no difference). -/
theorem C36_mysql_boolean_fails : ∃ (b a out : List My.MStmt), My.parse s%"CREATE TABLE t (a BOOLEAN, b INT)" = .ok b ∧ My.parse s%"CREATE TABLE t (a TINYINT(1), b INTEGER)" = .ok a ∧
    diff (My.ops sd) (some b) (some a) = .ok out ∧ out.length = 1 :=
  ⟨_, _, _, rfl, rfl, rfl, rfl⟩

end Ddl.Props
