import Verif.Lemmas.WrittenPg
import Verif.Lemmas.WrittenMy
import Verif.Lemmas.WrittenCrdb
import Verif.Lemmas.WrittenSp
import Verif.Lemmas.ShowPgText
import Verif.Lemmas.DecideApply

/-! # Properties of statements as they are written: C62 -/

namespace Ddl.Props
open Ddl Spec Spec.Written
set_option autoImplicit false

/-! ## C62: a script is read as it is written

The grammars of `Spec/Written…` say for every phrase which part of the syntax tree it stands for: each name, type, attribute and
constraint in its place, with the names that constraints without a name get.  A text with such phrases is accepted and gives exactly
that tree.  The full property is about every phrase of the SQL dialect that the program knows; missing are those at which the
parsers skip a token or expect another order, see `C62_…_fails`. -/

/-- C62 for PostgreSQL. Missing: a `CHECK` or a `REFERENCES` without `ON` in the last column or in front of another constraint, attributes behind
constraints, and `NULL` behind `DEFAULT`, see `C62_postgres_skips_fails`, `C62_postgres_order_fails`; `CHECK` and `ON` in constraints of
the table, see `C62_postgres_constraints_fails`. -/
theorem C62_postgres_partial (s : Str) (ts : List Token) (l : List Pg.PStmt) (hw : Writes .postgres true s ts)
    (h : Script Pg.Written.Statement ts l) : Pg.parse s = .ok l := by
  rw [Pg.parse, lex_of_writes hw]
  exact script_read Pg.Written.statement_consumed h (Pg.Show.noPanic_writes hw)

/-- A token that is a name. -/
def nameTok (s : Str) : Token := ⟨.IDENT, s⟩

/-- A comma. -/
def commaTok : Token := ⟨.COMMA, s%","⟩

set_option maxRecDepth 8000 in
/-- The hypotheses can be met: a table with attributes and constraints of columns, constraints of the table, one of them with the name of
another one, and an index. -/
example : ∃ ts t i, Writes .postgres true s%"CREATE TABLE t (id INTEGER NOT NULL PRIMARY KEY, b TEXT DEFAULT now() REFERENCES u (k), c NUMERIC(8), UNIQUE (b, c), CONSTRAINT t_b_fkey UNIQUE (c)); CREATE INDEX i ON t (b)" ts ∧
    Script Pg.Written.Statement ts [.createTable t, .createIndex i] ∧ t.columns.length = 3 ∧ t.constraints.length = 3 := by
  refine ⟨([⟨.CREATE, s%"CREATE"⟩, ⟨.TABLE, s%"TABLE"⟩] ++ ([] ++ nameTok s%"t" :: opn ::
      (((nameTok s%"id" :: ([⟨.INTEGER, s%"INTEGER"⟩] ++ (([⟨.NOT, s%"NOT"⟩, ⟨.NULL, s%"NULL"⟩] ++ []) ++ ([⟨.PRIMARY, s%"PRIMARY"⟩, ⟨.KEY, s%"KEY"⟩] ++ [])))) ++ commaTok ::
       ((nameTok s%"b" :: ([⟨.TEXT, s%"TEXT"⟩] ++ (([] ++ [⟨.DEFAULT, s%"DEFAULT"⟩, nameTok s%"now", opn, cls]) ++ ⟨.REFERENCES, s%"REFERENCES"⟩ :: nameTok s%"u" :: (opn :: ([nameTok s%"k"] ++ [cls]))))) ++ commaTok ::
       ((nameTok s%"c" :: (([⟨.NUMERIC, s%"NUMERIC"⟩] ++ opn :: ([nameTok s%"8"] ++ [cls])) ++ (([] ++ []) ++ []))) ++ commaTok ::
       (([] ++ ([⟨.UNIQUE, s%"UNIQUE"⟩] ++ opn :: ([nameTok s%"b", commaTok, nameTok s%"c"] ++ [cls]))) ++ commaTok ::
       ([⟨.CONSTRAINT, s%"CONSTRAINT"⟩, nameTok s%"t_b_fkey"] ++ ([⟨.UNIQUE, s%"UNIQUE"⟩] ++ opn :: ([nameTok s%"c"] ++ [cls]))))))) ++ [cls]))) ++ ⟨.SEMICOLON, s%";"⟩ ::
     ([⟨.CREATE, s%"CREATE"⟩, ⟨.INDEX, s%"INDEX"⟩] ++ ([] ++ nameTok s%"i" :: ⟨.ON, s%"ON"⟩ :: nameTok s%"t" :: ([] ++ opn :: ([nameTok s%"b"] ++ [cls])))),
    ⟨[], false, newObjectName .postgres s%"t",
      [⟨word .postgres (nameTok s%"id"), ⟨s%"INTEGER", .INTEGER, []⟩, none, true⟩] ++
      ([⟨word .postgres (nameTok s%"b"), ⟨s%"TEXT", .TEXT, []⟩, some ⟨some [word .postgres (nameTok s%"now"), Pg.Show.plain s%"(", Pg.Show.plain s%")"]⟩, false⟩] ++
      ([⟨word .postgres (nameTok s%"c"), ⟨s%"NUMERIC", .NUMERIC, [word .postgres (nameTok s%"8")]⟩, none, false⟩] ++ ([] ++ []))),
      [.primaryKey (given s%"t_pkey") [word .postgres (nameTok s%"id")],
       .unique (word .postgres (nameTok s%"t_b_fkey")) [word .postgres (nameTok s%"c")],
       .unique (given s%"t_unique_b_c") [word .postgres (nameTok s%"b"), word .postgres (nameTok s%"c")]], []⟩,
    ⟨[], false, false, word .postgres (nameTok s%"i"), newObjectName .postgres s%"t", [], [word .postgres (nameTok s%"b")]⟩, ?_, ?_, rfl, rfl⟩
  · exact writes_of_lex_eq (by decide +kernel) (by decide +kernel)
  refine .cons _ _ _ _ _ (.table _ _ ⟨_, _, _, _, [.primaryKey (given s%"t_pkey") [word .postgres (nameTok s%"id")]] ++
      ([.foreignKey (given s%"t_b_fkey") [word .postgres (nameTok s%"b")] (word .postgres (nameTok s%"u")) [word .postgres (nameTok s%"k")] []] ++
      ([] ++ ([.unique (given s%"t_unique_b_c") [word .postgres (nameTok s%"b"), word .postgres (nameTok s%"c")]] ++
      [.unique (word .postgres (nameTok s%"t_b_fkey")) [word .postgres (nameTok s%"c")]]))), rfl, rfl, rfl, rfl, rfl, by decide, ?_,
    Pg.lastWins_foldl _ lastWinsAtFirst_nil, rfl, rfl⟩) rfl (.last _ _ (.index _ _
    ⟨_, _, _, _, _, _, _, rfl, rfl, rfl, rfl, rfl, rfl, rfl, rfl, .inl ⟨rfl, rfl⟩, ⟨_, _, rfl, .one _ rfl, rfl⟩, rfl⟩))
  refine .cons _ _ _ _ _ _ _ true (.column _ _ _ _ _ _ _ rfl rfl ⟨_, [], ?_, rfl, rfl, by simp, .inl ⟨rfl, rfl⟩⟩
    ⟨_, _, .inr (.inr ⟨rfl, rfl⟩), .inl ⟨rfl, rfl⟩, .inl rfl⟩ (.cons _ _ _ _ _ (.primaryKey _ rfl) .nil)) rfl (.inl rfl) ?_
  · decide
  refine .cons _ _ _ _ _ _ _ false (.column _ _ _ _ _ _ _ rfl rfl ⟨_, [], ?_, rfl, rfl, by simp, .inl ⟨rfl, rfl⟩⟩
    ⟨_, _, .inl ⟨rfl, rfl⟩, .inr ⟨_, _, _, rfl, rfl, .word _ _ _ _ (by decide) (.group _ [] [] [] [] .nil .nil), rfl⟩, .inl rfl⟩
    (.last _ _ (.refers _ _ _ _ rfl rfl ⟨_, _, rfl, .one _ rfl, rfl⟩))) rfl (.inr rfl) ?_
  · decide
  refine .cons _ _ _ _ _ _ _ true (.column _ _ _ _ _ _ _ rfl rfl ⟨_, [_], ?_, rfl, rfl, by decide, .inr ⟨by simp, rfl⟩⟩
    ⟨_, _, .inl ⟨rfl, rfl⟩, .inl ⟨rfl, rfl⟩, .inl rfl⟩ .nil) rfl (.inl rfl) ?_
  · decide
  exact .cons _ _ _ _ _ _ _ true (.constraint _ _ (.unique _ _ _ _ _ (.inl ⟨rfl, by decide +kernel⟩) rfl
    ⟨_, _, rfl, .cons _ _ _ _ rfl rfl (.one _ rfl), rfl⟩)) rfl (.inl rfl)
    (.one _ _ _ (.constraint _ _ (.unique _ _ _ _ _ (.inr ⟨_, _, rfl, rfl, rfl, rfl⟩) rfl ⟨_, _, rfl, .one _ rfl, rfl⟩)))

/-- C62 fails where the parser skips a token: a `CHECK` or a `REFERENCES` in the only column, and in front of a constraint of the table, is
an error. -/
theorem C62_postgres_skips_fails : Pg.parse s%"CREATE TABLE t (a INT CHECK (a > 0))" = .err .unexpectedCurrentToken ∧
    Pg.parse s%"CREATE TABLE t (a INT REFERENCES u (id))" = .err .unexpectedCurrentToken ∧
    Pg.parse s%"CREATE TABLE t (a INT REFERENCES u (id), PRIMARY KEY (a))" = .err .unexpectedCurrentToken ∧
    ∃ x, Pg.parse s%"CREATE TABLE t (a INT REFERENCES u (id) ON DELETE CASCADE)" = .ok x := by
  refine ⟨by decide +kernel, by decide +kernel, by decide +kernel, ⟨_, rfl⟩⟩

/-- C62 fails for another order: an attribute behind a constraint is an error, and `NULL` behind `DEFAULT 1` is a part of the value. -/
theorem C62_postgres_order_fails : Pg.parse s%"CREATE TABLE t (a INT UNIQUE NOT NULL)" = .err .unexpectedCurrentToken ∧
    Pg.parse s%"CREATE TABLE t (a INT PRIMARY KEY DEFAULT 1)" = .err .unexpectedCurrentToken ∧
    (∃ t : Pg.CreateTable, Pg.parse s%"CREATE TABLE t (a INT DEFAULT 1 NULL)" = .ok [.createTable t] ∧
      t.columns.map (·.default) = [some ⟨some [given s%"1", given s%"NULL"]⟩]) ∧
    ∃ x, Pg.parse s%"CREATE TABLE t (a INT NOT NULL UNIQUE)" = .ok x := by
  refine ⟨by decide +kernel, by decide +kernel, ⟨_, rfl, rfl⟩, ⟨_, rfl⟩⟩

/-- C62 fails for constraints of the table: a `CHECK`, and an action of a foreign key, is an error. -/
theorem C62_postgres_constraints_fails : Pg.parse s%"CREATE TABLE t (a INT, CHECK (a > 0))" = .err .unexpectedCurrentToken ∧
    Pg.parse s%"CREATE TABLE t (a INT, CONSTRAINT c CHECK (a > 0))" = .err .unexpectedCurrentToken ∧
    Pg.parse s%"CREATE TABLE t (a INT, FOREIGN KEY (a) REFERENCES u (id) ON DELETE CASCADE)" = .err .unexpectedCurrentToken ∧
    ∃ x, Pg.parse s%"CREATE TABLE t (a INT, FOREIGN KEY (a) REFERENCES u (id))" = .ok x := by
  refine ⟨by decide +kernel, by decide +kernel, by decide +kernel, ⟨_, rfl⟩⟩

/-- C62 for MySQL.  A primary key is the first constraint wherever it is written.  Missing: a `CHECK` or a `REFERENCES` in the last column, in front
of another constraint or of a comment, and two actions at the latter, see `C62_mysql_skips_fails`; attributes behind constraints or comments,
and others than `NOT NULL` and `ON` behind `DEFAULT`, see `C62_mysql_order_fails`; something else with the name of the
primary key. -/
theorem C62_mysql_partial (s : Str) (ts : List Token) (l : List My.MStmt) (hw : Writes .mysql true s ts)
    (h : Script My.Written.Statement ts l) : My.parse s = .ok l := by
  rw [My.parse, lex_of_writes hw]
  exact script_read My.Written.statement_consumed h (noPanic_of_writes hw)

set_option maxRecDepth 8000 in
/-- The hypotheses can be met: attributes, a comment, an index in front of the primary key, and an option. -/
example : ∃ ts t, Writes .mysql true s%"CREATE TABLE t (id BIGINT NOT NULL AUTO_INCREMENT COMMENT 'key', b VARCHAR(8) DEFAULT 1 NOT NULL CHECK (b > 2), c INT, INDEX i (b DESC), PRIMARY KEY (id)) ENGINE=x" ts ∧
    Script My.Written.Statement ts [.createTable t] ∧ t.columns.length = 3 ∧ (t.constraints.map My.Written.isKey) = [true, false, false] := by
  refine ⟨([⟨.CREATE, s%"CREATE"⟩, ⟨.TABLE, s%"TABLE"⟩] ++ ([] ++ nameTok s%"t" :: opn ::
      (((nameTok s%"id" :: ([⟨.BIGINT, s%"BIGINT"⟩] ++ ([⟨.NOT, s%"NOT"⟩, ⟨.NULL, s%"NULL"⟩, ⟨.AUTO_INCREMENT, s%"AUTO_INCREMENT"⟩] ++ ([] ++ [⟨.COMMENT, s%"COMMENT"⟩, nameTok s%"'key'"])))) ++ commaTok ::
       ((nameTok s%"b" :: (([⟨.VARCHAR, s%"VARCHAR"⟩] ++ opn :: ([nameTok s%"8"] ++ [cls])) ++ (⟨.DEFAULT, s%"DEFAULT"⟩ :: ([nameTok s%"1"] ++ [⟨.NOT, s%"NOT"⟩, ⟨.NULL, s%"NULL"⟩]) ++
         ((⟨.CHECK, s%"CHECK"⟩ :: opn :: ([nameTok s%"b", ⟨.GREATER, s%">"⟩, nameTok s%"2"] ++ [cls])) ++ [])))) ++ commaTok ::
       ((nameTok s%"c" :: ([⟨.INTEGER, s%"INT"⟩] ++ ([] ++ ([] ++ [])))) ++ commaTok ::
       (([⟨.INDEX, s%"INDEX"⟩] ++ nameTok s%"i" :: (opn :: (([nameTok s%"b", ⟨.DESC, s%"DESC"⟩]) ++ [cls]))) ++ commaTok ::
       ([] ++ ([⟨.PRIMARY, s%"PRIMARY"⟩, ⟨.KEY, s%"KEY"⟩] ++ opn :: ([nameTok s%"id"] ++ [cls]))))))) ++ cls ::
        ([⟨.ENGINE, s%"ENGINE"⟩] ++ ⟨.EQUAL, s%"="⟩ :: nameTok s%"x" :: [])))),
    ⟨[], false, newObjectName .mysql s%"t",
      [⟨word .mysql (nameTok s%"id"), ⟨s%"BIGINT", .BIGINT, []⟩, none, none, none, true, true, [], s%"'key'"⟩] ++
      ([⟨word .mysql (nameTok s%"b"), ⟨s%"VARCHAR", .VARCHAR, [word .mysql (nameTok s%"8")]⟩, none, none, some ⟨some [word .mysql (nameTok s%"1")]⟩, true, false, [], []⟩] ++
      ([⟨word .mysql (nameTok s%"c"), ⟨s%"INT", .INTEGER, []⟩, none, none, none, false, false, [], []⟩] ++ ([] ++ []))),
      keyFirst My.Written.isKey ([] ++ ([.check (given s%"t_b_check") (given s%"(" :: ([word .mysql (nameTok s%"b"), given s%">", word .mysql (nameTok s%"2")] ++ [given s%")"]))] ++
      ([] ++ ([.index (word .mysql (nameTok s%"i")) false [⟨word .mysql (nameTok s%"b"), some true⟩]] ++ [.primaryKey (given s%"PRIMARY KEY") [⟨word .mysql (nameTok s%"id"), none⟩]])))),
      [⟨s%"ENGINE", [word .mysql (nameTok s%"x")]⟩]⟩, ?_, ?_, rfl, rfl⟩
  · exact writes_of_lex_eq (by decide +kernel) (by decide +kernel)
  refine .last _ _ (.table _ _ ⟨_, _, _, _, _, _, rfl, rfl, rfl, rfl, rfl, by decide, ?_, keyFirst_of_nodup (by decide +kernel), by decide +kernel, rfl, .cons _ _ _ _ _ _ (by decide) rfl rfl .nil⟩)
  refine .cons _ _ _ _ _ _ _ true (.column _ _ _ _ _ { nullity := some true, autoIncrement := true } _ _ _ rfl rfl (.inl ⟨_, [], ?_, rfl, rfl, by simp, .inl ⟨rfl, rfl⟩⟩)
    (.notNull _ _ _ { autoIncrement := true } rfl rfl rfl (.autoIncrement _ _ {} rfl rfl .nil)) rfl rfl rfl rfl rfl rfl .nil (.inr ⟨_, _, rfl, rfl, rfl⟩) (.inl rfl)) rfl (.inl rfl) ?_
  · decide
  refine .cons _ _ _ _ _ _ _ false (.column _ _ _ _ _ { default := some _, nullity := some true } _ _ _ rfl rfl (.inl ⟨_, [_], ?_, rfl, rfl, by decide, .inr ⟨by simp, rfl⟩⟩)
    (.default _ _ _ _ { nullity := some true } rfl ?_ rfl (by decide) (.notNull _ _ _ {} rfl rfl rfl .nil)) rfl rfl rfl rfl rfl rfl
    (.last _ _ (.check _ _ _ rfl ?_)) (.inl ⟨rfl, rfl⟩) (.inr rfl)) rfl (.inr rfl) ?_
  · decide
  · exact .word _ _ _ _ (by decide) .nil
  · exact .word _ _ _ (by decide) (by decide) (by decide) (.sign _ _ _ (by decide) (by decide) (.word _ _ _ (by decide) (by decide) (by decide) .nil))
  refine .cons _ _ _ _ _ _ _ true (.column _ _ _ _ _ {} _ _ _ rfl rfl (.inl ⟨_, [], ?_, rfl, rfl, by simp, .inl ⟨rfl, rfl⟩⟩)
    .nil rfl rfl rfl rfl rfl rfl .nil (.inl ⟨rfl, rfl⟩) (.inl rfl)) rfl (.inl rfl) ?_
  · decide
  refine .cons _ _ _ _ _ _ _ true (.constraint _ _ (.index _ _ _ _ (.inr rfl) rfl ?_)) rfl (.inl rfl) ?_
  · exact ⟨[(word .mysql (nameTok s%"b"), some true)], ⟨_, rfl, .one _ _ (some true) rfl rfl⟩, rfl⟩
  refine .one _ _ _ (.constraint _ _ (.primaryKey _ _ _ [] _ _ (.inl ⟨rfl, rfl⟩) rfl ?_))
  · exact ⟨[(word .mysql (nameTok s%"id"), none)], ⟨_, rfl, .one _ _ none rfl rfl⟩, rfl⟩

/-- C62 fails where the parser skips a token: a `CHECK` or a `REFERENCES` in the only column, with or without an action, and in front of a comment
is an error.  Of two actions behind `REFERENCES` the first is lost. -/
theorem C62_mysql_skips_fails : My.parse s%"CREATE TABLE t (a INT CHECK (a > 0))" = .err .unexpectedCurrentToken ∧
    My.parse s%"CREATE TABLE t (a INT REFERENCES u (id) ON DELETE CASCADE)" = .err .unexpectedCurrentToken ∧
    My.parse s%"CREATE TABLE t (a INT CHECK (a > 0) COMMENT 'x', b INT)" = .err .unexpectedCurrentToken ∧
    (∃ t : My.CreateTable, My.parse s%"CREATE TABLE t (a INT REFERENCES u (id) ON DELETE CASCADE ON UPDATE NO ACTION, b INT)" = .ok [.createTable t] ∧
      t.constraints = [.foreignKey (given s%"t_a_fkey") [⟨given s%"a", none⟩] (given s%"u") [⟨given s%"id", none⟩] s%"ON UPDATE NO ACTION"]) ∧
    ∃ x, My.parse s%"CREATE TABLE t (a INT, FOREIGN KEY (a) REFERENCES u (id) ON DELETE CASCADE ON UPDATE NO ACTION)" = .ok x := by
  refine ⟨by decide +kernel, by decide +kernel, by decide +kernel, ⟨_, rfl, by decide +kernel⟩, ⟨_, rfl⟩⟩

/-- C62 fails for another order: an attribute behind a constraint or a comment, and `AUTO_INCREMENT` or `COLLATE` behind a default value are errors. -/
theorem C62_mysql_order_fails : My.parse s%"CREATE TABLE t (a INT UNIQUE NOT NULL)" = .err .unexpectedCurrentToken ∧
    My.parse s%"CREATE TABLE t (a INT COMMENT 'x' NOT NULL)" = .err .unexpectedCurrentToken ∧
    My.parse s%"CREATE TABLE t (a INT DEFAULT 1 AUTO_INCREMENT)" = .err .unexpectedCurrentToken ∧
    My.parse s%"CREATE TABLE t (a VARCHAR(10) DEFAULT 'x' COLLATE y)" = .err .unexpectedCurrentToken ∧
    ∃ x, My.parse s%"CREATE TABLE t (a VARCHAR(10) COLLATE y DEFAULT 'x' NOT NULL UNIQUE COMMENT 'x')" = .ok x := by
  refine ⟨by decide +kernel, by decide +kernel, by decide +kernel, by decide +kernel, ⟨_, rfl⟩⟩

/-- C62 for CockroachDB.  A primary key is the first constraint wherever it is written.  Missing: a `CHECK` or a `REFERENCES` without `ON` in the
last column or in front of another constraint, and a method of an index other than in front of a column, see `C62_cockroachdb_skips_fails`;
attributes behind constraints, and others than `NOT NULL` and `NOT VISIBLE` behind a value, see `C62_cockroachdb_order_fails`; `CHECK`, `UNIQUE` and
`ON` in constraints of the table, see `C62_cockroachdb_constraints_fails`; two primary keys with different names, and something else
with the name of the primary key. -/
theorem C62_cockroachdb_partial (s : Str) (ts : List Token) (l : List Crdb.CStmt) (hw : Writes .cockroachdb true s ts)
    (h : Script Crdb.Written.Statement ts l) : Crdb.parse s = .ok l := by
  rw [Crdb.parse, lex_of_writes hw]
  exact script_read Crdb.Written.statement_consumed h (noPanic_of_writes hw)

set_option maxRecDepth 8000 in
/-- The hypotheses can be met: a computed column, a column that is not visible, an action, a method of an index, and the primary key moved. -/
example : ∃ ts t, Writes .cockroachdb true s%"CREATE TABLE t (a INT8 AS (b + 1) STORED NOT NULL, b DOUBLE PRECISION NOT VISIBLE UNIQUE, c STRING(8) DEFAULT 1::STRING REFERENCES u (k) ON DELETE NO ACTION, INDEX i (b DESC) USING hash, d UUID, PRIMARY KEY (a, b))" ts ∧
    Script Crdb.Written.Statement ts [.createTable t] ∧ t.columns.length = 4 ∧ (t.constraints.map Crdb.Written.isKey) = [true, false, false, false] := by
  refine ⟨([⟨.CREATE, s%"CREATE"⟩, ⟨.TABLE, s%"TABLE"⟩] ++ ([] ++ nameTok s%"t" :: opn ::
      (((nameTok s%"a" :: ([⟨.INT8, s%"INT8"⟩] ++ ((⟨.AS, s%"AS"⟩ :: ((opn :: ([nameTok s%"b", ⟨.PLUS, s%"+"⟩, nameTok s%"1"] ++ cls :: [])) ++ ([⟨.STORED, s%"STORED"⟩] ++ [⟨.NOT, s%"NOT"⟩, ⟨.NULL, s%"NULL"⟩]))) ++ []))) ++ commaTok ::
       ((nameTok s%"b" :: ([⟨.DOUBLE, s%"DOUBLE"⟩, ⟨.PRECISION, s%"PRECISION"⟩] ++ ([⟨.NOT, s%"NOT"⟩, ⟨.VISIBLE, s%"VISIBLE"⟩] ++ ([⟨.UNIQUE, s%"UNIQUE"⟩] ++ [])))) ++ commaTok ::
       ((nameTok s%"c" :: (([⟨.STRING, s%"STRING"⟩] ++ opn :: ([nameTok s%"8"] ++ [cls])) ++ ((⟨.DEFAULT, s%"DEFAULT"⟩ :: ([nameTok s%"1", ⟨.TYPECAST, s%"::"⟩, ⟨.STRING, s%"STRING"⟩] ++ [])) ++
         ((⟨.REFERENCES, s%"REFERENCES"⟩ :: nameTok s%"u" :: ((opn :: ([nameTok s%"k"] ++ [cls])) ++ [⟨.ON, s%"ON"⟩, ⟨.DELETE, s%"DELETE"⟩, ⟨.NO, s%"NO"⟩, ⟨.ACTION, s%"ACTION"⟩])) ++ [])))) ++ commaTok ::
       (([⟨.INDEX, s%"INDEX"⟩] ++ nameTok s%"i" :: ((opn :: (([nameTok s%"b", ⟨.DESC, s%"DESC"⟩]) ++ [cls])) ++ [⟨.USING, s%"USING"⟩, nameTok s%"hash"])) ++ commaTok ::
       ((nameTok s%"d" :: ([⟨.UUID, s%"UUID"⟩] ++ ([] ++ []))) ++ commaTok ::
       ([] ++ ([⟨.PRIMARY, s%"PRIMARY"⟩, ⟨.KEY, s%"KEY"⟩] ++ opn :: ([nameTok s%"a", commaTok, nameTok s%"b"] ++ [cls])))))))) ++ [cls]))),
    ⟨[], false, newObjectName .cockroachdb s%"t",
      [⟨word .cockroachdb (nameTok s%"a"), ⟨s%"INT8", .INT8, []⟩, none, true, false,
        some ⟨some (given s%"(" :: ([word .cockroachdb (nameTok s%"b"), word .cockroachdb ⟨.PLUS, s%"+"⟩, word .cockroachdb (nameTok s%"1")] ++ given s%")" :: [])), some .STORED⟩⟩] ++
      ([⟨word .cockroachdb (nameTok s%"b"), ⟨s%"DOUBLE PRECISION", .FLOAT8, []⟩, none, false, true, none⟩] ++
      ([⟨word .cockroachdb (nameTok s%"c"), ⟨s%"STRING", .STRING, [word .cockroachdb (nameTok s%"8")]⟩,
        some ⟨some [word .cockroachdb (nameTok s%"1"), word .cockroachdb ⟨.TYPECAST, s%"::"⟩, word .cockroachdb ⟨.STRING, s%"STRING"⟩]⟩, false, false, none⟩] ++
      ([] ++ ([⟨word .cockroachdb (nameTok s%"d"), ⟨s%"UUID", .UUID, []⟩, none, false, false, none⟩] ++ [])))),
      keyFirst Crdb.Written.isKey ([] ++ ([.index (given s%"t_unique_b") true none [⟨word .cockroachdb (nameTok s%"b"), none⟩] none] ++
      ([.foreignKey (given s%"t_c_fkey") [⟨word .cockroachdb (nameTok s%"c"), none⟩] (word .cockroachdb (nameTok s%"u")) [⟨word .cockroachdb (nameTok s%"k"), none⟩] s%"ON DELETE NO ACTION"] ++
      ([.index (word .cockroachdb (nameTok s%"i")) false none [⟨word .cockroachdb (nameTok s%"b"), some true⟩] (some ⟨some [word .cockroachdb (nameTok s%"hash")], none⟩)] ++
      ([] ++ [.primaryKey (given s%"t_pkey") [⟨word .cockroachdb (nameTok s%"a"), none⟩, ⟨word .cockroachdb (nameTok s%"b"), none⟩]]))))), []⟩, ?_, ?_, rfl, rfl⟩
  · exact writes_of_lex_eq (by decide +kernel) (by decide +kernel)
  refine .last _ _ (.table _ _ ⟨_, _, _, _, _, rfl, rfl, rfl, rfl, rfl, by decide, ?_, keyFirst_of_nodup (by decide +kernel), by decide +kernel, rfl, rfl⟩)
  refine .cons _ _ _ _ _ _ _ true (.column _ _ _ _ { computed := some (_, some .STORED), nullity := some true } _ _ _ rfl rfl ⟨_, [], ?_, rfl, rfl, by simp, .inl ⟨rfl, rfl⟩⟩
    (.computed _ _ _ _ _ _ { nullity := some true } rfl (.group _ _ _ _ _ ?_ .nil) ⟨by simp, rfl⟩ rfl (by decide) (.notNull _ _ _ {} rfl rfl rfl .nil))
    rfl rfl rfl rfl .nil) rfl (.inl rfl) ?_
  · decide
  · exact .word _ _ _ (by decide) (by decide) (by decide) (.word _ _ _ (by decide) (by decide) (by decide) (.word _ _ _ (by decide) (by decide) (by decide) .nil))
  refine .cons _ _ _ _ _ _ _ true (.column _ _ _ _ { notVisible := true } _ _ _ rfl rfl ⟨_, [], ?_, rfl, by decide, by simp, .inl ⟨rfl, rfl⟩⟩
    (.notVisible _ _ _ {} rfl rfl rfl .nil) rfl rfl rfl rfl (.cons _ _ _ _ _ (.unique _ rfl) .nil)) rfl (.inl rfl) ?_
  · decide
  refine .cons _ _ _ _ _ _ _ true (.column _ _ _ _ { default := some _ } _ _ _ rfl rfl ⟨_, [_], ?_, rfl, rfl, by decide, .inr ⟨by simp, rfl⟩⟩
    (.default _ _ _ _ {} rfl ?_ rfl (by decide) .nil) rfl rfl rfl rfl (.cons _ _ _ _ _ (.references _ _ _ _ _ rfl rfl ?_ ?_) .nil)) rfl (.inl rfl) ?_
  · decide
  · exact .word _ _ _ _ (by decide) (.word _ _ _ _ (by decide) (.later _ _ _ (by decide) .nil))
  · exact ⟨[(word .cockroachdb (nameTok s%"k"), none)], ⟨_, rfl, .one _ _ none rfl rfl⟩, rfl⟩
  · exact ⟨_, .inl rfl, .inr rfl⟩
  refine .cons _ _ _ _ _ _ _ false (.constraint _ _ _ (.indexUsing _ _ _ _ false _ _ rfl rfl ?_ (.plain _ _ rfl rfl))) rfl (.inr rfl) ?_
  · exact ⟨[(word .cockroachdb (nameTok s%"b"), some true)], ⟨_, rfl, .one _ _ (some true) rfl rfl⟩, rfl⟩
  refine .cons _ _ _ _ _ _ _ true (.column _ _ _ _ {} _ _ _ rfl rfl ⟨_, [], ?_, rfl, rfl, by simp, .inl ⟨rfl, rfl⟩⟩ .nil rfl rfl rfl rfl .nil) rfl (.inl rfl) ?_
  · decide
  refine .one _ _ _ (.constraint _ _ _ (.primaryKey [] _ _ _ _ (.inl ⟨rfl, by decide +kernel⟩) rfl ?_))
  exact ⟨[(word .cockroachdb (nameTok s%"a"), none), (word .cockroachdb (nameTok s%"b"), none)],
    ⟨_, rfl, .cons _ _ [] _ none _ rfl rfl rfl (.one _ [] none rfl rfl)⟩, rfl⟩

/-- C62 fails where the parser skips a token: a `CHECK` or a `REFERENCES` in the only column, and the method of an index at the end
is an error. -/
theorem C62_cockroachdb_skips_fails : Crdb.parse s%"CREATE TABLE t (a INT CHECK (a > 0))" = .err .unexpectedCurrentToken ∧
    Crdb.parse s%"CREATE TABLE t (a INT REFERENCES u (id))" = .err .unexpectedCurrentToken ∧
    Crdb.parse s%"CREATE TABLE t (a INT, INDEX i (a) USING hash)" = .err .unexpectedCurrentToken ∧
    Crdb.parse s%"CREATE INDEX i ON t USING gin (a)" = .err .unexpectedCurrentToken ∧
    Crdb.parse s%"CREATE INDEX i ON t (a) USING gin" = .err .unexpectedCurrentToken ∧
    ∃ x, Crdb.parse s%"CREATE TABLE t (a INT REFERENCES u (id) ON DELETE CASCADE, INDEX i (a) USING hash, b INT CHECK (a > 0), c INT)" = .ok x := by
  refine ⟨by decide +kernel, by decide +kernel, by decide +kernel, by decide +kernel, by decide +kernel, ⟨_, rfl⟩⟩

/-- C62 fails for another order: an attribute behind a constraint is an error, and so is `AS` behind `DEFAULT 1`. -/
theorem C62_cockroachdb_order_fails : Crdb.parse s%"CREATE TABLE t (a INT UNIQUE NOT NULL)" = .err .unexpectedCurrentToken ∧
    Crdb.parse s%"CREATE TABLE t (a INT PRIMARY KEY DEFAULT 1)" = .err .unexpectedCurrentToken ∧
    (∃ t : Crdb.CreateTable, Crdb.parse s%"CREATE TABLE t (a INT DEFAULT 1 NULL)" = .ok [.createTable t] ∧
      t.columns.map (·.default) = [some ⟨some [given s%"1", given s%"NULL"]⟩]) ∧
    ∃ x, Crdb.parse s%"CREATE TABLE t (a INT DEFAULT 1 NOT NULL NOT VISIBLE UNIQUE)" = .ok x := by
  refine ⟨by decide +kernel, by decide +kernel, ⟨_, rfl, rfl⟩, ⟨_, rfl⟩⟩

/-- C62 fails for constraints of the table that the parser of CockroachDB knows in the definition of a column only: `CHECK`, `UNIQUE` without `INDEX`,
and `ON` behind `REFERENCES`. -/
theorem C62_cockroachdb_constraints_fails : Crdb.parse s%"CREATE TABLE t (a INT, CHECK (a > 0))" = .err .unexpectedCurrentToken ∧
    Crdb.parse s%"CREATE TABLE t (a INT, CONSTRAINT c UNIQUE (a))" = .err .unexpectedPeekToken ∧
    Crdb.parse s%"CREATE TABLE t (a INT, FOREIGN KEY (a) REFERENCES u (id) ON DELETE CASCADE)" = .err .unexpectedCurrentToken ∧
    ∃ x, Crdb.parse s%"CREATE TABLE t (a INT, UNIQUE INDEX c (a), FOREIGN KEY (a) REFERENCES u (id))" = .ok x := by
  refine ⟨by decide +kernel, by decide +kernel, by decide +kernel, ⟨_, rfl⟩⟩

/-- C62 for Spanner.  Missing: a `CHECK` or a `REFERENCES` in the last column or in front of another constraint or of `OPTIONS`, see
`C62_spanner_skips_fails`; `OPTIONS` behind a value, see `C62_spanner_order_fails`; `ON` in constraints of the table and two constraints of which one
has no name, see `C62_spanner_constraints_fails`. -/
theorem C62_spanner_partial (s : Str) (ts : List Token) (l : List Sp.SStmt) (hw : Writes .spanner true s ts)
    (h : Script Sp.Written.Statement ts l) : Sp.parse s = .ok l := by
  rw [Sp.parse, lex_of_writes hw]
  exact script_read Sp.Written.statement_consumed h (noPanic_of_writes hw)

set_option maxRecDepth 8000 in
/-- The hypotheses can be met: a reference, a value, options, constraints of the table, and all that may be behind the columns. -/
example : ∃ ts t i, Writes .spanner true s%"CREATE TABLE t (a INT64 REFERENCES u (k), b STRING(MAX) DEFAULT (1) NOT NULL, c TIMESTAMP OPTIONS (x = true), CONSTRAINT q CHECK (a >= 2), FOREIGN KEY (b) REFERENCES v (b)) PRIMARY KEY (a, b DESC), INTERLEAVE IN PARENT w ON DELETE CASCADE, ROW DELETION POLICY (OLDER_THAN(c, INTERVAL 3 DAY)); CREATE UNIQUE INDEX IF NOT EXISTS i ON t (c)" ts ∧
    Script Sp.Written.Statement ts [.createTable t, .createIndex i] ∧ t.columns.length = 3 ∧ t.constraints.length = 3 ∧ t.options.length = 2 := by
  refine ⟨([⟨.CREATE, s%"CREATE"⟩, ⟨.TABLE, s%"TABLE"⟩] ++ ([] ++ nameTok s%"t" :: opn ::
      (((nameTok s%"a" :: ([⟨.INT64, s%"INT64"⟩] ++ ([] ++ ((⟨.REFERENCES, s%"REFERENCES"⟩ :: nameTok s%"u" :: (opn :: ([nameTok s%"k"] ++ [cls]))) ++ [])))) ++ commaTok ::
       ((nameTok s%"b" :: (([⟨.STRING, s%"STRING"⟩] ++ opn :: ([nameTok s%"MAX"] ++ [cls])) ++ ((⟨.DEFAULT, s%"DEFAULT"⟩ :: ((opn :: ([nameTok s%"1"] ++ cls :: [])) ++ [⟨.NOT, s%"NOT"⟩, ⟨.NULL, s%"NULL"⟩])) ++ ([] ++ [])))) ++ commaTok ::
       ((nameTok s%"c" :: ([⟨.TIMESTAMP, s%"TIMESTAMP"⟩] ++ ([] ++ ([] ++ (⟨.OPTIONS, s%"OPTIONS"⟩ :: opn :: ([nameTok s%"x", ⟨.EQUAL, s%"="⟩, ⟨.TRUE, s%"true"⟩] ++ [cls])))))) ++ commaTok ::
       (([⟨.CONSTRAINT, s%"CONSTRAINT"⟩, nameTok s%"q"] ++ ⟨.CHECK, s%"CHECK"⟩ :: opn :: ([nameTok s%"a", ⟨.GREATER, s%">"⟩, ⟨.EQUAL, s%"="⟩, nameTok s%"2"] ++ [cls])) ++ commaTok ::
       ([] ++ ([⟨.FOREIGN, s%"FOREIGN"⟩, ⟨.KEY, s%"KEY"⟩] ++ ((opn :: ([nameTok s%"b"] ++ [cls])) ++ ⟨.REFERENCES, s%"REFERENCES"⟩ :: nameTok s%"v" :: (opn :: ([nameTok s%"b"] ++ [cls]))))))))) ++ cls ::
       ([⟨.PRIMARY, s%"PRIMARY"⟩, ⟨.KEY, s%"KEY"⟩] ++ opn :: ([nameTok s%"a", commaTok, nameTok s%"b", ⟨.DESC, s%"DESC"⟩] ++ cls :: (commaTok ::
        ([⟨.INTERLEAVE, s%"INTERLEAVE"⟩, ⟨.IN, s%"IN"⟩, ⟨.PARENT, s%"PARENT"⟩] ++ nameTok s%"w" :: ([⟨.ON, s%"ON"⟩, ⟨.DELETE, s%"DELETE"⟩, ⟨.CASCADE, s%"CASCADE"⟩] ++ (commaTok ::
         ([⟨.ROW, s%"ROW"⟩, ⟨.DELETION, s%"DELETION"⟩, ⟨.POLICY, s%"POLICY"⟩] ++ ([opn, ⟨.OLDER_THAN, s%"OLDER_THAN"⟩, opn, nameTok s%"c", commaTok, ⟨.INTERVAL, s%"INTERVAL"⟩, nameTok s%"3", ⟨.DAY, s%"DAY"⟩, cls, cls] ++ []))))))))))) ++
     ⟨.SEMICOLON, s%";"⟩ :: ([⟨.CREATE, s%"CREATE"⟩, ⟨.UNIQUE, s%"UNIQUE"⟩, ⟨.INDEX, s%"INDEX"⟩] ++ ([⟨.IF, s%"IF"⟩, ⟨.NOT, s%"NOT"⟩, ⟨.EXISTS, s%"EXISTS"⟩] ++ nameTok s%"i" :: ⟨.ON, s%"ON"⟩ :: nameTok s%"t" :: ([] ++ opn :: ([nameTok s%"c"] ++ [cls])))),
    ⟨[], false, newObjectName .spanner s%"t",
      [⟨word .spanner (nameTok s%"a"), ⟨s%"INT64", .INT64, []⟩, none, false, none⟩] ++
      ([⟨word .spanner (nameTok s%"b"), ⟨s%"STRING", .STRING, [word .spanner (nameTok s%"MAX")]⟩, some ⟨some [given s%"(", word .spanner (nameTok s%"1"), given s%")"]⟩, true, none⟩] ++
      ([⟨word .spanner (nameTok s%"c"), ⟨s%"TIMESTAMP", .TIMESTAMP, []⟩, none, false, some (given s%"(" :: ([word .spanner (nameTok s%"x"), word .spanner ⟨.EQUAL, s%"="⟩, given s%"TRUE"] ++ [given s%")"]))⟩] ++ ([] ++ []))),
      [.foreignKey (given s%"t_a_fkey") [⟨word .spanner (nameTok s%"a"), none⟩] (word .spanner (nameTok s%"u")) [⟨word .spanner (nameTok s%"k"), none⟩]] ++
      ([] ++ ([] ++ ([.check (some (word .spanner (nameTok s%"q"))) (given s%"(" :: ([word .spanner (nameTok s%"a"), newRawIdent .spanner s%">=", word .spanner (nameTok s%"2")] ++ [given s%")"]))] ++
      [.foreignKey (given s%"t_b ASC_fkey") [⟨word .spanner (nameTok s%"b"), none⟩] (word .spanner (nameTok s%"v")) [⟨word .spanner (nameTok s%"b"), none⟩]]))),
      [⟨s%"PRIMARY KEY", given s%"(" :: ([word .spanner (nameTok s%"a"), word .spanner commaTok, word .spanner (nameTok s%"b"), word .spanner ⟨.DESC, s%"DESC"⟩] ++ [given s%")"])⟩,
       ⟨s%"INTERLEAVE IN PARENT", [word .spanner (nameTok s%"w"), given s%"ON DELETE CASCADE"]⟩],
      some ⟨s%"ROW DELETION POLICY", [opn, ⟨.OLDER_THAN, s%"OLDER_THAN"⟩, opn, nameTok s%"c", commaTok, ⟨.INTERVAL, s%"INTERVAL"⟩, nameTok s%"3", ⟨.DAY, s%"DAY"⟩, cls, cls].map (word .spanner)⟩⟩,
    ⟨[], true, true, newObjectName .spanner s%"i", newObjectName .spanner s%"t", [], [⟨word .spanner (nameTok s%"c"), none⟩]⟩, ?_, ?_, rfl, rfl, rfl⟩
  · exact writes_of_lex_eq (by decide +kernel) (by decide +kernel)
  have one : ∀ s, Sp.Written.Columns (opn :: ([nameTok s] ++ [cls])) [⟨word .spanner (nameTok s), none⟩] := fun s =>
    ⟨[(word .spanner (nameTok s), none)], ⟨_, rfl, .one _ _ none rfl rfl⟩, rfl⟩
  refine .cons _ _ _ _ _ (.table _ _ ⟨_, _, _, _, _, _, rfl, rfl, rfl, rfl, rfl, by decide, ?_, lastWinsAtFirst_self (by decide +kernel), .inr (by decide +kernel), rfl, ?_⟩) rfl
    (.last _ _ (.index _ _ ⟨_, _, _, _, _, _, _, rfl, rfl, rfl, rfl, rfl, rfl, rfl, rfl, .inl ⟨rfl, rfl⟩, one _, rfl⟩))
  · refine .cons _ _ _ _ _ _ _ false (.column _ _ _ _ _ {} _ _ _ _ rfl rfl ⟨_, [], by decide, rfl, rfl, by simp, .inl ⟨rfl, rfl⟩⟩
      .nil rfl rfl (.inr ⟨_, .refers _ _ _ _ rfl rfl (one _), rfl, rfl⟩) (.inl ⟨rfl, rfl⟩) (.inl rfl)) rfl (.inr rfl) ?_
    refine .cons _ _ _ _ _ _ _ true (.column _ _ _ _ _ { default := some _, nullity := some true } _ _ _ _ rfl rfl ⟨_, [_], by decide, rfl, rfl, by decide, .inr ⟨by simp, rfl⟩⟩
      (.default _ _ _ _ { nullity := some true } _ rfl (.group _ _ _ _ _ (.word _ _ _ (by decide) (by decide) (by decide) .nil) .nil) rfl (by decide)
        (.notNull _ _ _ {} _ rfl rfl rfl .nil)) rfl rfl (.inl ⟨rfl, rfl, rfl⟩) (.inl ⟨rfl, rfl⟩) (.inl rfl)) rfl (.inl rfl) ?_
    refine .cons _ _ _ _ _ _ _ true (.column _ _ _ _ _ {} _ _ _ _ rfl rfl ⟨_, [], by decide, rfl, rfl, by simp, .inl ⟨rfl, rfl⟩⟩
      .nil rfl rfl (.inl ⟨rfl, rfl, rfl⟩) (.inr ⟨_, _, _, rfl, rfl, ?_, rfl⟩) (.inr ⟨rfl, rfl⟩)) rfl (.inl rfl) ?_
    · exact .word _ _ _ (by decide) (by decide) (by decide) (.sign _ _ _ (by decide) (by decide) (.constant _ _ _ (by decide) .nil))
    refine .cons _ _ _ _ _ _ _ true (.constraint _ _ (.check _ _ _ _ _ (.inr ⟨_, _, rfl, rfl, rfl, rfl⟩) rfl ?_)) rfl (.inl rfl) ?_
    · exact .word _ _ _ (by decide) (by decide) (by decide) (.signs _ _ _ _ (by decide) (by decide) (.word _ _ _ (by decide) (by decide) (by decide) .nil))
    exact .one _ _ _ (.constraint _ _ (.foreignKey _ _ _ _ _ _ _ _ _ (.inl ⟨rfl, by decide +kernel⟩) rfl (one _) rfl rfl (one _)))
  · refine .primaryKey _ _ _ _ _ _ rfl ?_ (.comma _ _ _ _ rfl (.interleave _ _ _ _ _ _ _ rfl rfl (.inr (.inl ⟨rfl, rfl⟩)) (.comma _ _ _ _ rfl (.policy _ _ _ _ rfl rfl .nil))))
    have w : ∀ (t : Token) (r : List Token) (w : List Ident), t ∈ [nameTok s%"a", commaTok, nameTok s%"b", ⟨.DESC, s%"DESC"⟩] → Bracketed .spanner r w →
        Bracketed .spanner (t :: r) (word .spanner t :: w) := by
      intro t r w h hr
      refine .word _ _ _ ?_ ?_ ?_ hr <;> revert t <;> decide
    exact w _ _ _ (by decide) (w _ _ _ (by decide) (w _ _ _ (by decide) (w _ _ _ (by decide) .nil)))

/-- C62 fails where the parser skips a token: a `CHECK` or a `REFERENCES` in the only column, and in front of a constraint of the table or of `OPTIONS`
is an error. -/
theorem C62_spanner_skips_fails : Sp.parse s%"CREATE TABLE t (a INT64 CHECK (a > 0)) PRIMARY KEY (a)" = .err .unexpectedCurrentToken ∧
    Sp.parse s%"CREATE TABLE t (a INT64 REFERENCES u (id)) PRIMARY KEY (a)" = .err .unexpectedCurrentToken ∧
    Sp.parse s%"CREATE TABLE t (a INT64 REFERENCES u (id), CONSTRAINT c CHECK (a > 0)) PRIMARY KEY (a)" = .err .unexpectedCurrentToken ∧
    Sp.parse s%"CREATE TABLE t (a INT64 CHECK (a > 0) OPTIONS (x = 1)) PRIMARY KEY (a)" = .err .unexpectedCurrentToken ∧
    ∃ x, Sp.parse s%"CREATE TABLE t (a INT64 REFERENCES u (id), b INT64 CHECK (a > 0), c INT64) PRIMARY KEY (a)" = .ok x := by
  refine ⟨by decide +kernel, by decide +kernel, by decide +kernel, by decide +kernel, ⟨_, rfl⟩⟩

/-- C62 fails for `OPTIONS` behind a default value, which is where Spanner wants them: only another attribute in between makes them known. -/
theorem C62_spanner_order_fails :
    Sp.parse s%"CREATE TABLE t (a TIMESTAMP NOT NULL DEFAULT (x) OPTIONS (allow_commit_timestamp = true)) PRIMARY KEY (a)" = .err .unexpectedCurrentToken ∧
    ∃ x, Sp.parse s%"CREATE TABLE t (a TIMESTAMP DEFAULT (x) NOT NULL OPTIONS (allow_commit_timestamp = true)) PRIMARY KEY (a)" = .ok x := by
  refine ⟨by decide +kernel, ⟨_, rfl⟩⟩

/-- C62 fails for actions behind a foreign key, which are an error, and for two constraints without names, which stop the program. -/
theorem C62_spanner_constraints_fails :
    Sp.parse s%"CREATE TABLE t (a INT64, FOREIGN KEY (a) REFERENCES u (id) ON DELETE CASCADE) PRIMARY KEY (a)" = .err .unexpectedCurrentToken ∧
    Sp.parse s%"CREATE TABLE t (a INT64, CHECK (a > 0), CHECK (a < 9)) PRIMARY KEY (a)" = .panic .nilDeref ∧
    ∃ x, Sp.parse s%"CREATE TABLE t (a INT64, FOREIGN KEY (a) REFERENCES u (id), CONSTRAINT c CHECK (a > 0)) PRIMARY KEY (a)" = .ok x := by
  refine ⟨by decide +kernel, by decide +kernel, ⟨_, rfl⟩⟩

end Ddl.Props
