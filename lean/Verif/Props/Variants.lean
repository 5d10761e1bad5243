import Verif.Lemmas.Variants
import Verif.Lemmas.PgRel
import Verif.Lemmas.CrdbRel
import Verif.Lemmas.MyRel
import Verif.Lemmas.SpRel
import Verif.Lemmas.DecideVariants
import Verif.Lemmas.LexSpec

/-! # Other ways of writing the same schema: C13 (letter case of keywords), C16 (quoting of identifiers) -/

namespace Ddl.Props
open Ddl Spec
set_option autoImplicit false

variable {sd : Str → Str → Str}

/-! ## C13: keywords are case-insensitive

`Writes d true s ts` and `Writes d true s' ts'` with `Pointwise (Recased d) ts ts'`: the texts `s` and `s'` differ only in the letter
case of keywords (and in blanks and comments).  Both parse, or both fail in the same way, and the results are the same statements up
to the letter case of keywords stored inside expressions and actions.  If those keywords were in capitals in both texts already, or
there are none, there is no difference between the two schemas.  Missing: keywords that are stored as they were written are compared
as they were written, see the theorems `C13_…_fails`. -/

/-- C13 for PostgreSQL. Missing: see `C13_postgres_fails`. -/
theorem C13_postgres_partial (s s' : Str) (ts ts' : List Token) (hs : Writes .postgres true s ts)
    (hs' : Writes .postgres true s' ts') (h : Pointwise (Recased .postgres) ts ts') :
    SameOutcome (fun b a =>
      Pointwise (StmtEq (Pg.CreateTable.blur (caseBlur .postgres)) (Pg.CreateIndex.blur (caseBlur .postgres))) b a ∧
      (DistinctObjects (Pg.ops sd) a → (∀ t, .createTable t ∈ a → Pg.DistinctNames t) →
        (∀ t, .createTable t ∈ b → t.blur (caseBlur .postgres) = t.blur .exact) →
        (∀ t, .createTable t ∈ a → t.blur (caseBlur .postgres) = t.blur .exact) →
        diff (Pg.ops sd) (some b) (some a) = .err .noDifference)) (Pg.parse s) (Pg.parse s') := by
  have hl : TsRel (caseBlur .postgres) .postgres (lex .postgres s) (lex .postgres s') := by
    rw [lex_of_writes hs, lex_of_writes hs']
    exact h.imp fun _ _ => tokRel_recased
  exact (Pg.parse_rel hl).imp fun b a hp => ⟨hp, fun hd hn hb ha =>
    Pg.diff_blur hd hn (hp.unblur hb ha)⟩

example : ∃ (s s' : Str) (ts ts' : List Token) (b a : List Pg.PStmt), Writes .postgres true s ts ∧ Writes .postgres true s' ts' ∧
    Pointwise (Recased .postgres) ts ts' ∧ s ≠ s' ∧ Pg.parse s = .ok b ∧ Pg.parse s' = .ok a ∧ b.length = 2 ∧
    DistinctObjects (Pg.ops fun _ _ => []) a ∧ (∀ t, .createTable t ∈ a → Pg.DistinctNames t) ∧
    (∀ t, .createTable t ∈ b → t.blur (caseBlur .postgres) = t.blur .exact) ∧ (∀ t, .createTable t ∈ a → t.blur (caseBlur .postgres) = t.blur .exact) := by
  refine ⟨s%"create table a (b varchar(10) not null default NULL, constraint c primary key (b)); Create Index i on a (b);",
    s%"CREATE TABLE a (b VARCHAR(10) NOT NULL DEFAULT NULL, CONSTRAINT c PRIMARY KEY (b)); CREATE INDEX i ON a (b);", _, _, _, _,
    writes_of_lex _ _ (by decide +kernel), writes_of_lex _ _ (by decide +kernel), by decide +kernel, by decide +kernel, rfl, rfl, rfl, ?_⟩
  decide +kernel

/-- C13 for CockroachDB. Missing: see `C13_cockroachdb_fails`. -/
theorem C13_cockroachdb_partial (s s' : Str) (ts ts' : List Token) (hs : Writes .cockroachdb true s ts)
    (hs' : Writes .cockroachdb true s' ts') (h : Pointwise (Recased .cockroachdb) ts ts') :
    SameOutcome (fun b a =>
      Pointwise (StmtEq (Crdb.CreateTable.blur (caseBlur .cockroachdb)) (Crdb.CreateIndex.blur (caseBlur .cockroachdb))) b a ∧
      (DistinctObjects (Crdb.ops sd) a → (∀ t, .createTable t ∈ a → Crdb.DistinctNames t) →
        Crdb.NoUsing b →
        (∀ t, .createTable t ∈ b → t.blur (caseBlur .cockroachdb) = t.blur .exact) →
        (∀ t, .createTable t ∈ a → t.blur (caseBlur .cockroachdb) = t.blur .exact) →
        diff (Crdb.ops sd) (some b) (some a) = .err .noDifference)) (Crdb.parse s) (Crdb.parse s') := by
  have hl : TsRel (caseBlur .cockroachdb) .cockroachdb (lex .cockroachdb s) (lex .cockroachdb s') := by
    rw [lex_of_writes hs, lex_of_writes hs']
    exact h.imp fun _ _ => tokRel_recased
  exact (Crdb.parse_rel hl).imp fun b a hp => ⟨hp, fun hd hn hu hb ha =>
    Crdb.diff_blur hd hn hu (hp.unblur hb ha)⟩

set_option maxRecDepth 2000 in
example : ∃ (s s' : Str) (ts ts' : List Token) (b a : List Crdb.CStmt), Writes .cockroachdb true s ts ∧ Writes .cockroachdb true s' ts' ∧
    Pointwise (Recased .cockroachdb) ts ts' ∧ s ≠ s' ∧ Crdb.parse s = .ok b ∧ Crdb.parse s' = .ok a ∧ b.length = 2 ∧
    DistinctObjects (Crdb.ops fun _ _ => []) a ∧ (∀ t, .createTable t ∈ a → Crdb.DistinctNames t) ∧
    Crdb.NoUsing b ∧ (∀ t, .createTable t ∈ b → t.blur (caseBlur .cockroachdb) = t.blur .exact) ∧
    (∀ t, .createTable t ∈ a → t.blur (caseBlur .cockroachdb) = t.blur .exact) := by
  refine ⟨s%"create table a (b varchar(10) not null default NULL, constraint c primary key (b)); Create Index i on a (b desc);",
    s%"CREATE TABLE a (b VARCHAR(10) NOT NULL DEFAULT NULL, CONSTRAINT c PRIMARY KEY (b)); CREATE INDEX i ON a (b DESC);", _, _, _, _,
    writes_of_lex _ _ (by decide +kernel), writes_of_lex _ _ (by decide +kernel), by decide +kernel, by decide +kernel, rfl, rfl, rfl, ?_⟩
  decide +kernel

/-- C13 for MySQL. Missing: see `C13_mysql_fails`. -/
theorem C13_mysql_partial (s s' : Str) (ts ts' : List Token) (hs : Writes .mysql true s ts)
    (hs' : Writes .mysql true s' ts') (h : Pointwise (Recased .mysql) ts ts') :
    SameOutcome (fun b a =>
      Pointwise (StmtEq (My.CreateTable.blur (caseBlur .mysql)) (My.CreateIndex.blur (caseBlur .mysql))) b a ∧
      (DistinctObjects (My.ops sd) a → (∀ t, .createTable t ∈ a → My.DistinctNames t) →
        (∀ t, .createTable t ∈ b → t.blur (caseBlur .mysql) = t.blur .exact) →
        (∀ t, .createTable t ∈ a → t.blur (caseBlur .mysql) = t.blur .exact) →
        diff (My.ops sd) (some b) (some a) = .err .noDifference)) (My.parse s) (My.parse s') := by
  have hl : TsRel (caseBlur .mysql) .mysql (lex .mysql s) (lex .mysql s') := by
    rw [lex_of_writes hs, lex_of_writes hs']
    exact h.imp fun _ _ => tokRel_recased
  exact (My.parse_rel hl).imp fun b a hp => ⟨hp, fun hd hn hb ha =>
    My.diff_blur hd hn (hp.unblur hb ha)⟩

set_option maxRecDepth 2000 in
example : ∃ (s s' : Str) (ts ts' : List Token) (b a : List My.MStmt), Writes .mysql true s ts ∧ Writes .mysql true s' ts' ∧
    Pointwise (Recased .mysql) ts ts' ∧ s ≠ s' ∧ My.parse s = .ok b ∧ My.parse s' = .ok a ∧ b.length = 2 ∧
    DistinctObjects (My.ops fun _ _ => []) a ∧ (∀ t, .createTable t ∈ a → My.DistinctNames t) ∧
    (∀ t, .createTable t ∈ b → t.blur (caseBlur .mysql) = t.blur .exact) ∧ (∀ t, .createTable t ∈ a → t.blur (caseBlur .mysql) = t.blur .exact) := by
  refine ⟨s%"create table a (b varchar(10) not null default NULL, constraint c primary key (b)); Create Index i on a (b desc);",
    s%"CREATE TABLE a (b VARCHAR(10) NOT NULL DEFAULT NULL, CONSTRAINT c PRIMARY KEY (b)); CREATE INDEX i ON a (b DESC);", _, _, _, _,
    writes_of_lex _ _ (by decide +kernel), writes_of_lex _ _ (by decide +kernel), by decide +kernel, by decide +kernel, rfl, rfl, rfl, ?_⟩
  decide +kernel

/-- C13 for Spanner. Missing: see `C13_spanner_fails`. -/
theorem C13_spanner_partial (s s' : Str) (ts ts' : List Token) (hs : Writes .spanner true s ts)
    (hs' : Writes .spanner true s' ts') (h : Pointwise (Recased .spanner) ts ts') :
    SameOutcome (fun b a =>
      Pointwise (StmtEq (Sp.CreateTable.blur (caseBlur .spanner)) (Sp.CreateIndex.blur (caseBlur .spanner))) b a ∧
      (DistinctObjects (Sp.ops sd) a → (∀ t, .createTable t ∈ a → Sp.DistinctNames t) →
        (∀ t, .createTable t ∈ b → t.blur (caseBlur .spanner) = t.blur .exact) →
        (∀ t, .createTable t ∈ a → t.blur (caseBlur .spanner) = t.blur .exact) →
        diff (Sp.ops sd) (some b) (some a) = .err .noDifference)) (Sp.parse s) (Sp.parse s') := by
  have hl : TsRel (caseBlur .spanner) .spanner (lex .spanner s) (lex .spanner s') := by
    rw [lex_of_writes hs, lex_of_writes hs']
    exact h.imp fun _ _ => tokRel_recased
  exact (Sp.parse_rel hl).imp fun b a hp => ⟨hp, fun hd hn hb ha =>
    Sp.diff_blur hd hn (hp.unblur hb ha)⟩

example : ∃ (s s' : Str) (ts ts' : List Token) (b a : List Sp.SStmt), Writes .spanner true s ts ∧ Writes .spanner true s' ts' ∧
    Pointwise (Recased .spanner) ts ts' ∧ s ≠ s' ∧ Sp.parse s = .ok b ∧ Sp.parse s' = .ok a ∧ b.length = 2 ∧
    DistinctObjects (Sp.ops fun _ _ => []) a ∧ (∀ t, .createTable t ∈ a → Sp.DistinctNames t) ∧
    (∀ t, .createTable t ∈ b → t.blur (caseBlur .spanner) = t.blur .exact) ∧ (∀ t, .createTable t ∈ a → t.blur (caseBlur .spanner) = t.blur .exact) := by
  refine ⟨s%"create table a (b string(10) not null) primary key (b); Create Index i on a (b desc);",
    s%"CREATE TABLE a (b STRING(10) NOT NULL) PRIMARY KEY (b); CREATE INDEX i ON a (b DESC);", _, _, _, _,
    writes_of_lex _ _ (by decide +kernel), writes_of_lex _ _ (by decide +kernel), by decide +kernel, by decide +kernel, rfl, rfl, rfl, ?_⟩
  decide +kernel

/-- C13 fails for PostgreSQL: the letter case of a type name in a default makes a difference. -/
theorem C13_postgres_fails : ∃ (s s' : Str) (ts ts' : List Token) (b a : List Pg.PStmt), Writes .postgres true s ts ∧ Writes .postgres true s' ts' ∧
    Pointwise (Recased .postgres) ts ts' ∧ Pg.parse s = .ok b ∧ Pg.parse s' = .ok a ∧
    ∀ sd : Str → Str → Str, ∃ l, diff (Pg.ops sd) (some b) (some a) = .ok l := by
  refine ⟨s%"CREATE TABLE a (b TEXT DEFAULT 'x'::text, c TEXT);", s%"CREATE TABLE a (b TEXT DEFAULT 'x'::TEXT, c TEXT);",
    _, _, _, _, writes_of_lex _ _ (by decide +kernel), writes_of_lex _ _ (by decide +kernel), by decide +kernel, rfl, rfl,
    fun sd => ⟨_, rfl⟩⟩

/-- C13 fails for CockroachDB: the letter case of a type name in a default makes a difference. -/
theorem C13_cockroachdb_fails : ∃ (s s' : Str) (ts ts' : List Token) (b a : List Crdb.CStmt), Writes .cockroachdb true s ts ∧ Writes .cockroachdb true s' ts' ∧
    Pointwise (Recased .cockroachdb) ts ts' ∧ Crdb.parse s = .ok b ∧ Crdb.parse s' = .ok a ∧
    ∀ sd : Str → Str → Str, ∃ l, diff (Crdb.ops sd) (some b) (some a) = .ok l := by
  refine ⟨s%"CREATE TABLE a (b TEXT DEFAULT 'x'::text, c TEXT);", s%"CREATE TABLE a (b TEXT DEFAULT 'x'::TEXT, c TEXT);",
    _, _, _, _, writes_of_lex _ _ (by decide +kernel), writes_of_lex _ _ (by decide +kernel), by decide +kernel, rfl, rfl,
    fun sd => ⟨_, rfl⟩⟩

/-- C13 fails for MySQL: the letter case of a keyword in a default makes a difference. -/
theorem C13_mysql_fails : ∃ (s s' : Str) (ts ts' : List Token) (b a : List My.MStmt), Writes .mysql true s ts ∧ Writes .mysql true s' ts' ∧
    Pointwise (Recased .mysql) ts ts' ∧ My.parse s = .ok b ∧ My.parse s' = .ok a ∧
    ∀ sd : Str → Str → Str, ∃ l, diff (My.ops sd) (some b) (some a) = .ok l := by
  refine ⟨s%"CREATE TABLE a (b TIMESTAMP DEFAULT current_timestamp);", s%"CREATE TABLE a (b TIMESTAMP DEFAULT CURRENT_TIMESTAMP);",
    _, _, _, _, writes_of_lex _ _ (by decide +kernel), writes_of_lex _ _ (by decide +kernel), by decide +kernel, rfl, rfl,
    fun sd => ⟨_, rfl⟩⟩

/-- C13 fails for Spanner: the letter case of the sort order in the primary key; the table is dropped and created again makes a difference. -/
theorem C13_spanner_fails : ∃ (s s' : Str) (ts ts' : List Token) (b a : List Sp.SStmt), Writes .spanner true s ts ∧ Writes .spanner true s' ts' ∧
    Pointwise (Recased .spanner) ts ts' ∧ Sp.parse s = .ok b ∧ Sp.parse s' = .ok a ∧
    ∀ sd : Str → Str → Str, ∃ l, diff (Sp.ops sd) (some b) (some a) = .ok l := by
  refine ⟨s%"CREATE TABLE a (b INT64) PRIMARY KEY (b desc);", s%"CREATE TABLE a (b INT64) PRIMARY KEY (b DESC);",
    _, _, _, _, writes_of_lex _ _ (by decide +kernel), writes_of_lex _ _ (by decide +kernel), by decide +kernel, rfl, rfl,
    fun sd => ⟨_, rfl⟩⟩

/-- C13 fails for PostgreSQL: the letter case of the action of a foreign key makes a difference. -/
theorem C13_action_fails : ∃ (s s' : Str) (ts ts' : List Token) (b a : List Pg.PStmt), Writes .postgres true s ts ∧ Writes .postgres true s' ts' ∧
    Pointwise (Recased .postgres) ts ts' ∧ Pg.parse s = .ok b ∧ Pg.parse s' = .ok a ∧
    ∀ sd : Str → Str → Str, ∃ l, diff (Pg.ops sd) (some b) (some a) = .ok l := by
  refine ⟨s%"CREATE TABLE a (b TEXT REFERENCES c (d) ON DELETE CASCADE);", s%"CREATE TABLE a (b TEXT REFERENCES c (d) ON DELETE cascade);",
    _, _, _, _, writes_of_lex _ _ (by decide +kernel), writes_of_lex _ _ (by decide +kernel), by decide +kernel, rfl, rfl,
    fun sd => ⟨_, rfl⟩⟩

/-! ## C16: quoting of identifiers does not cause a diff

`Pointwise (Requoted d) ts ts'`: the texts differ only in whether names are written with or without quotes (and in blanks and
comments).  Names are words of letters, digits, `_` and `.` that are no keywords, anywhere in the text. -/

/-- C16 for PostgreSQL. -/
theorem C16_postgres (s s' : Str) (ts ts' : List Token) (hs : Writes .postgres true s ts)
    (hs' : Writes .postgres true s' ts') (h : Pointwise (Requoted .postgres) ts ts') :
    SameOutcome (fun b a =>
      Pointwise (StmtEq (Pg.CreateTable.blur (quoteBlur .postgres)) (Pg.CreateIndex.blur (quoteBlur .postgres))) b a ∧
      (DistinctObjects (Pg.ops sd) a → (∀ t, .createTable t ∈ a → Pg.DistinctNames t) →
        diff (Pg.ops sd) (some b) (some a) = .err .noDifference)) (Pg.parse s) (Pg.parse s') := by
  have hl : TsRel (quoteBlur .postgres) .postgres (lex .postgres s) (lex .postgres s') := by
    rw [lex_of_writes hs, lex_of_writes hs']
    exact h.imp fun _ _ => tokRel_requoted
  exact (Pg.parse_rel hl).imp fun b a hp => ⟨hp, fun hd hn =>
    Pg.diff_blur hd hn (hp.unblur (fun _ _ => Pg.CreateTable.blur_quote _) (fun _ _ => Pg.CreateTable.blur_quote _))⟩

example : ∃ (s s' : Str) (ts ts' : List Token) (b a : List Pg.PStmt), Writes .postgres true s ts ∧ Writes .postgres true s' ts' ∧
    Pointwise (Requoted .postgres) ts ts' ∧ s ≠ s' ∧ Pg.parse s = .ok b ∧ Pg.parse s' = .ok a ∧ b.length = 2 ∧
    DistinctObjects (Pg.ops fun _ _ => []) a ∧ (∀ t, .createTable t ∈ a → Pg.DistinctNames t) := by
  refine ⟨s%"CREATE TABLE s.a (b INT, \"c\" TEXT, PRIMARY KEY (\"b\")); CREATE INDEX i ON s.a USING btree (b, c);",
    s%"CREATE TABLE \"s.a\" (\"b\" INT, c TEXT, PRIMARY KEY (b)); CREATE INDEX \"i\" ON s.a USING \"btree\" (b, \"c\");", _, _, _, _,
    writes_of_lex _ _ (by decide +kernel), writes_of_lex _ _ (by decide +kernel), by decide +kernel, by decide +kernel, rfl, rfl, rfl, ?_⟩
  decide +kernel

/-- C16 for CockroachDB. Missing: the words behind `USING`, see `C16_cockroachdb_fails`. -/
theorem C16_cockroachdb_partial (s s' : Str) (ts ts' : List Token) (hs : Writes .cockroachdb true s ts)
    (hs' : Writes .cockroachdb true s' ts') (h : Pointwise (Requoted .cockroachdb) ts ts') :
    SameOutcome (fun b a =>
      Pointwise (StmtEq (Crdb.CreateTable.blur (quoteBlur .cockroachdb)) (Crdb.CreateIndex.blur (quoteBlur .cockroachdb))) b a ∧
      (DistinctObjects (Crdb.ops sd) a → (∀ t, .createTable t ∈ a → Crdb.DistinctNames t) →
        Crdb.NoUsing b →
        diff (Crdb.ops sd) (some b) (some a) = .err .noDifference)) (Crdb.parse s) (Crdb.parse s') := by
  have hl : TsRel (quoteBlur .cockroachdb) .cockroachdb (lex .cockroachdb s) (lex .cockroachdb s') := by
    rw [lex_of_writes hs, lex_of_writes hs']
    exact h.imp fun _ _ => tokRel_requoted
  exact (Crdb.parse_rel hl).imp fun b a hp => ⟨hp, fun hd hn hu =>
    Crdb.diff_blur hd hn hu (hp.unblur (fun _ _ => Crdb.CreateTable.blur_quote _) (fun _ _ => Crdb.CreateTable.blur_quote _))⟩

example : ∃ (s s' : Str) (ts ts' : List Token) (b a : List Crdb.CStmt), Writes .cockroachdb true s ts ∧ Writes .cockroachdb true s' ts' ∧
    Pointwise (Requoted .cockroachdb) ts ts' ∧ s ≠ s' ∧ Crdb.parse s = .ok b ∧ Crdb.parse s' = .ok a ∧ b.length = 2 ∧
    DistinctObjects (Crdb.ops fun _ _ => []) a ∧ (∀ t, .createTable t ∈ a → Crdb.DistinctNames t) ∧
    Crdb.NoUsing b := by
  refine ⟨s%"CREATE TABLE s.a (b INT, \"c\" TEXT, PRIMARY KEY (\"b\")); CREATE INDEX i ON s.a (b, c);",
    s%"CREATE TABLE \"s.a\" (\"b\" INT, c TEXT, PRIMARY KEY (b)); CREATE INDEX \"i\" ON s.a (b, \"c\");", _, _, _, _,
    writes_of_lex _ _ (by decide +kernel), writes_of_lex _ _ (by decide +kernel), by decide +kernel, by decide +kernel, rfl, rfl, rfl, ?_⟩
  decide +kernel

/-- C16 for MySQL. Missing: comments of columns, see `C16_mysql_fails`. -/
theorem C16_mysql_partial (s s' : Str) (ts ts' : List Token) (hs : Writes .mysql true s ts)
    (hs' : Writes .mysql true s' ts') (h : Pointwise (Requoted .mysql) ts ts') :
    SameOutcome (fun b a =>
      Pointwise (StmtEq (My.CreateTable.blur (quoteBlur .mysql)) (My.CreateIndex.blur (quoteBlur .mysql))) b a ∧
      (DistinctObjects (My.ops sd) a → (∀ t, .createTable t ∈ a → My.DistinctNames t) →
        (∀ t, .createTable t ∈ b → t.blur (quoteBlur .mysql) = t.blur .exact) →
        (∀ t, .createTable t ∈ a → t.blur (quoteBlur .mysql) = t.blur .exact) →
        diff (My.ops sd) (some b) (some a) = .err .noDifference)) (My.parse s) (My.parse s') := by
  have hl : TsRel (quoteBlur .mysql) .mysql (lex .mysql s) (lex .mysql s') := by
    rw [lex_of_writes hs, lex_of_writes hs']
    exact h.imp fun _ _ => tokRel_requoted
  exact (My.parse_rel hl).imp fun b a hp => ⟨hp, fun hd hn hb ha =>
    My.diff_blur hd hn (hp.unblur hb ha)⟩

set_option maxRecDepth 2000 in
example : ∃ (s s' : Str) (ts ts' : List Token) (b a : List My.MStmt), Writes .mysql true s ts ∧ Writes .mysql true s' ts' ∧
    Pointwise (Requoted .mysql) ts ts' ∧ s ≠ s' ∧ My.parse s = .ok b ∧ My.parse s' = .ok a ∧ b.length = 2 ∧
    DistinctObjects (My.ops fun _ _ => []) a ∧ (∀ t, .createTable t ∈ a → My.DistinctNames t) ∧
    (∀ t, .createTable t ∈ b → t.blur (quoteBlur .mysql) = t.blur .exact) ∧ (∀ t, .createTable t ∈ a → t.blur (quoteBlur .mysql) = t.blur .exact) := by
  refine ⟨s%"CREATE TABLE s.a (b INT, `c` TEXT, PRIMARY KEY (`b`)); CREATE INDEX i ON s.a (b, c);",
    s%"CREATE TABLE `s.a` (`b` INT, c TEXT, PRIMARY KEY (b)); CREATE INDEX `i` ON s.a (b, `c`);", _, _, _, _,
    writes_of_lex _ _ (by decide +kernel), writes_of_lex _ _ (by decide +kernel), by decide +kernel, by decide +kernel, rfl, rfl, rfl, ?_⟩
  decide +kernel

/-- C16 for Spanner. -/
theorem C16_spanner (s s' : Str) (ts ts' : List Token) (hs : Writes .spanner true s ts)
    (hs' : Writes .spanner true s' ts') (h : Pointwise (Requoted .spanner) ts ts') :
    SameOutcome (fun b a =>
      Pointwise (StmtEq (Sp.CreateTable.blur (quoteBlur .spanner)) (Sp.CreateIndex.blur (quoteBlur .spanner))) b a ∧
      (DistinctObjects (Sp.ops sd) a → (∀ t, .createTable t ∈ a → Sp.DistinctNames t) →
        diff (Sp.ops sd) (some b) (some a) = .err .noDifference)) (Sp.parse s) (Sp.parse s') := by
  have hl : TsRel (quoteBlur .spanner) .spanner (lex .spanner s) (lex .spanner s') := by
    rw [lex_of_writes hs, lex_of_writes hs']
    exact h.imp fun _ _ => tokRel_requoted
  exact (Sp.parse_rel hl).imp fun b a hp => ⟨hp, fun hd hn =>
    Sp.diff_blur hd hn (hp.unblur (fun _ _ => Sp.CreateTable.blur_quote _) (fun _ _ => Sp.CreateTable.blur_quote _))⟩

example : ∃ (s s' : Str) (ts ts' : List Token) (b a : List Sp.SStmt), Writes .spanner true s ts ∧ Writes .spanner true s' ts' ∧
    Pointwise (Requoted .spanner) ts ts' ∧ s ≠ s' ∧ Sp.parse s = .ok b ∧ Sp.parse s' = .ok a ∧ b.length = 2 ∧
    DistinctObjects (Sp.ops fun _ _ => []) a ∧ (∀ t, .createTable t ∈ a → Sp.DistinctNames t) := by
  refine ⟨s%"CREATE TABLE a (b INT64, `c` STRING(10)) PRIMARY KEY (`b`); CREATE INDEX i ON a (b, c);",
    s%"CREATE TABLE `a` (`b` INT64, c STRING(10)) PRIMARY KEY (b); CREATE INDEX `i` ON a (b, `c`);", _, _, _, _,
    writes_of_lex _ _ (by decide +kernel), writes_of_lex _ _ (by decide +kernel), by decide +kernel, by decide +kernel, rfl, rfl, rfl, ?_⟩
  decide +kernel

/-- C16 fails for CockroachDB: quoting the method of an index makes a difference. -/
theorem C16_cockroachdb_fails : ∃ (s s' : Str) (ts ts' : List Token) (b a : List Crdb.CStmt), Writes .cockroachdb true s ts ∧ Writes .cockroachdb true s' ts' ∧
    Pointwise (Requoted .cockroachdb) ts ts' ∧ Crdb.parse s = .ok b ∧ Crdb.parse s' = .ok a ∧
    ∀ sd : Str → Str → Str, ∃ l, diff (Crdb.ops sd) (some b) (some a) = .ok l := by
  refine ⟨s%"CREATE TABLE a (b INT, UNIQUE INDEX i (b) USING hash);", s%"CREATE TABLE a (b INT, UNIQUE INDEX i (b) USING \"hash\");",
    _, _, _, _, writes_of_lex _ _ (by decide +kernel), writes_of_lex _ _ (by decide +kernel), by decide +kernel, rfl, rfl,
    fun sd => ⟨_, rfl⟩⟩

/-- C16 fails for MySQL: the quotes of a column comment make a difference. -/
theorem C16_mysql_fails : ∃ (s s' : Str) (ts ts' : List Token) (b a : List My.MStmt), Writes .mysql true s ts ∧ Writes .mysql true s' ts' ∧
    Pointwise (Requoted .mysql) ts ts' ∧ My.parse s = .ok b ∧ My.parse s' = .ok a ∧
    ∀ sd : Str → Str → Str, ∃ l, diff (My.ops sd) (some b) (some a) = .ok l := by
  refine ⟨s%"CREATE TABLE a (b INT COMMENT \"x\");", s%"CREATE TABLE a (b INT COMMENT `x`);",
    _, _, _, _, writes_of_lex _ _ (by decide +kernel), writes_of_lex _ _ (by decide +kernel), by decide +kernel, rfl, rfl,
    fun sd => ⟨_, rfl⟩⟩

end Ddl.Props
