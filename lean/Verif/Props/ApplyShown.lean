import Verif.Props.Converge
import Verif.Props.Show
import Verif.Props.ShowPg
import Verif.Props.ShowText
import Verif.Lemmas.ApplyShown

/-!
# C64: applying to a database the schema it was created from does nothing

The left argument of `apply` is a data source, and the database behind it was created by the schema that is the right argument.  Then
there is nothing to do.  The theorems put together what is shown of the database (C47, C57, C58) and which schemas have no difference (C63).
-/

namespace Ddl.Props
open Ddl Spec Cmd Apply
set_option autoImplicit false

/-- A site where `a` is a data source, shown as the given text, and `b` is a file. -/
def shownSite (shown : Res Str) (b : Str) : Site :=
  { sampleSite [] b (fun _ _ => none) with
    isFile := fun p => decide (p = s%"b")
    exists? := fun p => decide (p = s%"b")
    showTables := fun _ _ => shown
    closeDb := fun _ => none }

theorem shownSite_shown (d : Str) (hd : d ∈ drivers.map Prod.fst) (shown : Res Str) (b : Str) :
    ShownAs (shownSite shown b).toWorld d s%"a" shown := by
  obtain ⟨x, hx, rfl⟩ := List.mem_map.1 hd
  exact ⟨rfl, rfl, ⟨x.2, hx, rfl⟩, rfl, rfl⟩

/-! ## PostgreSQL -/

/-- C64 (PostgreSQL), partial: let the left argument be the data source of a database that can be shown (C58), and the right argument a
schema that creates the same database, but for the methods of the indexes.  Then `apply` prints `no difference` and does nothing else.
Missing: databases with foreign keys, check constraints, numbers with precision or views, see `C64_postgres_check_fails` and C58; schemas
that do not write `NOT NULL` at the columns of primary keys (`C63_postgres_key_fails`); schemas that name their tables without `public`, see
`C64_postgres_unqualified_fails`. -/
theorem C64_postgres_partial (w : Site) {c : Conf.Config} {left right stdin s : Str} {v : Pg.Show.Views} {db : Pg.Show.Db} {a : List Pg.PStmt}
    {B A : Pg.Db.Catalog} (hd : c.dialect = s%"postgres") (hl : ShownAs w.toWorld s%"postgres" left (.ok (Pg.Show.showTables v Pg.Show.pub)))
    (hv : Pg.Show.Holds v db) (hp : db.Plain) (hs : db.Simple) (hu : Pg.Show.Undisturbed v db)
    (hr : resolve w.toWorld c.language c.dialect right = .ok s) (ha : Pg.parse s = .ok a)
    (dd : DistinctObjects (Pg.ops w.sd) (Pg.Show.stmts db)) (da : DistinctObjects (Pg.ops w.sd) a)
    (hB : Pg.Db.Execs Pg.Db.empty (Pg.Show.stmts db) B) (hA : Pg.Db.Execs Pg.Db.empty a A) (same : B.Alike A)
    (hn : Pg.Db.SameNotNull (Pg.Show.stmts db) a) :
    applyCommand w (.ok c) [left, right] stdin = ([.print s%"no difference\n"], .ok ()) := by
  have hb := (C58_postgres_partial hv hp).2 ⟨hs, hu⟩
  rw [hd] at hr
  exact apply_nothing (by rw [hd]; exact sources_postgres (resolve_shown hl) hr hb ha)
    (C63_postgres_same_partial w.sd hb ha dd da hB hA same hn)

/-- The schema of `pgSimple`. -/
def pgSimpleSchema : Str := s%"CREATE TABLE \"public.users\" (
  id bigint NOT NULL DEFAULT nextval('users_id_seq'::regclass), since timestamp with time zone NOT NULL,
  name character varying(255) DEFAULT 'x'::character varying,
  CONSTRAINT users_name UNIQUE (name, since), CONSTRAINT users_pkey PRIMARY KEY (id));
CREATE UNIQUE INDEX users_since ON public.users (since, id);
CREATE TABLE public.groups (id uuid);"

set_option maxRecDepth 8000 in
example : applyCommand (shownSite (.ok (Pg.Show.showTables (Pg.Show.pgViews Pg.Show.pgSimple) Pg.Show.pub)) pgSimpleSchema)
    (.ok (sampleConfig s%"postgres")) [s%"a", s%"b"] [] = ([.print s%"no difference\n"], .ok ()) := by
  obtain ⟨B, A, hB, hA, h, -⟩ := Pg.Db.loads_alike (b := Pg.Show.stmts Pg.Show.pgSimple) (a := valueOf (Pg.parse pgSimpleSchema))
    (by decide +kernel) (by decide +kernel) (by decide +kernel) (by decide +kernel)
  exact C64_postgres_partial (shownSite _ pgSimpleSchema) (a := valueOf (Pg.parse pgSimpleSchema)) rfl (shownSite_shown _ (by decide) _ _)
    Pg.Show.holds_pgSimple Pg.Show.plain_pgSimple ⟨by decide +kernel, by decide +kernel, by decide +kernel⟩
    (by unfold Pg.Show.Undisturbed; decide +kernel) (s := pgSimpleSchema) rfl (by decide +kernel) (by decide +kernel) (by decide +kernel) hB hA h
    (Pg.Db.sameNotNull_of (by decide +kernel))

/-- C64 is violated, always (PostgreSQL): if the schema names its tables without `public`, as is usual, then all tables of the database are dropped,
and all tables of the schema are created, empty.  It does not matter whether the database was created from the schema. -/
theorem C64_postgres_unqualified_fails (sd : Str → Str → Str) {s : Str} {v : Pg.Show.Views} {db : Pg.Show.Db} {a : List Pg.PStmt}
    (hv : Pg.Show.Holds v db) (hp : db.Plain) (hf : db.NoForeignKey) (hu : Pg.Show.Undisturbed v db) (ht : db.tables ≠ [])
    (ha : Pg.ReadFrom s a) (hn : ∀ t, .createTable t ∈ a → t.name.schema = none) :
    ∃ b l, Pg.parse (Pg.Show.showTables v Pg.Show.pub) = .ok b ∧ diff (Pg.ops sd) (some b) (some a) = .ok l ∧
      (∀ t ∈ db.tables, .dropTable [] false (Pg.Show.qualified t.name) ∈ l) ∧ ∀ t, .createTable t ∈ a → .createTable t ∈ l := by
  obtain ⟨l, h⟩ := Pg.Show.diff_unqualified (sd := sd) (fun t h => (hp.tables t h).name) ht ha hn
  exact ⟨_, l, C58_postgres_seen hv hp hf hu, h⟩

set_option maxRecDepth 8000 in
example : ∃ v db a, Pg.Show.Holds v db ∧ db.Plain ∧ db.NoForeignKey ∧ Pg.Show.Undisturbed v db ∧ db.tables.length = 2 ∧
    Pg.ReadFrom s%"CREATE TABLE users (id bigint NOT NULL); CREATE TABLE groups (id uuid)" a ∧ a.length = 2 ∧
    ∀ t, .createTable t ∈ a → t.name.schema = none := by
  refine ⟨Pg.Show.pgViews Pg.Show.pgSimple, Pg.Show.pgSimple, valueOf (Pg.parse s%"CREATE TABLE users (id bigint NOT NULL); CREATE TABLE groups (id uuid)"),
    Pg.Show.holds_pgSimple, Pg.Show.plain_pgSimple, by unfold Pg.Show.Db.NoForeignKey; decide +kernel, by unfold Pg.Show.Undisturbed; decide +kernel,
    rfl, ⟨⟨_, writes_of_lex .postgres _ (by decide +kernel), by decide +kernel⟩, by decide +kernel, by decide +kernel⟩, by decide +kernel, ?_⟩
  have h : ∀ t ∈ Pg.Db.tables (valueOf (Pg.parse s%"CREATE TABLE users (id bigint NOT NULL); CREATE TABLE groups (id uuid)")), t.name.schema = none := by
    decide +kernel
  exact fun t ht => h t (Pg.Db.mem_tables.2 ht)

/-- A table with a check constraint. -/
def pgChecked : Pg.Show.Db := ⟨[⟨s%"t", false, [⟨s%"a", (s%"integer", .INTEGER), none, none, none, false⟩, ⟨s%"b", (s%"integer", .INTEGER), none, none, none, false⟩],
  [.check s%"t_a_check" [Pg.Show.plain s%"(", Pg.Show.plain s%"a", Pg.Show.plain s%">", Pg.Show.plain s%"0", Pg.Show.plain s%")"]]⟩], []⟩

set_option maxRecDepth 8000 in
/-- C64 is violated (PostgreSQL): a check constraint is not shown, so it is added again.  The server refuses this, since there is a constraint of that
name. -/
theorem C64_postgres_check_fails (sd : Str → Str → Str) : ∃ (v : Pg.Show.Views) (db : Pg.Show.Db) (b : List Pg.PStmt),
    Pg.Show.Holds v db ∧ db.Plain ∧ Pg.parse (Pg.Show.showTables v Pg.Show.pub) = .ok b ∧
    Pg.parse s%"CREATE TABLE public.t (a integer CHECK (a > 0), b integer)" = .ok (Pg.Show.stmts db) ∧
    ∃ B l, Pg.Db.Execs Pg.Db.empty (Pg.Show.stmts db) B ∧ diff (Pg.ops sd) (some b) (some (Pg.Show.stmts db)) = .ok l ∧
      ∀ D, ¬ Pg.Db.Execs B l D := by
  obtain ⟨B, hB, hh⟩ := Pg.Db.loads_holds (l := Pg.Show.stmts pgChecked) (by decide +kernel)
  have hv : Pg.Show.Holds pgChecked.views pgChecked :=
    ⟨by decide +kernel, by decide +kernel, by decide +kernel, by decide +kernel, by decide +kernel, by decide +kernel, by decide +kernel,
      by decide +kernel, by decide +kernel, by decide +kernel⟩
  refine ⟨pgChecked.views, pgChecked, Pg.Show.seen pgChecked, hv,
    Pg.Show.plain_of (by decide +kernel) (by decide +kernel) (by decide +kernel) (by decide +kernel) (by decide +kernel), by decide +kernel,
    by decide +kernel, B, _, hB, rfl, fun D => ?_⟩
  exact Pg.Db.not_addConstraint_again ((hh.tabs _ _).2 ⟨_, .head _, rfl, rfl⟩) (by decide +kernel)

/-! ## CockroachDB -/

/-- C64 (CockroachDB), partial: let the left argument be the data source of a database whose rows can be read (C57), and the right argument a schema
that creates the same database.  Then `apply` prints `no difference` and does nothing else.  Missing: databases that cannot be read (C57), schemas
that write `NOT NULL` or indexes in another way (C63), schemas that name their tables without `public` (`C64_cockroachdb_unqualified_fails`), and
tables without a primary key (`C64_cockroachdb_rowid_fails`). -/
theorem C64_cockroachdb_partial (w : Site) {c : Conf.Config} {left right stdin s : Str} {rows : List (Str × List Crdb.CStmt)} {a : List Crdb.CStmt}
    {B A : Crdb.Run.Db} (hd : c.dialect = s%"cockroachdb")
    (hl : ShownAs w.toWorld s%"cockroachdb" left (Crdb.Show.showTables (.ok (rows.map fun x => x.1 ++ s%";"))))
    (hv : ∀ x ∈ rows, Whole .cockroachdb x.1 ∧ Crdb.parse x.1 = .ok x.2)
    (hr : resolve w.toWorld c.language c.dialect right = .ok s) (ha : Crdb.parse s = .ok a)
    (dd : DistinctObjects (Crdb.ops w.sd) (rows.flatMap (·.2))) (da : DistinctObjects (Crdb.ops w.sd) a)
    (ob : Crdb.Run.OneForm (rows.flatMap (·.2))) (oa : Crdb.Run.OneForm a)
    (hB : Runs Crdb.Run.Exec Crdb.Run.Db.empty (rows.flatMap (·.2)) B) (hA : Runs Crdb.Run.Exec Crdb.Run.Db.empty a A) (same : B.Same A)
    (hn : Crdb.Run.SameNotNull (rows.flatMap (·.2)) a) (hf : Crdb.Run.SameForm (rows.flatMap (·.2)) a) :
    applyCommand w (.ok c) [left, right] stdin = ([.print s%"no difference\n"], .ok ()) := by
  obtain ⟨text, h1, hb⟩ := C57_cockroachdb_partial hv
  rw [h1] at hl
  rw [hd] at hr
  exact apply_nothing (by rw [hd]; exact sources_cockroachdb (resolve_shown hl) hr hb ha)
    (C63_cockroachdb_same_partial w.sd hb ha dd da ob oa hB hA same hn hf)

/-- Two tables as CockroachDB prints them, with primary keys of their own. -/
def cockroachRows : List (Str × List Crdb.CStmt) := [s%"CREATE TABLE public.users (
	id INT8 NOT NULL DEFAULT unique_rowid(),
	name VARCHAR(255) NULL,
	CONSTRAINT users_pkey PRIMARY KEY (id ASC),
	UNIQUE INDEX u (name ASC)
)", s%"CREATE TABLE public.orders (
	n INT8 NOT NULL,
	\"user\" INT8 NULL,
	CONSTRAINT orders_pkey PRIMARY KEY (n ASC)
)"].map fun t => (t, valueOf (Crdb.parse t))

/-- The schema of these tables. -/
def cockroachSchema : Str := s%"CREATE TABLE public.orders (\"user\" INT8, n INT8 NOT NULL, CONSTRAINT orders_pkey PRIMARY KEY (n ASC));
CREATE TABLE \"public.users\" (id INT8 DEFAULT unique_rowid() NOT NULL, name VARCHAR(255), UNIQUE INDEX u (name ASC),
  CONSTRAINT users_pkey PRIMARY KEY (id ASC))"

set_option maxRecDepth 8000 in
example : applyCommand (shownSite (Crdb.Show.showTables (.ok (cockroachRows.map fun x => x.1 ++ s%";"))) cockroachSchema)
    (.ok (sampleConfig s%"cockroachdb")) [s%"a", s%"b"] [] = ([.print s%"no difference\n"], .ok ()) := by
  refine C64_cockroachdb_partial (shownSite _ cockroachSchema) (rows := cockroachRows) (a := valueOf (Crdb.parse cockroachSchema)) rfl
    (shownSite_shown _ (by decide) _ _) ?_ (s := cockroachSchema) rfl (by decide +kernel) (by decide +kernel) (by decide +kernel)
    (Crdb.Run.oneForm_of (by decide +kernel)) (Crdb.Run.oneForm_of (by decide +kernel)) (Crdb.Run.loads (by decide +kernel))
    (Crdb.Run.loads (by decide +kernel)) (Crdb.Run.same_of (by decide +kernel)) (Crdb.Run.sameNotNull_of (by decide +kernel))
    (Crdb.Run.sameForm_of (by decide +kernel))
  have h1 : ∀ t ∈ cockroachRows, (∀ c ∈ t.1, c ≠ nul) ∧ Crdb.parse t.1 = .ok t.2 := by decide +kernel
  intro t ht
  refine ⟨⟨?_, (h1 t ht).1⟩, (h1 t ht).2⟩
  simp only [cockroachRows, List.map_cons, List.map_nil, List.mem_cons, List.not_mem_nil, or_false] at ht
  rcases ht with rfl | rfl
  · exact ⟨_, writes_noDashes (by decide +kernel) (by decide +kernel)⟩
  · exact ⟨_, writes_noDashes (by decide +kernel) (by decide +kernel)⟩

/-- C64 is violated, always (CockroachDB): if the tables are shown with their schema, as CockroachDB does, and named without in the schema, all tables
of the database are dropped, and all tables of the schema are created, empty. -/
theorem C64_cockroachdb_unqualified_fails (sd : Str → Str → Str) {s s' : Str} {b a : List Crdb.CStmt} (hb : Crdb.parse s = .ok b)
    (ha : Crdb.parse s' = .ok a) (told : Told (Crdb.ops sd) b a) (hx : ∃ t, .createTable t ∈ b)
    (hq : ∀ t, .createTable t ∈ b → t.name.schema ≠ none) (hn : ∀ t, .createTable t ∈ a → t.name.schema = none) :
    ∃ l, diff (Crdb.ops sd) (some b) (some a) = .ok l ∧ (∀ t, .createTable t ∈ b → .dropTable [] false t.name ∈ l) ∧
      ∀ t, .createTable t ∈ a → .createTable t ∈ l :=
  Crdb.diff_unqualified hb ha told.2 hx hq hn

set_option maxRecDepth 8000 in
example : ∃ s s' b a, Crdb.parse s = .ok b ∧ Crdb.parse s' = .ok a ∧ Told (Crdb.ops fun _ _ => []) b a ∧ (∃ t, .createTable t ∈ b) ∧
    (∀ t, .createTable t ∈ b → t.name.schema ≠ none) ∧ (∀ t, .createTable t ∈ a → t.name.schema = none) ∧ a.length = 2 := by
  refine ⟨cockroachSchema, s%"CREATE TABLE users (id INT8 NOT NULL); CREATE TABLE orders (n INT8 NOT NULL)", valueOf (Crdb.parse cockroachSchema),
    valueOf (Crdb.parse s%"CREATE TABLE users (id INT8 NOT NULL); CREATE TABLE orders (n INT8 NOT NULL)"), by decide +kernel, by decide +kernel,
    by decide +kernel, ⟨_, .head _⟩, ?_, ?_, by decide +kernel⟩
  · have h : ∀ t ∈ Crdb.Run.tables (valueOf (Crdb.parse cockroachSchema)), t.name.schema ≠ none := by decide +kernel
    exact fun t ht => h t (Crdb.Run.mem_tables.2 ht)
  · have h : ∀ t ∈ Crdb.Run.tables (valueOf (Crdb.parse s%"CREATE TABLE users (id INT8 NOT NULL); CREATE TABLE orders (n INT8 NOT NULL)")),
        t.name.schema = none := by decide +kernel
    exact fun t ht => h t (Crdb.Run.mem_tables.2 ht)

set_option maxRecDepth 8000 in
/-- C64 is violated (CockroachDB): a table without primary key has the hidden column `rowid` and a primary key on it, and both are shown.  The migration
to the schema it was created from drops them. -/
theorem C64_cockroachdb_rowid_fails : ∃ (text : Str) (b a : List Crdb.CStmt), Crdb.Show.showTables (.ok [s%"CREATE TABLE public.orders (
	n INT8 NULL,
	rowid INT8 NOT VISIBLE NOT NULL DEFAULT unique_rowid(),
	CONSTRAINT orders_pkey PRIMARY KEY (rowid ASC)
);"]) = .ok text ∧ Crdb.parse text = .ok b ∧ Crdb.parse s%"CREATE TABLE public.orders (n INT8)" = .ok a ∧
    (diff (Crdb.ops fun _ _ => []) (some b) (some a) >>= fun l => .ok (ddlStr (Crdb.ops fun _ _ => []) l)) =
      .ok s%"ALTER TABLE public.orders DROP CONSTRAINT orders_pkey;
ALTER TABLE public.orders DROP COLUMN rowid;
" := by
  refine ⟨_, valueOf (Crdb.parse s%"CREATE TABLE public.orders (
	n INT8 NULL,
	rowid INT8 NOT VISIBLE NOT NULL DEFAULT unique_rowid(),
	CONSTRAINT orders_pkey PRIMARY KEY (rowid ASC)
);
"), valueOf (Crdb.parse s%"CREATE TABLE public.orders (n INT8)"), rfl, ?_, ?_, ?_⟩ <;> decide +kernel

/-! ## MySQL -/

/-- C64 (MySQL), partial: let the left argument be the data source of a database whose tables can be read (C57), and the right argument a schema that
creates the same database.  Then `apply` prints `no difference` and does nothing else.  Missing: databases that cannot be read (C57), schemas
that write `NOT NULL` or indexes in another way (C63), and columns without a default (`C64_mysql_default_fails`). -/
theorem C64_mysql_partial (w : Site) {c : Conf.Config} {left right stdin s : Str} {v : My.Show.Server} {db : List ((Str × Str) × List My.MStmt)}
    {a : List My.MStmt} {B A : My.Run.Db} (hd : c.dialect = s%"mysql") (hl : ShownAs w.toWorld s%"mysql" left (My.Show.showTables v []))
    (hv : My.Show.Holds v (db.map (·.1))) (hq : ∀ t ∈ db, '`' ∉ t.1.1) (ht : ∀ t ∈ db, Whole .mysql t.1.2 ∧ My.parse t.1.2 = .ok t.2)
    (hr : resolve w.toWorld c.language c.dialect right = .ok s) (ha : My.parse s = .ok a)
    (dd : DistinctObjects (My.ops w.sd) (db.flatMap (·.2))) (da : DistinctObjects (My.ops w.sd) a)
    (ob : My.Run.OneForm (db.flatMap (·.2))) (oa : My.Run.OneForm a)
    (hB : Runs My.Run.Exec My.Run.Db.empty (db.flatMap (·.2)) B) (hA : Runs My.Run.Exec My.Run.Db.empty a A) (same : B.Same A)
    (hn : My.Run.SameNotNull (db.flatMap (·.2)) a) (hf : My.Run.SameForm (db.flatMap (·.2)) a) :
    applyCommand w (.ok c) [left, right] stdin = ([.print s%"no difference\n"], .ok ()) := by
  obtain ⟨text, h1, hb⟩ := C57_mysql_partial hv hq ht
  rw [h1] at hl
  rw [hd] at hr
  exact apply_nothing (by rw [hd]; exact sources_mysql (resolve_shown hl) hr hb ha)
    (C63_mysql_same_partial w.sd hb ha dd da ob oa hB hA same hn hf)

/-- The schema of `mysqlShown`. -/
def mysqlSchema : Str := s%"CREATE TABLE users (`name` varchar(255) DEFAULT 'x' NOT NULL, id bigint AUTO_INCREMENT NOT NULL, UNIQUE KEY u (name), PRIMARY KEY (id)
) ENGINE=InnoDB AUTO_INCREMENT=3 DEFAULT CHARSET=utf8mb4 COLLATE=utf8mb4_0900_ai_ci;
CREATE TABLE `order` (`user` bigint DEFAULT NULL, CONSTRAINT f FOREIGN KEY (user) REFERENCES users (id), KEY k (user)
) ENGINE=InnoDB DEFAULT CHARSET=utf8mb4 COLLATE=utf8mb4_0900_ai_ci;"

set_option maxRecDepth 8000 in
set_option maxHeartbeats 1000000 in
example : applyCommand (shownSite (My.Show.showTables (My.Show.server (mysqlShown.map (·.1))) []) mysqlSchema)
    (.ok (sampleConfig s%"mysql")) [s%"a", s%"b"] [] = ([.print s%"no difference\n"], .ok ()) := by
  refine C64_mysql_partial (shownSite _ mysqlSchema) (db := mysqlShown) (a := valueOf (My.parse mysqlSchema)) rfl
    (shownSite_shown _ (by decide) _ _) (My.Show.server_holds (by decide)) (by decide +kernel) ?_ (s := mysqlSchema) rfl (by decide +kernel)
    (by decide +kernel) (by decide +kernel)
    (My.Run.oneForm_of (by decide +kernel)) (My.Run.oneForm_of (by decide +kernel)) (My.Run.loads (by decide +kernel))
    (My.Run.loads (by decide +kernel)) (My.Run.same_of (by decide +kernel)) (My.Run.sameNotNull_of (by decide +kernel))
    (My.Run.sameForm_of (by decide +kernel))
  have h1 : ∀ t ∈ mysqlShown, (∀ c ∈ t.1.2, c ≠ nul) ∧ My.parse t.1.2 = .ok t.2 := by decide +kernel
  intro t ht
  refine ⟨⟨?_, (h1 t ht).1⟩, (h1 t ht).2⟩
  simp only [mysqlShown, List.zipWith_cons_cons, List.zipWith_nil_left, List.mem_cons, List.not_mem_nil, or_false] at ht
  rcases ht with rfl | rfl
  · exact ⟨_, writes_noDashes (by decide +kernel) (by decide +kernel)⟩
  · exact ⟨_, writes_noDashes (by decide +kernel) (by decide +kernel)⟩

set_option maxRecDepth 8000 in
/-- C64 is violated (MySQL): MySQL shows a column that may be null and has no default with `DEFAULT NULL`.  The migration to the schema it was created
from drops that default, after which rows cannot be inserted without a value. -/
theorem C64_mysql_default_fails : ∃ (text : Str) (b a : List My.MStmt), My.Show.showTables (My.Show.server [(s%"t", s%"CREATE TABLE `t` (
  `a` bigint DEFAULT NULL
) ENGINE=InnoDB DEFAULT CHARSET=utf8mb4")]) [] = .ok text ∧ My.parse text = .ok b ∧
    My.parse s%"CREATE TABLE t (a bigint) ENGINE=InnoDB DEFAULT CHARSET=utf8mb4" = .ok a ∧
    (diff (My.ops fun _ _ => []) (some b) (some a) >>= fun l => .ok (ddlStr (My.ops fun _ _ => []) l)) = .ok s%"ALTER TABLE t ALTER a DROP DEFAULT;
" := by
  refine ⟨_, valueOf (My.parse s%"CREATE TABLE `t` (
  `a` bigint DEFAULT NULL
) ENGINE=InnoDB DEFAULT CHARSET=utf8mb4;
"), valueOf (My.parse s%"CREATE TABLE t (a bigint) ENGINE=InnoDB DEFAULT CHARSET=utf8mb4"), rfl, ?_, ?_, ?_⟩ <;> decide +kernel

/-! ## Spanner -/

/-- C64 (Spanner), partial: let the left argument be the data source of a database that can be shown (C47), and the right argument a schema that
creates the same database.  Then `apply` prints `no difference` and does nothing else.  Missing: databases whose schema is not shown right (C47). -/
theorem C64_spanner_partial (w : Site) {c : Conf.Config} {left right stdin s : Str} {v : Sp.Show.Views} {db : Sp.Show.Db} {a : List Sp.SStmt}
    {D : Sp.Run.Db} (hd : c.dialect = s%"spanner") (hl : ShownAs w.toWorld s%"spanner" left (Sp.Show.showTables v))
    (hv : Sp.Show.Holds v db) (hp : db.Plain) (hs : ∀ t ∈ db, t.Simple)
    (hr : resolve w.toWorld c.language c.dialect right = .ok s) (ha : Sp.parse s = .ok a)
    (dd : DistinctObjects (Sp.ops w.sd) (Sp.Show.stmts db)) (da : DistinctObjects (Sp.ops w.sd) a)
    (hB : Runs Sp.Run.Exec Sp.Run.Db.empty (Sp.Show.stmts db) D) (hA : Runs Sp.Run.Exec Sp.Run.Db.empty a D) :
    applyCommand w (.ok c) [left, right] stdin = ([.print s%"no difference\n"], .ok ()) := by
  obtain ⟨text, h1, hb⟩ := C47_spanner_partial hv hp hs
  rw [h1] at hl
  rw [hd] at hr
  exact apply_nothing (by rw [hd]; exact sources_spanner (resolve_shown hl) hr hb ha)
    (C63_spanner_partial w.sd (Sp.parse_creates hb) (Sp.parse_creates ha) dd da hB hA)

/-- The schema of `showExample`. -/
def spannerSchema : Str := s%"CREATE TABLE `t` (`x` BOOL) PRIMARY KEY (x);
CREATE TABLE users (age INT64 NOT NULL DEFAULT (0), `id` STRING(36) NOT NULL, at TIMESTAMP OPTIONS (allow_commit_timestamp = true)) PRIMARY KEY (id),
ROW DELETION POLICY (OLDER_THAN(at, INTERVAL 30 DAY));
CREATE UNIQUE INDEX by_age ON users (age, id);"

set_option maxRecDepth 8000 in
example : applyCommand (shownSite (Sp.Show.showTables showExample.views) spannerSchema)
    (.ok (sampleConfig s%"spanner")) [s%"a", s%"b"] [] = ([.print s%"no difference\n"], .ok ()) := by
  have hB := Sp.Run.loads (l := Sp.Show.stmts showExample) (by decide +kernel)
  have hA := Sp.Run.loads (l := valueOf (Sp.parse spannerSchema)) (by decide +kernel)
  rw [← Sp.Run.sameSt_eq (b := Sp.Show.stmts showExample) (a := valueOf (Sp.parse spannerSchema)) (by decide +kernel)] at hA
  refine C64_spanner_partial (shownSite _ spannerSchema) (db := showExample) (a := valueOf (Sp.parse spannerSchema)) rfl
    (shownSite_shown _ (by decide) _ _) (Sp.Show.holds_views (by decide +kernel)) showExample_plain ?_ (s := spannerSchema) rfl (by decide +kernel)
    (by decide +kernel) (by decide +kernel) hB hA
  simp only [showExample, List.mem_cons, List.not_mem_nil, or_false]
  rintro t (rfl | rfl) <;> exact ⟨by decide, by decide, by decide, rfl, rfl⟩

/-- The migration from what is shown of the database to the statements that created it. -/
def migrationToItself (db : Sp.Show.Db) : Res Str := do
  let text ← Sp.Show.showTables db.views
  let shown ← Sp.parse text
  let l ← diff (Sp.ops fun _ _ => []) (some shown) (some (Sp.Show.stmts db))
  .ok (ddlStr (Sp.ops fun _ _ => []) l)

set_option maxRecDepth 8000 in
/-- C64 is violated (Spanner): the direction of a primary key column is not shown.  The migration to the schema that the database was created from drops the
table and creates it anew, empty. -/
theorem C64_spanner_descending_fails : ∃ db : Sp.Show.Db, Sp.Show.Holds db.views db ∧ db.Plain ∧
    Sp.parse s%"CREATE TABLE t (a INT64 NOT NULL, b INT64) PRIMARY KEY (a DESC)" = .ok (Sp.Show.stmts db) ∧
    migrationToItself db = .ok s%"DROP TABLE t;
CREATE TABLE t (
    a INT64 NOT NULL,
    b INT64
) PRIMARY KEY (a DESC);
" :=
  ⟨[showTable [(s%"a", true)] none [] []], Sp.Show.holds_views (by decide),
    showTable_plain (by decide +kernel) (by decide) (by decide) (by decide), by decide +kernel, by decide +kernel⟩

set_option maxRecDepth 8000 in
/-- C64 is violated (Spanner): the parent of an interleaved table is not shown.  The migration to the schema that the database was created from drops the
table and creates it anew, empty. -/
theorem C64_spanner_parent_fails : ∃ db : Sp.Show.Db, Sp.Show.Holds db.views db ∧ db.Plain ∧
    Sp.parse s%"CREATE TABLE t (a INT64 NOT NULL, b INT64) PRIMARY KEY (a), INTERLEAVE IN PARENT p" = .ok (Sp.Show.stmts db) ∧
    migrationToItself db = .ok s%"DROP TABLE t;
CREATE TABLE t (
    a INT64 NOT NULL,
    b INT64
) PRIMARY KEY (a),
INTERLEAVE IN PARENT p;
" :=
  ⟨[showTable [(s%"a", false)] (some s%"p") [] []], Sp.Show.holds_views (by decide),
    showTable_plain (by decide +kernel) (by decide) (by decide) (by decide), by decide +kernel, by decide +kernel⟩

set_option maxRecDepth 8000 in
/-- C64 is violated (Spanner): of a table with two indexes, each is shown with the columns of both.  The migration to the schema that the database
was created from builds both anew. -/
theorem C64_spanner_indexes_fails : ∃ db : Sp.Show.Db, Sp.Show.Holds db.views db ∧ db.Plain ∧
    Sp.parse s%"CREATE TABLE t (a INT64 NOT NULL, b INT64) PRIMARY KEY (a); CREATE INDEX i ON t (a); CREATE INDEX j ON t (b)" = .ok (Sp.Show.stmts db) ∧
    migrationToItself db = .ok s%"DROP INDEX i;
CREATE INDEX i ON t (a);
DROP INDEX j;
CREATE INDEX j ON t (b);
" :=
  ⟨[showTable [(s%"a", false)] none [] [⟨s%"i", false, [(s%"a", false)], []⟩, ⟨s%"j", false, [(s%"b", false)], []⟩]],
    Sp.Show.holds_views (by decide), showTable_plain (by decide +kernel) (by decide) (by decide +kernel) (by decide), by decide +kernel, by decide +kernel⟩

set_option maxRecDepth 8000 in
/-- C64 is violated (Spanner): no `CHECK` is shown.  The migration to the schema that the database was created from adds it once more. -/
theorem C64_spanner_checks_fails : ∃ db : Sp.Show.Db, Sp.Show.Holds db.views db ∧ db.Plain ∧
    Sp.parse s%"CREATE TABLE t (a INT64 NOT NULL, b INT64, CONSTRAINT c CHECK (a > 0)) PRIMARY KEY (a)" = .ok (Sp.Show.stmts db) ∧
    migrationToItself db = .ok s%"ALTER TABLE t ADD CONSTRAINT c CHECK (a > 0);
" :=
  ⟨[showTable [(s%"a", false)] none [(s%"c", ⟨s%"a > 0", lex .spanner s%"a > 0"⟩)] []], Sp.Show.holds_views (by decide),
    showTable_plain (by decide +kernel) (by decide) (by decide) (by decide), by decide +kernel, by decide +kernel⟩

end Ddl.Props
