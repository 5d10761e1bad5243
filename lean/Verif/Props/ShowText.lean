import Verif.Lemmas.ShowLines
import Verif.Lemmas.DecideApply
import Verif.Lemmas.Variants
import Verif.Crdb.Diff

/-! # What `ddlctl show` prints is the schema of the database: C57 (MySQL, CockroachDB)

These servers print the definition of a table themselves.  `Holds` (`Verif/Spec/ShowText.lean`) describes the MySQL server. -/

namespace Ddl.Props
open Ddl Spec
set_option autoImplicit false

/-! ## MySQL -/

/-- C57 (MySQL), partial: what `ShowCreateAllTables` prints is read as the statements of all tables of the current database, in the order of the
tables.  `t.1.1` is the name of a table, `t.1.2` what the server prints for it, and `t.2` what the parser reads that as.  Missing: names with a
backquote, for which it fails (`C57_mysql_backquote_fails`), and tables whose text the parser cannot read (`C57_mysql_unread_fails`). -/
theorem C57_mysql_partial {s : My.Show.Server} {db : List ((Str × Str) × List My.MStmt)} (hs : My.Show.Holds s (db.map (·.1)))
    (hn : ∀ t ∈ db, '`' ∉ t.1.1) (h : ∀ t ∈ db, Whole .mysql t.1.2 ∧ My.parse t.1.2 = .ok t.2) :
    ∃ text, My.Show.showTables s [] = .ok text ∧ My.parse text = .ok (db.flatMap (·.2)) := by
  have h1 := My.Show.tableLines_holds (s := s) (db := db.map (·.1)) (by
    intro t ht
    obtain ⟨x, hx, rfl⟩ := List.mem_map.1 ht
    rw [My.Show.createQuery_plain (hn x hx)]
    exact hs.create _ ht)
  refine ⟨_, by rw [My.Show.showTables, show My.Show.namesQuery [] = s%"SELECT TABLE_NAME FROM information_schema.TABLES WHERE TABLE_SCHEMA = database()" from rfl,
    hs.names, bind_ok, h1], ?_⟩
  have h2 := parse_lines (parse := My.parse) My.parse_newline My.parse_follow (by decide +kernel) (l := db.map fun t => (t.1.2, t.2)) (by
    intro x hx
    obtain ⟨t, ht, rfl⟩ := List.mem_map.1 hx
    exact h t ht)
  simpa [List.flatMap_map] using h2

/-- Two tables as MySQL 8 prints them. -/
def mysqlShown : List ((Str × Str) × List My.MStmt) := [s%"CREATE TABLE `users` (
  `id` bigint NOT NULL AUTO_INCREMENT,
  `name` varchar(255) NOT NULL DEFAULT 'x',
  PRIMARY KEY (`id`),
  UNIQUE KEY `u` (`name`)
) ENGINE=InnoDB AUTO_INCREMENT=3 DEFAULT CHARSET=utf8mb4 COLLATE=utf8mb4_0900_ai_ci", s%"CREATE TABLE `order` (
  `user` bigint DEFAULT NULL,
  KEY `k` (`user`),
  CONSTRAINT `f` FOREIGN KEY (`user`) REFERENCES `users` (`id`)
) ENGINE=InnoDB DEFAULT CHARSET=utf8mb4 COLLATE=utf8mb4_0900_ai_ci"].zipWith (fun t n => ((n, t), valueOf (My.parse t))) [s%"users", s%"order"]

set_option maxRecDepth 8000 in
example : ∃ s, My.Show.Holds s (mysqlShown.map (·.1)) ∧ (∀ t ∈ mysqlShown, '`' ∉ t.1.1) ∧
    (∀ t ∈ mysqlShown, Whole .mysql t.1.2 ∧ My.parse t.1.2 = .ok t.2) ∧ (mysqlShown.flatMap (·.2)).length = 2 := by
  refine ⟨_, My.Show.server_holds (by decide), by decide +kernel, ?_, by decide +kernel⟩
  have h1 : ∀ t ∈ mysqlShown, (∀ c ∈ t.1.2, c ≠ nul) ∧ My.parse t.1.2 = .ok t.2 := by decide +kernel
  intro t ht
  refine ⟨⟨?_, (h1 t ht).1⟩, (h1 t ht).2⟩
  simp only [mysqlShown, List.zipWith_cons_cons, List.zipWith_nil_left, List.mem_cons, List.not_mem_nil, or_false] at ht
  rcases ht with rfl | rfl
  · exact ⟨_, writes_noDashes (by decide +kernel) (by decide +kernel)⟩
  · exact ⟨_, writes_noDashes (by decide +kernel) (by decide +kernel)⟩

/-- C57 fails (MySQL): if the name of a table has a backquote, nothing is shown at all, since it is not written twice in the query. -/
theorem C57_mysql_backquote_fails {s : My.Show.Server} {db : List (Str × Str)} (hs : My.Show.Holds s db) {t : Str × Str} (ht : t ∈ db)
    (hn : ∀ u ∈ db, s%"SHOW CREATE TABLE `" ++ t.1 ++ s%"`" ≠ s%"SHOW CREATE TABLE " ++ My.Show.quoted u.1) :
    ∃ e, My.Show.showTables s [] = .err e := by
  obtain ⟨e, he⟩ := My.Show.tableLines_err (s := s) (List.mem_map.2 ⟨t, ht, rfl⟩) (hs.refuse _ hn) (by
    intro q
    by_cases hq : ∃ u ∈ db, q = s%"SHOW CREATE TABLE " ++ My.Show.quoted u.1
    · obtain ⟨u, hu, rfl⟩ := hq
      exact .inl ⟨_, hs.create u hu⟩
    · exact .inr (hs.refuse q (fun u hu e => hq ⟨u, hu, e⟩)))
  exact ⟨e, by rw [My.Show.showTables, show My.Show.namesQuery [] = s%"SELECT TABLE_NAME FROM information_schema.TABLES WHERE TABLE_SCHEMA = database()" from rfl,
    hs.names, bind_ok, he]⟩

example : ∃ s db t, My.Show.Holds s db ∧ t ∈ db ∧
    ∀ u ∈ db, s%"SHOW CREATE TABLE `" ++ t.1 ++ s%"`" ≠ s%"SHOW CREATE TABLE " ++ My.Show.quoted u.1 :=
  ⟨_, [(s%"a", s%"CREATE TABLE `a` (`x` int)"), (s%"b`c", s%"CREATE TABLE `b``c` (`x` int)")], _, My.Show.server_holds (by decide),
    List.mem_cons_of_mem _ (List.mem_singleton.2 rfl), by decide⟩

set_option maxRecDepth 8000 in
/-- C57 fails (MySQL): tables with such columns or keys, as MySQL 8 prints them, are shown but cannot be read. -/
theorem C57_mysql_unread_fails : ∀ x ∈ [s%"`a` bigint unsigned NOT NULL", s%"`a` float DEFAULT NULL", s%"`a` blob",
    s%"`a` binary(16) NOT NULL", s%"`a` int NOT NULL COMMENT 'it''s'", s%"`a` text, KEY `k` (`a`(10))",
    s%"`a` int, CONSTRAINT `f` FOREIGN KEY (`a`) REFERENCES `t` (`a`) ON DELETE SET NULL"],
    ∃ (s : My.Show.Server) (text : Str), My.Show.Holds s [(s%"t", s%"CREATE TABLE `t` (" ++ x ++ s%") ENGINE=InnoDB")] ∧
      My.Show.showTables s [] = .ok text ∧ ∃ e ∈ [Err.unexpectedCurrentToken, Err.unexpectedPeekToken], My.parse text = .err e := by
  intro x hx
  refine ⟨_, s%"CREATE TABLE `t` (" ++ x ++ s%") ENGINE=InnoDB" ++ s%";\n", My.Show.server_holds (List.nodup_singleton _), ?_, ?_⟩
  · revert x; decide +kernel
  · revert x; decide +kernel

/-! ## CockroachDB -/

/-- C57 (CockroachDB), partial: if every row of `SHOW CREATE ALL TABLES` is a statement that can be read and a semicolon, what is printed is read as
all of them, in that order.  Missing: rows that cannot be read, which every foreign key brings about (`C57_cockroachdb_foreign_key_fails`). -/
theorem C57_cockroachdb_partial {rows : List (Str × List Crdb.CStmt)} (h : ∀ x ∈ rows, Whole .cockroachdb x.1 ∧ Crdb.parse x.1 = .ok x.2) :
    ∃ text, Crdb.Show.showTables (.ok (rows.map fun x => x.1 ++ s%";")) = .ok text ∧ Crdb.parse text = .ok (rows.flatMap (·.2)) := by
  refine ⟨_, rfl, ?_⟩
  have h2 := parse_lines (parse := Crdb.parse) Crdb.parse_newline Crdb.parse_follow (by decide +kernel) h
  simpa [List.flatMap_map] using h2

/-- Two tables as CockroachDB prints them. -/
def cockroachShown : List (Str × List Crdb.CStmt) := [s%"CREATE TABLE public.users (
	id INT8 NOT NULL DEFAULT unique_rowid(),
	name VARCHAR(255) NULL,
	CONSTRAINT users_pkey PRIMARY KEY (id ASC),
	UNIQUE INDEX u (name ASC)
)", s%"CREATE TABLE public.orders (
	\"user\" INT8 NULL,
	rowid INT8 NOT VISIBLE NOT NULL DEFAULT unique_rowid(),
	CONSTRAINT orders_pkey PRIMARY KEY (rowid ASC)
)"].map fun t => (t, valueOf (Crdb.parse t))

set_option maxRecDepth 8000 in
example : (∀ x ∈ cockroachShown, Whole .cockroachdb x.1 ∧ Crdb.parse x.1 = .ok x.2) ∧ (cockroachShown.flatMap (·.2)).length = 2 := by
  refine ⟨?_, by decide +kernel⟩
  have h1 : ∀ t ∈ cockroachShown, (∀ c ∈ t.1, c ≠ nul) ∧ Crdb.parse t.1 = .ok t.2 := by decide +kernel
  intro t ht
  refine ⟨⟨?_, (h1 t ht).1⟩, (h1 t ht).2⟩
  simp only [cockroachShown, List.map_cons, List.map_nil, List.mem_cons, List.not_mem_nil, or_false] at ht
  rcases ht with rfl | rfl
  · exact ⟨_, writes_noDashes (by decide +kernel) (by decide +kernel)⟩
  · exact ⟨_, writes_noDashes (by decide +kernel) (by decide +kernel)⟩

/-- C57 fails (CockroachDB): what is shown of a database with a foreign key cannot be read, whatever else it holds.  CockroachDB prints the tables,
and behind them `ALTER TABLE … ADD CONSTRAINT … FOREIGN KEY …` for each foreign key. -/
theorem C57_cockroachdb_foreign_key_fails {rows : List (Str × List Crdb.CStmt)} {x : Str} {more : List Str}
    (h : ∀ x ∈ rows, Whole .cockroachdb x.1 ∧ Crdb.parse x.1 = .ok x.2) :
    ∃ text, Crdb.Show.showTables (.ok (rows.map (fun x => x.1 ++ s%";") ++ (s%"ALTER TABLE " ++ x) :: more)) = .ok text ∧
      Crdb.parse text = .err .unexpectedCurrentToken := by
  refine ⟨_, rfl, ?_⟩
  have h2 := parse_front_err (parse := Crdb.parse) Crdb.parse_newline Crdb.parse_follow
    (Crdb.parse_alter (x ++ s%"\n" ++ more.flatMap fun r => r ++ s%"\n")) h
  simpa [List.flatMap_map] using h2

set_option maxRecDepth 8000 in
/-- C57 fails (CockroachDB): such tables, as CockroachDB prints them, are shown but cannot be read. -/
theorem C57_cockroachdb_unread_fails : ∀ x ∈ [s%"public.\"order\" (a INT8 NULL)", s%"public.t (a BYTES NULL)", s%"public.t (a DATE NULL)",
    s%"public.t (a INT8[] NULL)", s%"public.t (a INT8 NULL, CONSTRAINT c CHECK (a > 0:::INT8))",
    s%"public.t (a INT8 NULL, b INT8 NULL, INDEX i (a ASC) STORING (b))"],
    ∃ text, Crdb.Show.showTables (.ok [s%"CREATE TABLE " ++ x ++ s%";"]) = .ok text ∧
      ∃ e ∈ [Err.unexpectedCurrentToken, Err.unexpectedPeekToken], Crdb.parse text = .err e := by
  intro x hx
  refine ⟨s%"CREATE TABLE " ++ x ++ s%";" ++ s%"\n", ?_, ?_⟩
  · revert x; decide +kernel
  · revert x; decide +kernel

set_option maxRecDepth 8000 in
/-- C57 fails (CockroachDB): CockroachDB prints the names of tables with their schema, which `diff` takes for other tables than those written without.
The migration of a database to the very schema it was created with drops the table and creates it anew, empty. -/
theorem C57_cockroachdb_dropped_fails : ∃ (text : Str) (b a : List Crdb.CStmt), Crdb.Show.showTables (.ok [s%"CREATE TABLE public.users (
	id INT8 NOT NULL,
	CONSTRAINT users_pkey PRIMARY KEY (id ASC)
);"]) = .ok text ∧ Crdb.parse text = .ok b ∧
    Crdb.parse s%"CREATE TABLE users (id INT8 NOT NULL, CONSTRAINT users_pkey PRIMARY KEY (id ASC));" = .ok a ∧
    (diff (Crdb.ops fun _ _ => []) (some b) (some a) >>= fun l => .ok (ddlStr (Crdb.ops fun _ _ => []) l)) = .ok s%"DROP TABLE public.users;
CREATE TABLE users (
    id INT8 NOT NULL,
    CONSTRAINT users_pkey PRIMARY KEY (id ASC)
);
" := by
  refine ⟨_, valueOf (Crdb.parse (s%"CREATE TABLE public.users (
	id INT8 NOT NULL,
	CONSTRAINT users_pkey PRIMARY KEY (id ASC)
);" ++ s%"\n")), valueOf (Crdb.parse s%"CREATE TABLE users (id INT8 NOT NULL, CONSTRAINT users_pkey PRIMARY KEY (id ASC));"), rfl, ?_, ?_, ?_⟩
  all_goals decide +kernel

end Ddl.Props
