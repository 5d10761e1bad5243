import Verif.Lemmas.ShowPgRows
import Verif.Lemmas.ShowPgCases
import Verif.Lemmas.DecideApply
import Verif.Pg.Diff

/-! # What `ddlctl show` prints is the schema of the database: C58 (PostgreSQL)

`Holds v db` (`Verif/Spec/ShowPg.lean`) says that the views `v` of the server describe the database `db`, `stmts db` are the statements that create
`db`, and `seen db` are those that remain when everything is left out that the queries do not ask for. -/

namespace Ddl.Props
open Ddl Spec Pg Pg.Show
set_option autoImplicit false

/-- C58 (PostgreSQL): what `ShowCreateAllTables` prints of a database without foreign keys is read as `seen db`. -/
theorem C58_postgres_seen {v : Views} {db : Db} (hv : Holds v db) (hp : db.Plain) (hf : db.NoForeignKey) (hu : Undisturbed v db) :
    parse (showTables v pub) = .ok (seen db) := parse_seen hv hp hf hu

set_option maxRecDepth 8000 in
example : ∃ (v : Views) (db : Db), Holds v db ∧ db.Plain ∧ db.NoForeignKey ∧ Undisturbed v db ∧ (seen db).length = 5 ∧ seen db ≠ stmts db :=
  ⟨pgViews pgLost, pgLost, holds_pgLost, plain_pgLost, by unfold Db.NoForeignKey; decide +kernel, by unfold Undisturbed; decide +kernel,
    by decide +kernel, by decide +kernel⟩

/-- C58 (PostgreSQL), partial: what `ShowCreateAllTables` prints is read as the statements that create the database just if there are no foreign keys,
check constraints, numbers with precision and views, and no foreign key of another schema has the name of a key.  Missing: databases with any of
these, for which it fails, as the theorem says; and those that are not `Plain`, see `C58_postgres_types_fails` and the ones behind it. -/
theorem C58_postgres_partial {v : Views} {db : Db} (hv : Holds v db) (hp : db.Plain) :
    parse (showTables v pub) = .ok (stmts db) ↔ db.Simple ∧ Undisturbed v db := by
  constructor
  · intro h
    by_cases hg : db.NoForeignKey ∧ Undisturbed v db
    · rw [parse_seen hv hp hg.1 hg.2] at h
      exact ⟨simple_of_seen (Res.ok.inj h), hg.2⟩
    · obtain ⟨e, he⟩ := parse_refused hv hp hg
      rw [he] at h
      exact absurd h (by simp)
  · rintro ⟨h1, h2⟩
    rw [parse_seen hv hp h1.noForeignKey h2, seen_eq hp h1]

set_option maxRecDepth 8000 in
example : ∃ (v : Views) (db : Db), Holds v db ∧ db.Plain ∧ db.Simple ∧ Undisturbed v db ∧ (stmts db).length = 3 :=
  ⟨pgViews pgSimple, pgSimple, holds_pgSimple, plain_pgSimple, ⟨by decide +kernel, by decide +kernel, by decide +kernel⟩,
    by unfold Undisturbed; decide +kernel, by decide +kernel⟩

/-- C58 fails (PostgreSQL): what is shown of a database with a foreign key cannot be read, whatever else it holds.  The table it refers to is not
printed. -/
theorem C58_postgres_foreign_key_fails {v : Views} {db : Db} (hv : Holds v db) (hp : db.Plain) (hf : ¬ db.NoForeignKey) :
    ∃ e, parse (showTables v pub) = .err e := parse_refused hv hp fun h => hf h.1

example : ∃ (v : Views) (db : Db), Holds v db ∧ db.Plain ∧ ¬ db.NoForeignKey :=
  ⟨pgViews pgForeign, pgForeign, holds_pgForeign, plain_pgForeign, by unfold Db.NoForeignKey; decide +kernel⟩

/-- C58 fails (PostgreSQL): what is shown cannot be read either if a foreign key of another schema has the name of a key of this one.  The rules are
joined by the name alone. -/
theorem C58_postgres_other_schema_fails {v : Views} {db : Db} (hv : Holds v db) (hp : db.Plain) (hu : ¬ Undisturbed v db) :
    ∃ e, parse (showTables v pub) = .err e := parse_refused hv hp fun h => hu h.2

example : ∃ (v : Views) (db : Db), Holds v db ∧ db.Plain ∧ db.NoForeignKey ∧ ¬ Undisturbed v db :=
  ⟨pgDisturbed, pgSimple, holds_pgDisturbed, plain_pgSimple, by unfold Db.NoForeignKey; decide +kernel, by unfold Undisturbed; decide +kernel⟩

/-- C58 fails (PostgreSQL): without foreign keys, but with a check constraint, a number with precision or a view, what is shown is read as another
schema than that of the database. -/
theorem C58_postgres_lost_fails {v : Views} {db : Db} (hv : Holds v db) (hp : db.Plain) (hf : db.NoForeignKey) (hu : Undisturbed v db)
    (hs : ¬ db.Simple) : ∃ l, parse (showTables v pub) = .ok l ∧ l ≠ stmts db :=
  ⟨_, parse_seen hv hp hf hu, fun h => hs (simple_of_seen h)⟩

example : ∃ (v : Views) (db : Db), Holds v db ∧ db.Plain ∧ db.NoForeignKey ∧ Undisturbed v db ∧ ¬ db.Simple :=
  ⟨pgViews pgLost, pgLost, holds_pgLost, plain_pgLost, by unfold Db.NoForeignKey; decide +kernel, by unfold Undisturbed; decide +kernel,
    fun h => absurd h.view (by decide +kernel)⟩

/-! ## Other databases -/

set_option maxRecDepth 8000 in
/-- C58 fails (PostgreSQL): what is shown of a table with a column of such a type cannot be read.  The names are those of `information_schema`. -/
theorem C58_postgres_types_fails : ∀ x ∈ [s%"timestamp without time zone", s%"time without time zone", s%"date", s%"interval", s%"bytea", s%"json",
    s%"character", s%"inet", s%"xml", s%"ARRAY", s%"USER-DEFINED"],
    ∃ e ∈ [Err.unexpectedCurrentToken, Err.unexpectedPeekToken],
      parse (showTables (Db.views ⟨[⟨s%"t", false, [⟨s%"a", (x, .IDENT), none, none, none, false⟩], []⟩], []⟩) pub) = .err e := by
  decide +kernel

set_option maxRecDepth 8000 in
/-- C58 fails (PostgreSQL): names are shown without quotes.  Those that need them cannot be read, or are read as other names. -/
theorem C58_postgres_quotes_fails : (∀ x ∈ [s%"a b", s%"a-b", s%"default", s%"key", s%"text"],
    ∃ e ∈ [Err.unexpectedCurrentToken, Err.unexpectedPeekToken],
      parse (showTables (Db.views ⟨[⟨s%"t", false, [⟨x, (s%"text", .TEXT), none, none, none, false⟩], []⟩], []⟩) pub) = .err e) ∧
    parse (showTables (Db.views ⟨[⟨s%"t", false, [⟨s%"User", (s%"text", .TEXT), none, none, none, false⟩], []⟩], []⟩) pub) =
      parse s%"CREATE TABLE public.t (User text);" ∧
    parse s%"CREATE TABLE public.t (User text);" ≠ parse s%"CREATE TABLE public.t (\"User\" text);" := by
  decide +kernel

set_option maxRecDepth 8000 in
/-- C58 fails (PostgreSQL): a table without columns is not shown. -/
theorem C58_postgres_empty_fails : showTables (Db.views ⟨[⟨s%"t", false, [], []⟩], []⟩) pub = [] := by decide +kernel

set_option maxRecDepth 8000 in
/-- C58 fails (PostgreSQL): indexes in descending order and on a part of a table, as `pg_indexes` describes them, are shown but cannot be read. -/
theorem C58_postgres_index_fails : ∀ x ∈ [s%"(a DESC)", s%"(a) WHERE (a > 0)", s%"(a) INCLUDE (b)"], ∃ e ∈ [Err.unexpectedCurrentToken, Err.unexpectedPeekToken],
    parse (showTables ⟨[⟨pub, s%"t", s%"a", s%"integer", none, s%"YES", none, 1⟩], [], [], [],
      [⟨pub, s%"i", s%"CREATE INDEX i ON public.t USING btree " ++ x⟩]⟩ pub) = .err e := by
  decide +kernel

set_option maxRecDepth 8000 in
/-- C58 fails (PostgreSQL): the names of tables are shown with their schema, which `diff` takes for other tables than those written without.  The
migration of a database to the very schema it was created with drops the table and creates it anew, empty. -/
theorem C58_postgres_dropped_fails : ∃ (b a : List PStmt),
    parse (showTables (Db.views ⟨[⟨s%"users", false, [⟨s%"id", (s%"bigint", .BIGINT), none, none, none, true⟩], [.primaryKey s%"users_pkey" [s%"id"]]⟩], []⟩) pub) =
      .ok b ∧ parse s%"CREATE TABLE users (id bigint NOT NULL, CONSTRAINT users_pkey PRIMARY KEY (id));" = .ok a ∧
    (diff (Pg.ops fun _ _ => []) (some b) (some a) >>= fun l => .ok (ddlStr (Pg.ops fun _ _ => []) l)) = .ok s%"DROP TABLE public.users;
CREATE TABLE users (
    id bigint NOT NULL,
    CONSTRAINT users_pkey PRIMARY KEY (id)
);
" := by
  refine ⟨valueOf (parse (showTables (Db.views ⟨[⟨s%"users", false, [⟨s%"id", (s%"bigint", .BIGINT), none, none, none, true⟩],
    [.primaryKey s%"users_pkey" [s%"id"]]⟩], []⟩) pub)),
    valueOf (parse s%"CREATE TABLE users (id bigint NOT NULL, CONSTRAINT users_pkey PRIMARY KEY (id));"), ?_, ?_, ?_⟩
  all_goals decide +kernel

end Ddl.Props
