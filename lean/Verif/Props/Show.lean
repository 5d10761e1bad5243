import Verif.Lemmas.ShowCases

/-! # What `ddlctl show` prints is the schema of the database: C47

`Holds v db`: the views `v` of `INFORMATION_SCHEMA` describe the database `db`.  `stmts db`: the statements that create it.
Both are in `Verif/Spec/Show.lean`. -/

namespace Ddl.Props
open Ddl Spec Sp.Show
set_option autoImplicit false

/-! ## Spanner -/

/-- C47 (partial): what `ShowCreateAllTables` prints, the parser reads as the statements that create the database.  Missing: tables
that are not `Simple`, where it is never true (`C47_spanner_exact`), columns of `STORING`, which always are an error
(`C47_spanner_stored_fails`), and what `Plain` excludes, see the other theorems `C47_spanner_…_fails`. -/
theorem C47_spanner_partial {v : Views} {db : Db} (hv : Holds v db) (hd : db.Plain) (hs : ∀ t ∈ db, t.Simple) :
    ∃ text, showTables v = .ok text ∧ Sp.parse text = .ok (stmts db) := by
  have h := show_parse hv hd
  rw [seen_simple hv hd hs] at h
  obtain ⟨text, h1, h2⟩ := bind_eq_ok.1 h
  exact ⟨text, h1, h2⟩

/-- C47, exactly: for a database in which every index has a column, what is printed is read as the statements that create it if and
only if no table has two secondary indexes, a descending column, a `CHECK` or a parent. -/
theorem C47_spanner_exact {v : Views} {db : Db} (hv : Holds v db) (hd : db.Plain) (hc : ∀ t ∈ db, ∀ i ∈ t.indexes, i.columns ≠ []) :
    (∃ text, showTables v = .ok text ∧ Sp.parse text = .ok (stmts db)) ↔ ∀ t ∈ db, t.Simple := by
  refine ⟨?_, C47_spanner_partial hv hd⟩
  rintro ⟨text, h1, h2⟩
  have h := show_parse hv hd
  rw [h1, bind_ok, h2] at h
  exact (seen_iff hv hd hc).1 (Res.ok.inj h).symm

example : Holds showExample.views showExample ∧ showExample.Plain ∧ (∀ t ∈ showExample, t.Simple) ∧
    (∀ t ∈ showExample, ∀ i ∈ t.indexes, i.columns ≠ []) ∧ (stmts showExample).length = 3 := by
  refine ⟨holds_views (by decide +kernel), showExample_plain, ?_, by decide +kernel, rfl⟩
  simp only [showExample, List.mem_cons, List.not_mem_nil, or_false]
  rintro t (rfl | rfl) <;> exact ⟨by decide, by decide, by decide, rfl, rfl⟩

set_option maxRecDepth 8000 in
example : showTables showExample.views = .ok s%"CREATE TABLE users (
    id STRING(36) NOT NULL,
    age INT64 DEFAULT (0) NOT NULL,
    at TIMESTAMP OPTIONS (allow_commit_timestamp = true)
) PRIMARY KEY (id),
ROW DELETION POLICY (OLDER_THAN(at, INTERVAL 30 DAY));
CREATE UNIQUE INDEX by_age ON users (age, id);

CREATE TABLE t (
    x BOOL
) PRIMARY KEY (x);
" := by decide +kernel

/-- C47 is violated: with two indexes, one on `a` and one on `b`, both are shown on `a, a, b, b`, since the query joins the index columns
by the table alone. -/
theorem C47_spanner_indexes_fails : ∃ (v : Views) (db : Db) (text : Str), Holds v db ∧ db.Plain ∧ showTables v = .ok text ∧
    Sp.parse text ≠ .ok (stmts db) ∧ text = s%"CREATE TABLE t (
    a INT64 NOT NULL,
    b INT64
) PRIMARY KEY (a);
CREATE INDEX i ON t (a, a, b, b);
CREATE INDEX j ON t (a, a, b, b);
" :=
  ⟨_, [showTable [(s%"a", false)] none [] [⟨s%"i", false, [(s%"a", false)], []⟩, ⟨s%"j", false, [(s%"b", false)], []⟩]], _,
    holds_views (by decide), showTable_plain (by decide +kernel) (by decide) (by decide +kernel) (by decide), rfl, by decide +kernel, rfl⟩

/-- C47 is violated: the direction of a column of the primary key is not shown. -/
theorem C47_spanner_descending_fails : ∃ (v : Views) (db : Db) (text : Str), Holds v db ∧ db.Plain ∧ showTables v = .ok text ∧
    db = [showTable [(s%"a", true)] none [] []] ∧ Sp.parse text = .ok (stmts [showTable [(s%"a", false)] none [] []]) ∧
    Sp.parse text ≠ .ok (stmts db) :=
  ⟨_, _, _, holds_views (by decide), showTable_plain (by decide +kernel) (by decide) (by decide) (by decide), rfl, rfl,
    by decide +kernel, by decide +kernel⟩

/-- C47 is violated: the parent of an interleaved table is not shown. -/
theorem C47_spanner_parent_fails : ∃ (v : Views) (db : Db) (text : Str), Holds v db ∧ db.Plain ∧ showTables v = .ok text ∧
    db = [showTable [(s%"a", false)] (some s%"p") [] []] ∧ Sp.parse text = .ok (stmts [showTable [(s%"a", false)] none [] []]) ∧
    Sp.parse text ≠ .ok (stmts db) :=
  ⟨_, _, _, holds_views (by decide), showTable_plain (by decide +kernel) (by decide) (by decide) (by decide), rfl, rfl,
    by decide +kernel, by decide +kernel⟩

/-- C47 is violated: no `CHECK` is shown. -/
theorem C47_spanner_checks_fails : ∃ (v : Views) (db : Db) (text : Str), Holds v db ∧ db.Plain ∧ showTables v = .ok text ∧
    db = [showTable [(s%"a", false)] none [(s%"c", ⟨s%"a > 0", lex .spanner s%"a > 0"⟩)] []] ∧
    Sp.parse text = .ok (stmts [showTable [(s%"a", false)] none [] []]) ∧ Sp.parse text ≠ .ok (stmts db) :=
  ⟨_, _, _, holds_views (by decide), showTable_plain (by decide +kernel) (by decide) (by decide) (by decide), rfl, rfl,
    by decide +kernel, by decide +kernel⟩

/-- C47 is violated: if an index stores further columns, nothing is shown at all, since their position is NULL. -/
theorem C47_spanner_stored_fails {v : Views} {db : Db} (hv : Holds v db) {t : Tbl} (ht : t ∈ db) {i : Idx} (hi : i ∈ t.indexes)
    (hn : i.name ≠ s%"PRIMARY_KEY") (hs : i.stored ≠ []) : ∃ e, showTables v = .err e := stored_err hv ht hi hn hs

example : ∃ (v : Views) (db : Db) (t : Tbl) (i : Idx), Holds v db ∧ t ∈ db ∧ i ∈ t.indexes ∧ i.name ≠ s%"PRIMARY_KEY" ∧ i.stored ≠ [] :=
  ⟨_, [showTable [(s%"a", false)] none [] [⟨s%"i", false, [(s%"b", false)], [s%"a"]⟩]], _, _, holds_views (by decide),
    List.mem_singleton.2 rfl, List.mem_singleton.2 rfl, by decide, by decide⟩

/-- What is shown of the database cannot be read. -/
abbrev ShownUnreadable (db : Db) : Prop := ∃ (v : Views) (text : Str) (e : Err), Holds v db ∧ showTables v = .ok text ∧ Sp.parse text = .err e

set_option maxRecDepth 4000 in
/-- C47 is violated: a column with a default and options cannot be read unless it is `NOT NULL`. -/
theorem C47_spanner_default_fails :
    ShownUnreadable (oneColumn ⟨s%"a", (s%"TIMESTAMP", .TIMESTAMP), none, some ⟨s%"PENDING_COMMIT_TIMESTAMP()", lex .spanner s%"PENDING_COMMIT_TIMESTAMP()"⟩,
      false, [(s%"allow_commit_timestamp", ⟨s%"TRUE", lex .spanner s%"TRUE"⟩)]⟩) :=
  ⟨_, _, _, holds_views (by decide), rfl, rfl⟩

/-- C47 is violated: names are shown without quotes, so a column named like a keyword cannot be read. -/
theorem C47_spanner_keyword_fails : ShownUnreadable (oneColumn ⟨s%"key", (s%"INT64", .INT64), none, none, true, []⟩) :=
  ⟨_, _, _, holds_views (by decide), rfl, rfl⟩

/-- C47 is violated: the types `BYTES`, `DATE` and `ARRAY` cannot be read. -/
theorem C47_spanner_type_fails : ∀ n ∈ [s%"BYTES(16)", s%"DATE", s%"ARRAY<INT64>"],
    ShownUnreadable (oneColumn ⟨s%"a", (n, .IDENT), none, none, true, []⟩) := by
  simp only [List.mem_cons, List.not_mem_nil, or_false]
  rintro n (rfl | rfl | rfl) <;> exact ⟨_, _, _, holds_views (by decide), rfl, rfl⟩

/-- C47 is violated: a primary key of no columns, which a table with one row has, is not shown. -/
theorem C47_spanner_nokey_fails : ∃ (v : Views) (db : Db) (text : Str), Holds v db ∧ db = [showTable [] none [] []] ∧
    showTables v = .ok text ∧ Sp.parse text ≠ .ok (stmts db) ∧ Sp.parse s%"CREATE TABLE t (a INT64 NOT NULL, b INT64) PRIMARY KEY ()" = .ok (stmts db) :=
  ⟨_, _, _, holds_views (by decide), rfl, rfl, by decide +kernel, by decide +kernel⟩

/-- C47 is violated: columns are sought by the name of the table alone, so a table named like a view of `INFORMATION_SCHEMA` is shown
with the columns of that view too. -/
theorem C47_spanner_schema_fails : ∃ v : Views,
    v.tables = [⟨[], s%"TABLES", none⟩, ⟨s%"INFORMATION_SCHEMA", s%"TABLES", none⟩] ∧
    v.columns = [⟨s%"TABLES", s%"a", none, s%"NO", s%"INT64", 1⟩, ⟨s%"TABLES", s%"TABLE_NAME", none, s%"NO", s%"STRING(MAX)", 3⟩] ∧
    showTables v = .ok s%"CREATE TABLE TABLES (
    a INT64 NOT NULL,
    TABLE_NAME STRING(MAX) NOT NULL
) PRIMARY KEY (a);
" :=
  ⟨⟨_, _, [], [⟨s%"TABLES", s%"PRIMARY_KEY", s%"PRIMARY_KEY", true⟩],
    [⟨s%"TABLES", s%"PRIMARY_KEY", s%"PRIMARY_KEY", s%"a", some s%"ASC", some 1⟩]⟩, rfl, rfl, by decide +kernel⟩

end Ddl.Props
