# Design: a Lean 4 model of ddlctl

The Go sources in `/repo` are read as text. The model is a set of total, computable Lean functions that follow
the Go code function by function; each definition cites the file and lines it models.

## Layout

| Lean module | contents |
|---|---|
| `Verif/Basic.lean` | Go strings as `List Char` (one `Char` per byte), outcome type `Res` (value / error / panic / out of fuel), `strings.*` helpers |
| `Verif/Token.lean`, `Verif/Lexer.lean` | tokens, keyword tables and lexers of the four dialects |
| `Verif/Ident.lean` | identifiers, object names, expressions shared by the dialects |
| `Verif/Pg/*`, `Verif/Crdb/*`, `Verif/My/*`, `Verif/Sp/*` | AST, printer, parser, diff of PostgreSQL, CockroachDB, MySQL, Spanner |
| `Verif/Apply.lean` | `ddlctl apply`: prompt, comment removal, splitting, retry loop, Spanner batch, over an abstract database |
| `Verif/Cmd.lean` | `ddlctl diff/generate/show` dispatch |
| `Verif/Sp/Show.lean` | Spanner's `ShowCreateAllTables` over the rows of `INFORMATION_SCHEMA` |
| `Verif/Regex.lean`, `Verif/Generator.lean` | regular expressions with leftmost-first matching; SQL generation from Go structs: annotations, struct tags, files and directories, printing |
| `Verif/Config.lean`, `Verif/Load.lean`, `Verif/Main.lean` | configuration load/rollback; the options of the commands; the program and its exit status |
| `Verif/Spec/*.lean` | specifications that do not mention model helpers (database semantics, token texts, separators) |
| `Verif/Props/*.lean` | the property theorems, one file per group, and nothing else but non-vacuity examples |
| `Verif/Tests/*.lean` | the test tables of the Go packages (`pkg/ddl/*/*_test.go`: keywords, tokens, parses, refusals, diffs; about 600 cases) and the golden files of the generator, run on the model |

Helper lemmas live in `Verif/Lemmas/*` or next to the definitions, never in `Verif/Props`.

## Modelling decisions

* **Strings** are byte sequences in Go. They are `List Char` here, one `Char` for one byte. Theorems quantify over all
  `List Char`, which includes all byte strings. `string(byte)` of a byte >= 0x80 yields two bytes in Go; this only concerns the
  literal of an ILLEGAL token and is modelled (`byteStr`).
* **Lexer state** (`input/position/readPosition/ch`) is represented by the remaining input; `ch` is its head or 0 at the end.
  A NUL byte in the input is the EOF token, as in Go, and lexing continues behind it.
* **Lazy lexing.** The Go parser pulls tokens one at a time with one token of lookahead. The model lexes the whole input into a
  token list; a lexer panic (unterminated quote) becomes a marker token, and the parser's `next` raises the panic exactly when
  that token would be pulled. So an error found before the panic is reported as the error, as in Go.
* **Errors** keep only the sentinel kind (`ErrUnexpectedCurrentToken`, ...); message texts are not modelled.
* **Panics** (nil dereference, slice bounds) are explicit outcomes, never totalised away.
* **Loops** take fuel; running out of fuel is a distinct outcome, and a theorem shows that it never happens (C10).
* **nil pointers** are `Option` where the code can produce nil, otherwise the field is plain and the comment says why.
  `*Expr` nil and empty are identified (`List Ident`): the parser never stores an empty non-nil `Expr` except for a type with
  empty parentheses, where printing and diffing treat both alike.
* **`simplediff.Diff(a,b).String()`** (external, not available) is an arbitrary function parameter `sd`; theorems hold for all `sd`.
* **`reflect.DeepEqual`** is structural equality. It implies equal printing, so the third disjunct (equal `String()`) subsumes it.
* **Slices/aliasing.** ASTs are values. The only mutation of an argument is in `DiffCreateTable`'s rename branch
  (`rename.NewName.Schema = before.Name.Schema` writes through `after.Name`); the model returns the updated name for the rest of
  the function, which is the observable effect inside that call.
* **`sort.Slice`** with the non-strict comparator in `Constraints.Append` (cockroachdb, mysql) is modelled by Go's insertion sort,
  which is what `sort.Slice` runs for at most 12 elements; longer lists are not modelled faithfully (the comparator is not
  an order, so the result is unspecified by the Go documentation).
* **The database** in `apply` is an arbitrary function from the history of queries to a result.

## Trusted base

* Lean 4.33.0's kernel and the axioms `propext`, `Classical.choice`, `Quot.sound` (checked by `#print axioms`; no other axiom
  is used by any theorem; no `sorry`, `native_decide`, `bv_decide`).
* The correspondence between `/repo` and the Lean definitions (reviewed by hand, cited line by line, and tested: the model gives the
  expected outcome on every case of the lexer, parser and diff tests of the Go packages that starts from a text, `Verif/Tests`).
* For C03: the specification of DDL execution in `Verif/Spec/Db.lean`, a simplified PostgreSQL catalogue (its head lists the simplifications).
* For C46: the specification of execution in `Verif/Spec/Run.lean`. One table without rows; Spanner's `DROP OPTIONS` is executed as if it
  existed (it does not); a primary key does not make columns `NOT NULL`; `UseAlterTableAddConstraintNotValid` is off.
* For C47: what the queries of `show` return (`Verif/Sp/Show.lean`: filters, joins and stable sorts over the rows of
  `INFORMATION_SCHEMA`; NULL read into a `string` or `int` field is an error of `database/sql`) and which rows describe a database
  (`Holds` in `Verif/Spec/Show.lean`).
* For C57: what the servers answer to the queries of `show` (`Holds` in `Verif/Spec/ShowText.lean`; CockroachDB's rows are an input).
* For C58: the SQL of `show` as filters, joins, groups and sorts over the rows of the views (`Verif/Pg/Show.lean`; names are compared by code
  points; constraints come in the order of the view, since the query gives none), and which rows describe a database (`Holds` in
  `Verif/Spec/ShowPg.lean`).
* For `apply`: `retry.Retryer.Do` (how often it calls its function), `stringz.ReadLine` and the database are parameters of
  `Apply.Site`; theorems that need it assume `attempts k ≤ k + 1` (`WithMaxRetries(k)`) and, for Spanner, that `ReadLine` drops
  the comment lines (`Spec.DropsCommentLines`).
* For `generate`: what `go/parser`, `ast.NewCommentMap` and `ast.Inspect` make of a Go file is the input (`Gen.Node`; in the tests
  written down by hand from the golden sources); `strconv.Unquote` is a parameter; the configured tag is taken literally in the
  regular expression (the code does not escape it); `sort.Slice` is insertion sort (see above).
* For the exit status: what the option parser (cliz) makes of `os.Args` is an input (`Main.Invocation`); its `Run` is trusted to call the
  function of the command and to return an error that wraps the one of the function.
* For the options (C70): cliz is trusted to split `os.Args`, to take an option from the command line, else from the environment, else from its
  default, to refuse undeclared options, and to answer a question for an undeclared option with the zero value (`Load.Given`, `Verif/Load.lean`).
* For C51–C54, C63 and C68: the specifications of execution in `Verif/Spec/Schema*.lean` and `Verif/Spec/Db.lean` (databases without rows; the
  head of each file lists what is simplified) and, for C54 and C63, the database behind `apply` in `Verif/Spec/ApplyDb.lean`.
* Not modelled: cliz option parsing, logging, file system access, `go/parser`,
  `database/sql` drivers, error message texts, `GoString`.

## Properties: what is modelled and how it is proved

| id | model | proof |
|---|---|---|
| C01 | `Diff` of each dialect | the guard `before.String() == after.String()` fires; direct |
| C02 | `Diff` with `Option DDL` arguments | induction on the statement list against a spec list of drops |
| C03 | `Pg.diff`, executed by `Spec/Db.lean` (`Exec`, `Execs` on a catalogue of tables, columns, constraints and indexes) | partial: for tame schemas that a database accepts and that avoid `NoHazard`, all statements succeed and lead from the old catalogue to the new one. Proof: per table, one invariant for each of the five stages of `DiffCreateTable` (`Lemmas/DbTable.lean`); over the schema, an invariant on what the catalogue holds after each DROP, CREATE and ALTER (`Lemmas/DbDiff.lean`). Every clause of `NoHazard` is needed: one `C03_…_fails` for each |
| C04 | `Pg.diff`, lexer, parser and printers | partial: `Props/NoDifference.lean`. Printing is injective on what the parser returns (`Lemmas/PgUnique`: the printed text determines the tokens, the tokens determine the statements), and so are the texts for comparison when identifiers do not contain separators (`Spec/Tame.lean`, `Lemmas/PgNoDiff`); so equal texts, or no statement to emit, mean the same bare definitions. Excluded and refuted with witnesses: index methods, quoted identifiers with blanks or commas, letter case of quoted identifiers |
| C05 | `Diff` of all dialects, `Spec.SameSchema` | contents without quoting and spelling (`bare`) determine all diff strings; every branch of the diff is then empty |
| C06-C09 | `Diff`, `DiffCreateTable` | membership/order lemmas on the concatenation that the code builds |
| C10 | parser with fuel | each loop iteration consumes a token; the fuel `length+1` is never exhausted |
| C11 | parser with panic outcome | negation by witnesses (unterminated quote; `DEFAULT TEXT`; Spanner unnamed CHECK); partial: no panic when quotes are closed and no type keyword directly follows DEFAULT; with an open quote nothing is ever accepted (an invariant of `next` kept by every parser function, Lemmas/Keep*.lean), unless a NUL byte comes first |
| C12 | lexer | whitespace/comment runs are skipped at any token boundary; parse depends on tokens only |
| C13 | lexer, parsers, diff | two runs of each parser on related token lists (`Spec.Recased`) end in the same way with definitions equal up to the case of stored keywords; no difference if those are in capitals; partial: stored keywords (defaults, actions, Spanner options) are compared as written, negations with witnesses |
| C14 | lexer, PostgreSQL parser and printers | partial: `Props/RoundTrip.lean`. What the parser returns is built from tokens that can be written (`Post` lemmas); the printed text is lexed to a token list, piece by piece (`Lexeme`, `PgPrint`, `PgColumn`, `PgTable`); that token list is read as the same statements. Excluded and refuted with witnesses: `CHECK`, foreign key actions, unquoted generated names, `DEFAULT` without value, illegal characters |
| C15 | `Constraints.Append`, parsers | uniqueness: invariant through all parser loops; last definition wins: induction over the appended definitions (`Spec.LastWinsAtFirst`), for PostgreSQL joined with the reading of printed constraints; for texts of the grammars of C62, with column constraints and constraints of the table, in all dialects (`C62_…_partial`: the constraints written and the constraints of the tree are in the relation `LastWinsAtFirst` or `KeyFirst`). Negation: CockroachDB and MySQL move a primary key to the front |
| C16 | lexer, parsers, diff | same method with `Spec.Requoted`; proved for PostgreSQL and Spanner; partial for CockroachDB (words behind USING) and MySQL (column comments), negations with witnesses |
| C17-C22 | `Apply.lean`: `apply` state machine | trace of queries as a list; case analysis and induction over passes. C18 partial (no `--` or `;\n` inside literals, no lines of 64 KiB), C20 with n the number of split pieces (bound reached), C21 and C22 refuted for mysql/postgres |
| C23, C24 | command dispatch | decision logic over result values |
| C25, C27 | printers + lexer | comment lines are skipped by the lexer |
| C26 | generator | generated body = intercalation of rendered items |
| C28 | struct-field translation, struct tags, whole files | list filter/map specification, induction; the tag loop against a grammar of `key:"value"` pairs (`TagPairs`). Negation for interpreted tags |
| C29 | configuration cell | induction over the nesting of load/rollback |
| C30 | `Sp.diffCreateTable`, `Sp.parse` | case analysis; for tables read from texts (any number of options) the compared text of the options is shown to be injective, from the shapes of C65; refuted for quoted words with blanks |
| C31 | `My.diffCreateTable` | the statements are run on the old column (`runColumn`) and give the new one; universal negation for character sets |
| C32, C33 | `DiffCreateTable` of all dialects | the exact result for tables that differ in one action or one default word; universal negations for MySQL (and Spanner, C33) |
| C35 | `Pg.parseColumnConstraints` | partial: for lists of constraints of different kinds, given by a token grammar (`Spec/ColumnConstraints.lean`), exactly those constraints are read, in order; a `CHECK` or a `REFERENCES` without `ON` only at the end. Negation: a `UNIQUE` behind a `CHECK` is lost, and the first of two `REFERENCES` |
| C36 | `parseColumn` of PostgreSQL, CockroachDB, MySQL | partial: replacing the words of the type by a synonym of the table `Spec.synonyms`, in any letter case, before any rest, gives the same outcome and no alteration. Negations for the documented synonyms the code takes for different types (VARCHAR, NUMERIC, REAL, DOUBLE, BOOLEAN, INT of CockroachDB) |
| C37 | parsers, `Spec.CompleteIndex` | parsers run on the token shape of CREATE INDEX; universal negation (the token after `)` is skipped), partial for the second one |
| C34 | `My.diffCreateTable` options part | the list of options set, computed and compared with the specification |
| C38 | `Crdb.diffCreateTableColumn` | membership characterisation |
| C41 | `DiffCreateTable` of all dialects | the statement list has a fixed shape (`Lemmas/Shape`), membership read off |
| C39 | lexer | concatenation of literals = input without blanks/comments |
| C42 | `Gen.translateTable` with the regular expressions of the code | partial: the language of each expression (`Lang`), the matcher against it (`Lemmas/Regex`), unique decomposition of annotation lines (`Lemmas/Annotation`). Universal negation: any word counts as tag; witness: `*/` in names |
| C43 | `Gen.parseFile`, the sort key as text | the order of `%s:%09d` texts is the order of the lines (below 10^9); partial: table before index where no index line is the first tagged line; negation with witness |
| C44 | `Gen.walk`, `Gen.parseFile` | closed form by induction over the entries |
| C45 | `Gen.extract`, `Gen.inspect` | count of tables = count of tagged groups with columns; partial: one group per declaration; two negations with witnesses |
| C46 | `diffCreateTable` of CockroachDB, MySQL, Spanner, executed by `Spec/Run.lean` (`Step` on one table) | partial: for tables whose texts for comparison are unambiguous (`Good`) and changes outside `NoHazard`, the statements succeed and give the new table. Proof: one invariant per stage, a stage being one block of statements per element of a list (`runs_each` in `Lemmas/Run`). Every clause of `NoHazard` is needed: one `C46_…_fails` each |
| C47 | Spanner's `ShowCreateAllTables` on the rows that describe a database (`Spec/Show.lean`: `Holds`, `stmts`), read by `parse` | partial: the text is read as the statements that create the database, if names need no quotes and the parser knows the types (`Plain`) and the tables are `Simple`; `C47_spanner_exact`: for such databases this holds exactly for `Simple` tables; nine ways to fail proved. CockroachDB and MySQL print what the database returns; PostgreSQL is not modelled |
| C48 | lexer, CockroachDB parser and printers | partial: `Props/RoundTripCrdb.lean`, as C14 (`CrdbPrint`, `CrdbColumn`, `CrdbCon`, `CrdbTable`). New here: the type operators printed without blanks, sort orders, computed columns, and `USING`, which eats the comma or bracket behind it (the loop over the items is followed through both states). Excluded by `Rereadable` (`Spec/RoundTripCrdb.lean`) and refuted with witnesses: `CHECK`, foreign key actions, generated names, `AS` with `DEFAULT`, `DEFAULT`/`AS` without value, neighbouring type operators, two primary keys, `CREATE INDEX … USING`, illegal characters |
| C49 | lexer, MySQL parser and printers | partial: `Props/RoundTripMy.lean`, as C14 and C48 (`MyPrint`, `MyColumn`, `MyTable`). New here: the attributes of a column, which are read in any order and printed in one; table options; comments. Excluded by `Rereadable` (`Spec/RoundTripMy.lean`) and refuted with witnesses: `BOOLEAN`, `ASC`, foreign key actions, generated names, `DEFAULT` without value or with `AUTO_INCREMENT`, a primary key that takes the place of a constraint of that name, illegal characters |
| C50 | lexer, Spanner parser and printers | partial: `Props/RoundTripSp.lean`, as C14, C48 and C49 (`SpPrint`, `SpColumn`, `SpTable`). New here: appending constraints can panic (shown not to for schemas that were read), `OPTIONS`, table options whose values are one identifier for several words, `ROW DELETION POLICY`. Excluded by `Rereadable` (`Spec/RoundTripSp.lean`) and refuted with witnesses: generated names, `DEFAULT` without value or with `OPTIONS`, illegal characters |
| C51 | `Sp.diff`, executed by `Spec/Schema.lean` (`Exec` on tables and indexes by name, on top of `Alter` of `Spec/Run.lean`) | partial: for schemas of CREATE statements that are tame, `Told` from their texts (which schemas read from a text are, if they are `Rereadable`: `C51_read`), and free of `NoSchemaHazard`. Proof: `Lemmas/Phases.lean` runs the three phases of `Diff` (DROP, CREATE, ALTER) for any database whose state is a function of the set of definitions; `Lemmas/SchemaSp.lean` supplies the state and the steps, using C46 for the alterations of one table and C50 to know that equal texts are equal tables. Each clause of `NoSchemaHazard` is refuted with a witness: `C51_…_fails` |
| C52 | `Crdb.diff`, executed by `Spec/SchemaCrdb.lean` (`Exec` on tables by name, whose indexes are part of them) | partial: as C51, for CockroachDB. Proof: `Lemmas/SchemaCrdb.lean` supplies the state (the table as defined, extended by its `CREATE INDEX`es) and the steps for `Lemmas/Phases.lean`; the run of one table (C46) is lifted to the database by a frame lemma (`lift`): the statements do not touch the names and columns of the other indexes, and `DROP INDEX` is unambiguous. Each clause of `NoSchemaHazard` is refuted with a witness: `C52_…_fails` (for the clauses about one table see C46) |
| C53 | `My.diff`, executed by `Spec/SchemaMy.lean` (`Exec` on tables by name, whose indexes are part of them; no `DROP INDEX`, which is a syntax error without `ON`) | partial: as C52, for MySQL (`Lemmas/SchemaMy.lean`). No index may be dropped or changed, because there is no working statement for it; a changed table, its constraints, columns and options, new tables and new indexes work. Each clause of `NoSchemaHazard` is refuted with a witness, also the need for names of indexes that are unique in the whole schema: `C53_…_fails` (for the clauses about one table see C46) |
| C54 | the whole `apply` command (model of C18–C21) against a server that executes statements (`Spec/ApplyDb.lean`: `Serves`, and `ServesBatch` for Spanner), with the execution of C03 and C51–C53 | partial: `C54_in_order` and `C54_batch` for any server that can execute the shown statements in order (each is sent once, success, final state); `C54_postgres_partial`, `C54_cockroachdb_partial`, `C54_mysql_partial`, `C54_spanner_partial` from the two texts to the final state, under the hypotheses of C03 and C51–C53 and if the server reads each printed statement as what it was printed from (`Sendable`: no `;`, `--` line or string literal in it). Missing: migrations outside those hypotheses. `C54_index_lost_fails`: success without the new schema; `C54_retry_fails`: the new schema without success; `C54_mysql_retry`: the repetition helps for MySQL |
| C55 | `parse` of the four dialects with everything below it | partial: `C55_<dialect>_partial` for two texts (statements and errors), `C55_<dialect>_all_partial` for any number. Proof: `Lemmas/Ahead.lean` relates each parser function on tokens `ts` and on `ts ++ us`, where `us` begins with a semicolon: it succeeds on both with the same value and with `us` behind its rest, or it failed on `ts` (`Leads`); one lemma per parser function in `Lemmas/{Pg,Crdb,My,Sp}Ahead.lean`; the statement loop in `Lemmas/AheadLoop.lean`. Missing: texts with the byte 0, refuted in `C55_<dialect>_nul_fails`, and second texts that panic. The converse is refuted: `C55_<dialect>_semicolon_fails` |
| C56 | `Gen.fprint`, `parse` of the four dialects, `Cmd.diffCommand` | partial: `C56_<dialect>_partial` (the generated file is read like `handFile`, the statements on one line each without comments, and as the concatenation of what each statement is read as, by C26 and C55); `C56_diff_partial` through the `diff` command. Missing: annotations that are no complete SQL (`C56_comment_fails`). Which annotations the own parser refuses: `C56_<dialect>_fails` |
| C57 | `ShowCreateAllTables` of MySQL and CockroachDB (`My/Show.lean`, `Crdb/Show.lean`). The MySQL server is a function from query texts to answers; `Holds` (`Spec/ShowText.lean`) says that it answers the right queries with the tables and refuses all others. | `C57_mysql_partial`, `C57_cockroachdb_partial`: the printed text is read as all tables, by the independence of statements (C55). Names with a backquote, foreign keys (CockroachDB) and many types fail. |
| C58 | `ShowCreateAllTables` of PostgreSQL (`Pg/Show.lean`): the two SQL queries as functions of the rows of five views. `Holds` (`Spec/ShowPg.lean`) says that the views describe a database, among rows of other schemas and in any order; `stmts` are the statements that create it. | `C58_postgres_partial`: read as `stmts` just if the database is `Simple` (no foreign key, check constraint, precision or view) and no foreign key of another schema has the name of a key. `C58_postgres_seen`: what is read otherwise. Foreign keys always fail; so do many types, names that need quotes, and some indexes. |
| C59 | `diff` of CockroachDB, MySQL and Spanner (`Crdb/Diff.lean`, `My/Diff.lean`, `Sp/Diff.lean`, `Diff.lean`), compared with the relations `Alike` of `Spec/NoDiff.lean` on tables and indexes | partial, as an equivalence (`Lemmas/NoDiff.lean`): no difference just if the schemas are alike. The texts for comparison are shown to be injective on tame definitions, and the lists of alterations to be empty just for matched columns, constraints and options. What `Alike` leaves out, because the code does not compare it, and what ambiguous texts confuse, is refuted with witnesses: `C59_…_fails` |
| C60 | `Cmd.generateCommand`, `Gen.parse`, `Gen.newDDL`, `Gen.fprint`, `Cmd.diffCommand` | partial: `C60_success` (exactly when a run succeeds), `C60_written` (what is in the destination then, and that no other file has changed; `PathStmts` says which statements belong to a path, as in C44), `C60_read_partial` (the parser reads it as the annotated statements; missing: annotations that are no complete SQL), `C60_diff_partial` (`diff` of the result with the source is silent; missing: single Go files, `C60_diff_file_fails`), `C60_failure_partial` (a failed run changes no other file). The destination itself is emptied by every failed run: `C60_failure_fails`. `C60_nothing`: a directory without annotations is no error |
| C61 | `Cmd.showCommand`, `Cmd.showDb`, `Cmd.showSwitch`, `Cmd.driverName` | proved: `C61_success`, `C61_failure`, `C61_diff`. The contents of the shown text are C47, C57, C58 |
| C62 | `Pg.parse`, `My.parse`, `Crdb.parse`, `Sp.parse` and all parser functions below them, against the grammars of `Spec/WrittenPg.lean`, `Spec/WrittenMy.lean`, `Spec/WrittenCrdb.lean`, `Spec/WrittenSp.lean`, in which every phrase comes with its part of the syntax tree | partial: `C62_postgres_partial`, `C62_mysql_partial`, `C62_cockroachdb_partial`, `C62_spanner_partial`. Missing: phrases at which the parser skips a token (`C62_…_skips_fails`) or wants another order (`C62_…_order_fails`), some constraints of the table (`C62_…_constraints_fails`), for CockroachDB and MySQL something else with the name of a primary key |
| C63 | `diff`, `applyCommand` on schemas that create the same database in the sense of `Spec/Db.lean`, `Spec/Schema*.lean`, with `Spec/Converge.lean` for what a database does not remember | partial: `C63_postgres_partial`, `C63_cockroachdb_partial`, `C63_mysql_partial` say exactly which schemas of the same database have no difference, `C63_…_same_partial` drop the conditions on the texts for one direction (and on the methods of indexes for PostgreSQL), `C63_spanner_partial` that for Spanner there is never one; `C63_…_again_partial` that the run of `apply` after one as in C54 does nothing. Missing: `NOT NULL` of primary key columns written in one schema only (`C63_…_key_fails`), indexes written at different places (`C63_…_index_fails`) |
| C64 | `applyCommand` with a data source on the left (`ShownAs` in `Spec/ShowRun.lean`): `resolve`, `showTables` of each dialect, `parse`, `diff` on the database of C47, C57, C58 and a schema that creates the same database | partial: `C64_postgres_partial`, `C64_cockroachdb_partial`, `C64_mysql_partial`, `C64_spanner_partial`, put together from C47/C57/C58 and C63. Violated in general: `C64_postgres_unqualified_fails`, `C64_cockroachdb_unqualified_fails` (for every database and every schema without `public`: all tables are dropped), `C64_postgres_check_fails`, `C64_cockroachdb_rowid_fails`, `C64_mysql_default_fails`, `C64_spanner_descending_fails`, `C64_spanner_parent_fails`, `C64_spanner_indexes_fails`, `C64_spanner_checks_fails` |
| C65 | `Pg.parse`, `Crdb.parse`, `My.parse`, `Sp.parse` and all parser functions below them on any accepted text, against the loose grammars of `Spec/Source.lean`, `Spec/SourcePg.lean`, `Spec/SourceCrdb.lean`, `Spec/SourceMy.lean`, `Spec/SourceSp.lean`, in which every phrase comes with its part of the syntax tree (C62 is the converse, for texts of a strict grammar) | proved: `C65_postgres`, `C65_cockroachdb`, `C65_mysql`, `C65_spanner`, by following each parser function from the tokens it gets to those it leaves (`…_source` in `Lemmas/Source*.lean`). That the exceptions are needed: `C65_…_skipped_fails`, `C65_statements_fails` |
| C66 | `diff` with the `Ops` of the four dialects on parsed schemas | proved for PostgreSQL, CockroachDB, MySQL: the result is `Answer`; Spanner partial (every CHECK named), `C66_spanner_exact` says exactly which pairs crash, `C66_spanner_fails` is a witness |
| C67 | `Verif/Main.lean`: `run`, `ddlctl`, `main` over the four commands; what the option parser finds is an input (`Invocation`) | every run ends (from C10, C66); status 0 is characterised for each command by what was printed, written and read; no crash on readable sources; partial for wrong arguments: `show` and `generate` crash without theirs (`C67_arguments_fails`), and so do `diff` and `apply` on open quotes and on unnamed CHECKs (`C67_crash_fails`) |
| C68 | `diff` with the `Ops` of the four dialects, executed by the databases of `Spec/Db.lean` and `Spec/Schema*.lean` | partial, as C03 and C51–C53: proved in both directions and along a detour where no excluded change occurs; the databases are deterministic, so the way back leads to `B` only; for each dialect a migration that cannot be undone (`C68_…_undo_fails`) and one that works in two steps but not in one (`C68_…_path_fails`) |
| C69 | `diff` with the `Ops` of the four dialects; `Mixed`, `Changes`, `InParts` and `PartByPart` in `Spec/Parts.lean` | partial: proved for every interleaving if no object is defined twice in the old schema and different schemas and different parts are printed differently (the diff compares texts first); the corollary for a part that stays as it is; violated where a table is defined twice (`C69_…_fails`) |
| C70 | `Load.opts`, `Load.strOptions`, `Load.boolOptions`, `Load.getString`, `Load.getBool`, `Load.load`, `Load.invoke`, `Main.main`; the usage texts of the README as `Documented` in `Spec/Load.lean` | partial: settings, their independence of anything else and approval are proved (`C70_documented`, `C70_nothing_else`, `C70_approval`); without a dialect no command succeeds, prints, writes or sends anything (`C70_no_dialect_partial`), but `generate` empties its destination (`C70_no_dialect_fails`) |
| C71 | `diff` with the `Ops` of the four dialects; `AnyOrder` in `Spec/Order.lean` | partial: proved for all permutations of both schemas if no object is defined twice and different schemas are printed differently; violated where the new schema defines a table twice (`C71_…_fails`) |
| C72 | `applyCommand` on `resolve` of a directory (`parseGo`, `genText`), with the servers of C54; `Annotated` in `Spec/ApplyGo.lean` | partial: proved by composing C56 (the generated text is read like the statements written by hand) with C03/C51–C54; missing is what is missing there. Violated where the generated text is refused (`C72_refused_fails`) |
| C73 | `diff` of two parsed texts in both directions; `FullValues`, `KeepsHidden` (CockroachDB) and `KeepsOptions` (MySQL) in `Spec/Sides.lean` | partial: proved for schemas whose names are distinct and whose `DEFAULT`s have a value, without any condition that the texts be unambiguous: a table compared without a result has, name by name, the same printed parts, and this is symmetric. Violated for names given twice (`C73_twice_fails`), `DEFAULT` without a value (`C73_default_fails`), hidden virtual columns (`C73_hidden_fails`) and table options (`C73_option_fails`) |
| C74 | `diffCreateTable` of each dialect with its option `nv`; `notValid` in `Spec/Library.lean` | proved: there is one list of statements from which the answers with and without the option come by setting the mark on each added constraint; and the mark is printed in front of the `;` |
| C75 | `diffCreateTable` of each dialect for tables of different names; `movedName` in `Spec/Library.lean` | proved for PostgreSQL and CockroachDB; partial for MySQL (not if the table moves to another schema, `C75_mysql_fails`) and Spanner (no unnamed CHECK, `C75_spanner_fails`). By unfolding: the parts behind the renaming depend on the names only through the new one |
| C76 | `diff` and `diffCreateTable` of each dialect; what a statement does to what, `deedOf`, in `Spec/Once.lean` | proved for PostgreSQL and Spanner; partial for CockroachDB and MySQL: indexes declared inside tables must have names of their own and no constraint may become an index (`C76_cockroachdb_fails`, `C76_mysql_fails`, `C76_cockroachdb_kind_fails`, `C76_mysql_kind_fails`). Each comparison keeps to its own objects, so different comparisons cannot repeat each other; within one, dropped, changed and new constraints are told apart by name |
| C77 | as C76; `TakesBack` in `Spec/TakeBack.lean` | proved for PostgreSQL and Spanner; partial for CockroachDB and MySQL: the conditions of C76, and an index of both schemas is in the same place in both (`C77_cockroachdb_fails`, `C77_mysql_fails`), and no constraint becomes an index (`C77_cockroachdb_kind_fails`, `C77_mysql_kind_fails`); MySQL also: tables of equal names have equal schemas. Drops come first, what is created is not in the old schema, and within a table a changed constraint is dropped right before it is added |
| C78 | the four `Diff` and `DiffCreateTable`, with `simplediff.Diff(a, b).String()` as an arbitrary function; `uncommented` and `lineComments` in `Spec/Uncommented.lean` | proved for all dialects and all inputs (errors and panics included), without hypotheses. Each function of the difference gives the same list up to comments for two such functions, therefore also the tests for empty lists agree; the comment is split at line breaks and every line that is not empty gets `-- ` in front |
| C79 | the four `Diff` and `DiffCreateTable`; `HasReason` and the reasons per kind of change in `Spec/Reason.lean` | proved for PostgreSQL and Spanner without hypotheses; partial for CockroachDB and MySQL: no constraint becomes an index or the other way round (`C79_cockroachdb_fails`, `C79_cockroachdb_constraint_fails`, and the same for MySQL); MySQL also: without the character set of a column (`C79_mysql_character_set_fails`). By cases over the statements that each loop appends. That no difference is left without a statement is C04, C46 and C59 |
| C80 | `Generate` with `Fprint` of the three printers; `SameButQuotes` in `Spec/Flavors.lean`: character by character, a difference is a double quote against a backquote | proved. The model has one function for the printers of PostgreSQL and MySQL, because the files `create_table.go` of the two packages are equal but for the package name; the quotes and the printer of Spanner are distinguished |
| C81 | the four `Diff` and `DiffCreateTable`; `ColumnsAnswered`, `OptionsAnswered` and `PolicyAnswered` in `Spec/Answered.lean` | proved; the counterpart of C79. The new schema's tables, and the new table's columns, must have different names, because the code takes the first of a name. The texts of the two tables must differ, because equal texts end the comparison at once; that equal texts have no differences is part of C04 and C59. Constraints are C41 |
| C40 | `RemoveCommentsAndEmptyLines` + lexer | per line; partial: `--` never inside a literal and literals do not span lines |

## Testing the theorems against wrong programs

`seeded/LOG.jsonl` has one line for each attempt.  `broken_lemmas` are the declarations that did not compile with the edited definition.
`theorems_failed` are the theorems of the claims named in `claim` that are among these or rest on one of them.  For most attempts that is what was
checked: a proof that breaks is evidence that the theorem constrains the edited part, not a proof that its statement became false.  The attempt was
stopped as soon as every named claim had such a theorem, so the lists are not complete.

## Bugs and disagreements found while reading

1. Unterminated quote: `readQuotedLiteral` slices one past the end of the input and panics (all dialects).
2. `DEFAULT <type keyword>` dereferences a nil expression (postgres, cockroachdb) and panics.
3. Column constraint loop: after `CHECK (...)` or `REFERENCES t(c)` one extra token is skipped, so
   `CHECK (a > 0) UNIQUE` silently loses UNIQUE, and a CHECK/REFERENCES on the last column is a parse error.
4. PostgreSQL table-level `CHECK` cannot be parsed although ddlctl itself prints it (every column CHECK is printed at table level).
5. PostgreSQL table-level `FOREIGN KEY ... ON DELETE CASCADE` cannot be parsed although ddlctl prints it.
6. `CREATE INDEX ... (cols) junk` is accepted: one token after the column list is skipped.
7. `VARCHAR(n)` and `CHARACTER VARYING(n)` are different types for the PostgreSQL diff.
8. Diff order: indexes of dropped tables are dropped again after the table; new indexes are created before the columns they
   need are added; a column is dropped before a changed constraint that used it.
9. The diff ignores `USING` of indexes.
10. MySQL: `MODIFY` never carries `CHARACTER SET`, so a character-set change never converges; foreign key actions are neither
    printed nor compared; dropped options are ignored; `ENUM('a','b')` and `ENUM('a,b')` are equal; `DEFAULT 'NULL'` and
    `DEFAULT NULL` are equal.
11. `apply`: after a failure all later statements are still sent, and a retry re-sends statements that already succeeded.
    The postgres dialect takes this path too because CockroachDB's driver name is "postgres".
12. Comment removal before execution cuts string literals that contain `--`; splitting at `;\n` cuts literals that contain it.
13. `DEFAULT 1 NULL` is parsed as the default expression `1 NULL`.
14. Spanner: an unnamed table-level CHECK has a nil name and crashes on the second constraint or in Diff.
15. Bytes >= 0x80 outside quotes are re-encoded in ILLEGAL tokens (`string(byte)`), so identifiers in other scripts are garbled.
16. CockroachDB/Spanner: an unnamed table-level foreign key gets a name like `b_a ASC_fkey` (MySQL: `b_a DESC_fkey`, with DESC only).
17. CockroachDB: `CREATE INDEX ... (cols) USING HASH;` never parses although it is printed that way.
18. CockroachDB: the diff ignores changes of `AS (...)` expressions and of `NOT VISIBLE`.
19. CockroachDB/MySQL: replacing a constraint chooses DROP INDEX or DROP CONSTRAINT by the kind of the new constraint.
20. MySQL: `DROP INDEX name;` is printed without `ON table`.
21. MySQL: MEDIUMINT is refused.
22. MySQL: BOOLEAN prints as TINYINT(1) but compares as BOOLEAN(1), so the diff never converges.
23. MySQL: the printed order `DEFAULT x AUTO_INCREMENT` (and COLLATE after DEFAULT) cannot be parsed back.
24. MySQL: column-level foreign key, a second ON action overwrites the first.
25. Spanner: changed options give DROP TABLE + CREATE TABLE, unchanged indexes of the table are not recreated.
26. Spanner: OPTIONS after DEFAULT cannot be parsed although printed so; BYTES, DATE, ARRAY are refused.
27. Spanner: a primary key (`a , b`) and (a, b) compare as equal (C30).
28. Quoted `"a"."b"` names are refused; quoted "a.b" is treated as schema a, table b; `DiffCreateTable(nil, nil)` panics.
29. `apply` reads the migration with a line scanner that gives up at a line of 64 KiB; the rest of the DDL is silently dropped.
30. `apply` loses the errors of closing the database; it uses no transaction.
31. `generate` empties the destination file before the dialect and the sources are checked; `generate` and `show` panic on
    missing arguments.
32. `show` asks the database library for a driver of the dialect's name first, so an unknown or empty dialect gives that library's
    error rather than ErrNotSupported or ErrDialectIsEmpty.
33. A struct field without a tag (nil dereference) or an embedded field (index out of range) makes `generate` panic.
34. `/* */` comments over several lines in Go source become SQL lines of the generated DDL.
35. Struct tags written as interpreted strings (`"..."`) are ignored; of `A, B int` only `A` becomes a column.
36. The words `equal`, `greater`, `less` (and the names of the other symbols) are lexed as the symbols, so they cannot be names.
37. The letter case of keywords stored as written makes a difference: type names in defaults, actions, `CURRENT_TIMESTAMP`; in
    Spanner `PRIMARY KEY (a desc)` against `PRIMARY KEY (a DESC)` drops and recreates the table.
38. Quoting makes a difference for the words behind USING (CockroachDB) and for column comments (MySQL).
39. CockroachDB: `INT` and `INTEGER` are read as `INT4` (`lexar.go`, `lookupIdent`), but in CockroachDB they are aliases of `INT8`:
    changing `INT4` to `INT` yields no statement, and `INT` to `BIGINT` yields one (`C36_cockroachdb_fails`).
40. `DECIMAL` and `NUMERIC` are different types to the code in all three dialects, `REAL` and `FLOAT4` in CockroachDB, `DOUBLE` and
    `DOUBLE PRECISION`, `BOOLEAN` and `TINYINT(1)` in MySQL (`C36_…_fails`).
41. The texts for comparison drop the quotes of identifiers: `CHECK ("x > 0 AND y" > 0)` against `CHECK (x > 0 AND y > 0)`,
    `PRIMARY KEY ("a, b")` against `PRIMARY KEY (a, b)` and `"Id"` against `Id` are no difference (`C04_…_fails`).
42. The token skipped behind `CHECK (...)` (see 3) is the comma when another item follows: a column is still read, but
    `c INT CHECK (c > 0), PRIMARY KEY (a)` is a parse error.
43. PostgreSQL: going from `a INT NOT NULL, PRIMARY KEY (a)` to `a INT, PRIMARY KEY (a)` emits `DROP NOT NULL`, which PostgreSQL refuses
    for a column of a primary key, although nothing has to change (C03).
44. PostgreSQL: dropping a primary key leaves its columns `NOT NULL`; the diff does not emit `DROP NOT NULL` (C03).
45. PostgreSQL: tables are dropped in the order of their creation, so dropping two tables linked by a foreign key always fails; so does
    dropping a column before the foreign key that refers to it, or before a changed constraint or index on it (C03).
46. PostgreSQL: a changed index that moves to another table is created before the new columns of that table (C03).
47. `generate`: the word in front of `table:`, `constraint:`, `option:`, `index:` is never compared with the configured tag, so a struct
    annotated for two dialects gets the name, constraints, options and indexes of both (C42).
48. `generate`: in `/* pgddl: table: users */` the closing `*/` becomes part of the statement (C42).
49. `generate`: an index annotated in the first tagged line of its comment is created before its table (C43).
50. `generate`: a second annotated comment group at the same declaration creates the table again, under the name of the struct; of a
    `type ( ... )` declaration with one annotation only the last struct becomes a table, under the name of the last type (C45).
51. `generate`: the configured tag is put into a regular expression without escaping, which is compiled once per process (`sync.Once`).
52. CockroachDB and MySQL: whether a changed constraint is dropped by `DROP INDEX` or `DROP CONSTRAINT` depends on the new definition only,
    so an index replaced by a constraint of the same name (or the reverse) is dropped by the wrong statement (`C46_…_kind_fails`).
53. CockroachDB: another `AS (...)` expression, or `NOT VISIBLE` added or removed, is no difference (`C46_cockroachdb_computed_fails`).
54. All dialects drop columns before the changed constraints and indexes that mention them (`C46_…_dropped_fails`, `C46_spanner_fails`).
55. Spanner: `ALTER COLUMN ... DROP OPTIONS` is emitted, which is no Spanner statement.
56. `DiffCreateTable` renames `s.t` to `s.t` when the new name is `t` without schema (`C46_schema_fails`; `Diff` never pairs such tables).
57. Spanner `show`: the columns of all secondary indexes of a table are shown for each of them, as often as the table has indexes
    (`queryShowIndexes` joins by the table alone, `C47_spanner_indexes_fails`).
58. Spanner `show`: `DESC`, `INTERLEAVE IN PARENT`, `CHECK`, `FOREIGN KEY`, `NULL_FILTERED` and generated columns are not shown
    (`C47_spanner_descending_fails`, `…_parent_fails`, `…_checks_fails`), nor is `PRIMARY KEY ()` (`C47_spanner_nokey_fails`).
59. Spanner `show`: an index with `STORING` makes the whole command fail (NULL is read into an `int`, `C47_spanner_stored_fails`).
60. Spanner `show`: names are not quoted (`C47_spanner_keyword_fails`); `DEFAULT (...) OPTIONS (...)` is shown but not understood by
    the parser (`C47_spanner_default_fails`), nor are `BYTES`, `DATE`, `ARRAY` (`C47_spanner_type_fails`).
61. Spanner `show`: columns, options and indexes are sought by the table name in all schemas, so a table named like a view of
    `INFORMATION_SCHEMA` gets the columns of both (`C47_spanner_schema_fails`); the option `schema` has no effect; views are shown
    as tables.
62. CockroachDB: an unnamed table-level `FOREIGN KEY (a)` gets the name `t_a ASC_fkey`, which is printed without quotes
    (`C48_foreign_key_name_fails`).
63. CockroachDB: a column with `AS` before `DEFAULT` is accepted and printed in the order that is rejected
    (`C48_default_and_as_fails`); `AS` without a value is accepted and lost (`C48_empty_as_fails`).
64. CockroachDB: `USING hash` skips the token behind it. So `CREATE INDEX i ON t (a) USING hash;` and a table whose last item has
    `USING` and no `;` behind the bracket are rejected, while `USING hash, (a)` and `(a) USING hash)` are accepted
    (`C48_index_method_before_fails`, `C48_index_method_behind_fails`).
65. CockroachDB: `1 :: :: INT8` is accepted and printed as `1::::INT8` (`C48_casts_fails`); each new constraint sorts the primary
    keys again, so that a second primary key changes places with the first on every run (`C48_two_primary_keys_fails`).
66. CockroachDB: the order of constraints is left to `sort.Slice` with a comparison that is no order. For 12 constraints and fewer
    the result is as modelled; for longer lists it is an artefact of Go's sorting algorithm unless the primary key is already first.
67. MySQL: an action of a foreign key (`ON DELETE CASCADE`) is accepted and never printed, neither in `CREATE TABLE` nor in the
    comparison, so it never reaches the database (`C49_action_fails`).
68. MySQL: `AUTO_INCREMENT` before `DEFAULT` is accepted and printed behind it, where it is rejected
    (`C49_default_auto_increment_fails`).
69. MySQL: a primary key replaces an index of the name `PRIMARY KEY` (`C49_primary_key_order_fails`).
70. MySQL: `BOOLEAN` is printed as `TINYINT(1)` but its type stays `BOOLEAN`, so that a printed schema and its source are not the
    same (`C49_boolean_fails`).
71. Spanner: `DEFAULT (1) NOT NULL OPTIONS (...)` is accepted and printed as `NOT NULL DEFAULT (1) OPTIONS (...)`, which is rejected
    (`C50_default_options_fails`); every unnamed `FOREIGN KEY` is printed with a name that is not accepted
    (`C50_foreign_key_name_fails`).
72. Spanner: a table that has an index is dropped before the index, which Spanner refuses (`C51_dropped_table_index_fails`); the same
    for tables that other tables refer to or are interleaved in, which are dropped in the order of the file, parents first
    (`C51_dropped_parent_fails`, `C51_dropped_table_referred_fails`).
73. Spanner: changing the primary key or the interleaving of a table drops it and creates it again; its indexes and the tables
    interleaved in it are not taken into account (`C51_recreated_table_index_fails`, `C51_recreated_parent_fails`).
74. Spanner: columns are dropped before the constraints and indexes on them, and indexes are created before new columns
    (`C51_dropped_column_constraint_fails`, `C51_dropped_column_index_fails`, `C51_new_index_column_fails`, `C51_moved_index_fails`).
75. CockroachDB: `DROP INDEX` is emitted for the indexes of a table after the `DROP TABLE` of that table, with which they are gone
    already, so that the migration stops (`C52_dropped_table_index_fails`); tables are dropped in the order of the file, those that
    others refer to first (`C52_dropped_table_referred_fails`).
76. CockroachDB: `DROP INDEX` is emitted without the name of the table. If two tables have indexes of the same name, which is
    allowed, CockroachDB refuses the statement as ambiguous (`C52_ambiguous_index_fails`).
77. CockroachDB: an index that moves from the table definition to a `CREATE INDEX` is created before it is dropped
    (`C52_index_rewritten_fails`). The database prints its own schema with the indexes in the tables (`SHOW CREATE TABLE`), so this
    happens to every schema file that uses `CREATE INDEX`, on its second application. With `CREATE INDEX IF NOT EXISTS` it is worse:
    the statement does nothing, the `DROP INDEX` that follows works, and the index is gone (`C52_index_lost_fails`).
78. CockroachDB: columns are dropped before the indexes on them, and indexes are created before new columns
    (`C52_dropped_column_index_fails`, `C52_new_index_column_fails`, `C52_moved_index_fails`).
79. MySQL: an index can never be dropped or changed, because `DROP INDEX` is emitted without its table, whether the index is written in
    the table or as `CREATE INDEX` (`C53_dropped_index_fails`, `C53_changed_index_fails`, `C53_dropped_key_fails`,
    `C53_changed_key_fails`).
80. MySQL: a new index in a table that is written with its schema is emitted as `CREATE INDEX schema.name`, a syntax error
    (`C53_schema_key_fails`).
81. MySQL: indexes are looked up by name in the whole schema, although MySQL allows the same name in several tables. Two such indexes
    are compared with each other, and the second is dropped although nothing changed (`C53_same_index_name_fails`).
82. MySQL: an index that moves from the table definition to a `CREATE INDEX` is created while the old one is still there
    (`C53_index_rewritten_fails`). MySQL prints its own schema with the indexes in the tables, so this happens to every schema
    file that uses `CREATE INDEX`, on its second application. Tables are dropped in the order of the file and indexes are created
    before new columns, as in the other dialects (`C53_dropped_table_referred_fails`, `C53_new_index_column_fails`).
83. CockroachDB: `apply` can report success although an index of the new schema is gone afterwards (`C54_index_lost_fails`, the
    consequence of `C52_index_lost_fails`).
84. CockroachDB and PostgreSQL: `apply` repeats all statements if one of them failed, also those that succeeded. A new column with an
    index needs two attempts, because the index is sent first; at the second attempt the column is refused because it is there, so
    that all attempts fail and `apply` reports an error although the database has the new schema (`C54_retry_fails`, for CockroachDB).
    For MySQL the error "Duplicate column name" is tolerated and the second attempt succeeds (`C54_mysql_retry`); there is no such
    list for the other dialects.
85. All dialects: a byte 0 in the text ends the reading. The lexer represents the end of the text by that byte, so that everything
    behind it is ignored without an error; `diff` then drops the tables that are defined there (`C55_postgres_nul_fails` and its
    three siblings).
86. All dialects: within parentheses a semicolon does not end the statement. If a closing parenthesis is forgotten in an expression,
    the statements behind it are taken as part of the expression up to the next unbalanced closing parenthesis, instead of an error
    at the semicolon (`C55_postgres_semicolon_fails` and its three siblings).
87. `generate` writes what `diff` and `apply` of the same dialect cannot read: PostgreSQL and CockroachDB: `CHECK` constraints of a
    table, table options, a `REFERENCES` or `CHECK` of the last column; CockroachDB and MySQL: a constraint `UNIQUE (a)`; Spanner: a
    foreign key with an action (`C56_postgres_fails` and its three siblings). All of them are valid in the database.
88. `generate` appends the comma to the text of an annotation, so that an annotation that ends with a comment hides the comma
    (`C56_comment_fails`).
89. MySQL: `show` writes the names of tables between backquotes without doubling backquotes inside. One table with a backquote in its
    name makes `show`, and with it `diff` and `apply`, fail for the whole database (`C57_mysql_backquote_fails`). The option for the
    database puts its name in backquotes too, where a string is needed, so that it is taken as the name of a column.
90. MySQL prints `unsigned`, `float`, `blob`, `binary`, prefix keys, doubled quotes in comments and `ON DELETE SET NULL`, which the parser
    refuses (`C57_mysql_unread_fails`). A database with one such table cannot be compared or migrated.
91. CockroachDB prints foreign keys as `ALTER TABLE … ADD CONSTRAINT`, which the parser refuses. So no database with a foreign key can be
    compared or migrated (`C57_cockroachdb_foreign_key_fails`). The same holds for `BYTES`, `DATE`, arrays, `CHECK` constraints and
    `STORING`, and for tables whose names are keywords (`C57_cockroachdb_unread_fails`).
92. CockroachDB prints `public.users` for a table created as `users`, and `diff` takes these for two tables. The migration from the database to
    the very file it was created with drops the table with its data and creates it anew (`C57_cockroachdb_dropped_fails`).
93. PostgreSQL: the query for constraints never prints `REFERENCES`, so a foreign key is shown as `CONSTRAINT n FOREIGN KEY (a) ON UPDATE …`. The
    parser refuses it, and so would the server. No database with a foreign key can be compared or migrated
    (`C58_postgres_foreign_key_fails`).
94. PostgreSQL: the rules of foreign keys are joined by the name of the constraint alone, without the schema. A key whose name some foreign key
    of another schema has is shown with ` ON UPDATE … ON DELETE …`, which cannot be read (`C58_postgres_other_schema_fails`).
95. PostgreSQL: check constraints and the precision of numbers are left out, views are shown as tables, and an index with the name of a check
    constraint is hidden. What is read is then another schema, without an error (`C58_postgres_lost_fails`). A migration would add the
    constraint again, or drop the view with `DROP TABLE`.
96. PostgreSQL: `information_schema` names for most types (`timestamp without time zone`, `date`, `ARRAY`, `USER-DEFINED`, …) are refused by
    the parser (`C58_postgres_types_fails`), as are descending and partial indexes (`C58_postgres_index_fails`). A table without columns is not
    shown (`C58_postgres_empty_fails`).
97. PostgreSQL: names are shown without the quotes they need. Keywords and names with blanks cannot be read; `"User"` is read as `User`, which
    the server takes for `user` (`C58_postgres_quotes_fails`).
98. PostgreSQL: tables are shown as `public.users`, and `diff` takes that for another table than `users`. The migration from the database to the
    very file it was created with drops the table and creates it anew (`C58_postgres_dropped_fails`).
99. MySQL and Spanner: another index method behind `USING` is no difference (`C59_mysql_method_fails`, `C59_spanner_method_fails`), as in
    PostgreSQL (see `C04_method_fails`); CockroachDB does compare it.
100. CockroachDB, MySQL, Spanner: quoted identifiers with separators are confused with several columns (`C59_…_quoted_fails`); in Spanner
    also in the primary key (`C59_spanner_primary_key_fails`), although another primary key means dropping the table.
101. `generate` opens the destination with `O_TRUNC` before it reads the sources (`pkg/ddlctl/generate/ddlctl_generate.go:39`): if anything is wrong
    with the source, the language or the dialect, what was generated before is lost and the file is empty (`C60_failure_fails`). An empty file is a
    schema without tables for `diff` and `apply`.
102. `generate` reads a single Go file, but `diff` (and `apply`) read it as SQL, since `resolve` asks for a file first
    (`pkg/ddlctl/diff/ddlctl_diff.go:53`): only directories of Go files can be compared (`C60_diff_file_fails`).
103. A directory without any annotation, say because the tag is misspelled, is generated without an error as a file with the note only
    (`C60_nothing`), whereas a single file without annotation is an error. `diff` of a database with such a directory drops all tables.
104. PostgreSQL: an attribute behind a constraint of the column is an error: `a INT UNIQUE NOT NULL`, `id INT PRIMARY KEY DEFAULT 1`
    (`C62_postgres_order_fails`); only the other order is read. SQL allows both.
105. PostgreSQL: a table whose last column has a `CHECK` or a `REFERENCES` without `ON` cannot be read, nor can one with a constraint of the table
    behind such a column (`C62_postgres_skips_fails`), a consequence of items 3, 42 and 64.
106. MySQL: behind a column's `REFERENCES` only the last of two `ON` actions is kept (`C62_mysql_skips_fails`, `pkg/ddl/mysql/parser.go:558-569`, the
    second assignment overwrites the first); at the level of the table both are kept.
107. MySQL: a table whose only or last column has a `CHECK` or a `REFERENCES`, with or without `ON`, cannot be read, nor one with a comment behind
    either (`C62_mysql_skips_fails`).
108. MySQL: behind `DEFAULT` only `NOT NULL` and `ON UPDATE` are known: `DEFAULT 1 AUTO_INCREMENT` and `DEFAULT 'x' COLLATE y` are errors, as are
    `UNIQUE NOT NULL` and `COMMENT 'x' NOT NULL` (`C62_mysql_order_fails`).
109. CockroachDB: of the constraints of a table, `CHECK`, `UNIQUE (…)` and `FOREIGN KEY … ON DELETE …` are errors, although CockroachDB and the
    PostgreSQL parser it was copied from know the latter two (`C62_cockroachdb_constraints_fails`). The branch for `ON` exists but leaves the last
    word of the action to a loop that refuses it.
110. CockroachDB: an index with a method cannot be created: `CREATE INDEX i ON t USING gin (a)` and `CREATE INDEX i ON t (a) USING gin` are errors,
    as is `INDEX i (a) USING hash` at the end of the table (`C62_cockroachdb_skips_fails`), since a token behind the method is skipped.
111. Spanner: `OPTIONS` directly behind `DEFAULT (…)` is an error (`C62_spanner_order_fails`), so `t TIMESTAMP NOT NULL DEFAULT
    (CURRENT_TIMESTAMP()) OPTIONS (allow_commit_timestamp = true)`, the order that Spanner prints, cannot be read.
112. Spanner: `FOREIGN KEY … ON DELETE CASCADE` is an error (`C62_spanner_constraints_fails`).
113. PostgreSQL, CockroachDB, MySQL: a column of the primary key is `NOT NULL` in the database whether written so or not, and is shown with
    `NOT NULL`. If the desired schema does not write it, `diff` asks to drop `NOT NULL` for ever (`C63_postgres_key_fails`,
    `C63_cockroachdb_key_fails`, `C63_mysql_key_fails`). PostgreSQL refuses the statement, so that `apply` fails on every run although the
    database has the desired schema.
114. CockroachDB, MySQL: the database shows indexes inside the table. A desired schema with `CREATE INDEX` therefore always differs from what
    is shown; the migration begins with a `CREATE INDEX` that is refused because the index exists (`C63_cockroachdb_index_fails`,
    `C63_mysql_index_fails`).
115. PostgreSQL, CockroachDB: tables are shown as `public.users`, and names are compared with their schema. If the desired schema says
    `CREATE TABLE users`, every run of `apply` drops all tables and creates them anew, empty (`C64_postgres_unqualified_fails`,
    `C64_cockroachdb_unqualified_fails`, for all databases and all such schemas).
116. PostgreSQL: check constraints are not shown (item on C58), so `apply` adds them again on every run, which the server refuses
    (`C64_postgres_check_fails`).
117. CockroachDB: for a table without a primary key the hidden column `rowid` and its key are shown, and `apply` drops both on every run
    (`C64_cockroachdb_rowid_fails`).
118. MySQL: a column that may be null is shown with `DEFAULT NULL`; `apply` drops this default (`C64_mysql_default_fails`), after which MySQL in
    strict mode refuses rows without a value for the column.
119. Spanner: the direction of primary key columns and `INTERLEAVE IN PARENT` are not shown (C47), and differ from the schema, so every run of
    `apply` drops such tables with their rows and creates them anew (`C64_spanner_descending_fails`, `C64_spanner_parent_fails`). With two
    indexes both are built anew, and check constraints are added again (`C64_spanner_indexes_fails`, `C64_spanner_checks_fails`).
120. All dialects: the token passed over behind `CHECK (…)` or `REFERENCES t (c)` of a column (item 3) may be a word that matters. `a TEXT CHECK
    (a <> '') UNIQUE, c TEXT` is accepted and the column is not unique; for Spanner `DEFAULT` can be lost (`C65_…_skipped_fails`). No error is
    reported, and the migration lacks the constraint.
121. All dialects: `CREATE UNIQUE` may be followed by anything in place of `INDEX` (`parseCreateIndexStmt` moves to the next token without a look),
    commas between columns may be missing or repeated, and brackets between statements as well as a token behind each statement are passed
    over (`C65_statements_fails`).
122. MySQL: two actions behind `REFERENCES` of a column are both read, but only the second one is kept (`OfColumn.references` in
    `Spec/SourceMy.lean`); in a constraint of the table both are kept.
123. `ddlctl show` without a data source and `ddlctl generate` with fewer than two arguments crash (`args[0]`, `args[1]` out of range, exit
    status 2), where `diff` and `apply` report `ErrTwoArgumentsRequired` (status 1); surplus arguments of `show` and `generate` are ignored
    (`C67_arguments_fails`).
124. Spanner: the crash of item 14 in terms of pairs: two schemas crash `Diff` exactly if they have a table in common with the same options
    and different texts, one of which has a CHECK without a name (`C66_spanner_exact`).
125. `ddlctl diff` has the same exit status whether there is a difference or not, so scripts have to look at the output.
126. All dialects: whether a migration works depends on the way. A new column with a `CREATE INDEX` on it cannot be migrated to in one run, but
    can in two (`C68_…_path_fails`); a table added with an index (MySQL: with a table referring to it) cannot be removed again by the
    reverse diff (`C68_…_undo_fails`).
127. All dialects: a table that is defined twice in both schemas, unchanged, has no difference alone, because the texts are the same. As soon
    as anything else changes, its second definition is compared with its first, and statements for it appear (`C69_…_fails`).
128. All dialects: if the new schema defines a table twice, only its first definition counts, and it depends on the order of the two whether a
    difference is reported (`C71_…_fails`). Nothing warns about the second definition.
129. All dialects: `apply` with a directory of Go sources stops at the text it has itself generated, for annotations that are complete SQL: an
    unnamed `CHECK` (PostgreSQL, CockroachDB), `UNIQUE (a)` (MySQL), a foreign key with an action (Spanner). The error names a token of a text
    the user never sees (`C72_refused_fails`).
130. A difference may be seen from one side only. All dialects: a second definition of a table is no difference when it is new and one when it
    is gone (`C73_twice_fails`); a `DEFAULT` without a value likewise (`C73_default_fails`). CockroachDB: a hidden virtual column is a
    difference when it is new and none when it is gone (`C73_hidden_fails`). MySQL: so is a table option (`C73_option_fails`).
131. MySQL: if `DiffCreateTable` moves a table to another schema and one of its indexes goes or changes, the `DROP INDEX` behind the renaming
    names the index in the old schema, where the table no longer is (`C75_mysql_fails`). `ddlctl` itself does not compare such tables.
132. The option `DiffCreateTableUseAlterTableAddConstraintNotValid` exists for MySQL and Spanner too, and there gives `ADD … NOT VALID`
    (C74); neither database has this clause. `ddlctl` itself does not use the option.
133. In CockroachDB and MySQL two tables may each have an index `i`. If both indexes go, the migration is `DROP INDEX i` twice, without the
    tables (`C76_cockroachdb_fails`, `C76_mysql_fails`): the text does not say which index is meant (CockroachDB reports an ambiguous name,
    MySQL has no `DROP INDEX` without `ON`).
134. If a constraint of a table becomes an index of the same name, CockroachDB and MySQL get `DROP INDEX` for the old constraint, because only
    the new definition is looked at. An index of this name in another table, dropped in the same migration, is then dropped twice
    (`C76_cockroachdb_kind_fails`, `C76_mysql_kind_fails`).
135. If an index declared inside a table moves to a table that comes earlier, the migration for CockroachDB and MySQL is
    `CREATE UNIQUE INDEX i ON t (a)` and then `DROP INDEX i` (`C77_cockroachdb_fails`, `C77_mysql_fails`): the name does not say which of the two
    indexes is dropped.
136. The `DROP INDEX i` of item 134, written for a foreign key `i` that becomes an index, also takes back an index `i` that the same migration has
    just created in an earlier table (`C77_cockroachdb_kind_fails`, `C77_mysql_kind_fails`); both databases allow equal index names in two tables.
137. If an index declared inside a table becomes a foreign key of the same name, CockroachDB and MySQL get `ALTER TABLE t DROP CONSTRAINT i`
    for the index (`C79_cockroachdb_constraint_fails`, `C79_mysql_constraint_fails`): as in item 134 only the new definition is looked at.
