{"id": "C01", "title": "A schema never differs from itself", "statement": "Diffing a DDL against itself reports ErrNoDifference and no statements, in each of the four dialects.", "quantifier": "for every DDL value (any number of tables, columns, constraints, indexes), every dialect", "why_tests_cant": "Tests diff a handful of fixed schemas; the claim is about every DDL value, including ones with duplicate names, quoted names and empty tables.", "anchors": ["pkg/ddl/postgres/diff.go:Diff", "pkg/ddl/cockroachdb/diff.go:Diff", "pkg/ddl/mysql/diff.go:Diff", "pkg/ddl/spanner/diff.go:Diff"]}
{"id": "C02", "title": "Diff from nothing creates everything, diff to nothing drops everything", "statement": "Diff(nil, after) is exactly after's statements in order; Diff(before, nil) is exactly one DROP per CREATE TABLE/CREATE INDEX of before, in order, with the same object name; both nil is ErrNoDifference.", "quantifier": "for every before and after DDL made of CREATE TABLE and CREATE INDEX statements", "why_tests_cant": "Requires the statement for lists of every length and for every object name.", "anchors": ["pkg/ddl/postgres/diff.go:Diff"]}
{"id": "C03", "title": "Applying the diff turns the old schema into the new one (PostgreSQL)", "statement": "Executing the statements of Diff(before, after), in order, on a database holding the schema of before, succeeds and leaves a database holding the schema of after (same tables, columns with type/default/NOT NULL, constraints and indexes).", "quantifier": "for every pair of schemas with distinct object names whose changes do not hit the recorded ordering hazards", "why_tests_cant": "The claim ranges over all pairs of schemas and over execution states; fixtures only compare emitted text with expected text and never execute it.", "anchors": ["pkg/ddl/postgres/diff.go:Diff", "pkg/ddl/postgres/diff_create_table.go:DiffCreateTable", "pkg/ddl/postgres/diff_create_table.go:diffCreateTableColumn"]}
{"id": "C04", "title": "ErrNoDifference is only reported for equivalent schemas (PostgreSQL)", "statement": "If Diff(before, after) reports ErrNoDifference then both describe the same tables, columns (type, default, NOT NULL), constraints and index definitions.", "quantifier": "for every pair of schemas with distinct object names", "why_tests_cant": "A missed difference is an absence of output; finding one by tests needs the right pair of schemas out of infinitely many.", "anchors": ["pkg/ddl/postgres/diff.go:Diff", "pkg/ddl/postgres/diff_create_table.go:DiffCreateTable"]}
{"id": "C05", "title": "Migration converges: equivalent schemas give no difference (PostgreSQL)", "statement": "If two schemas describe the same tables, columns, constraints and indexes (in whatever order and quoting) then Diff reports ErrNoDifference; hence after a successful apply a second diff is empty.", "quantifier": "for every pair of equivalent schemas with distinct object names", "why_tests_cant": "Needs all permutations, quotings and spellings of a schema.", "anchors": ["pkg/ddl/postgres/diff.go:Diff", "pkg/ddl/postgres/diff_create_table.go:DiffCreateTable"]}
{"id": "C06", "title": "A table present on both sides is never dropped", "statement": "Diff never emits DROP TABLE for a table whose name is defined in after (postgres, cockroachdb, mysql). In spanner it does so only when the table options (primary key, interleave) changed, and then a CREATE TABLE of the same table follows immediately.", "quantifier": "for every pair of non-nil DDLs", "why_tests_cant": "Data loss on one schema pair in a million would not show up in fixtures.", "anchors": ["pkg/ddl/postgres/diff.go:Diff", "pkg/ddl/mysql/diff.go:Diff", "pkg/ddl/cockroachdb/diff.go:Diff", "pkg/ddl/spanner/diff_create_table.go:DiffCreateTable"]}
{"id": "C07", "title": "A column present on both sides is never dropped", "statement": "Within the alteration of a table, DROP COLUMN c is emitted iff c exists before and not after, and ADD COLUMN c iff c exists after and not before; a kept column is only altered in place.", "quantifier": "for every pair of table definitions, every dialect", "why_tests_cant": "Universally quantified over all tables and columns.", "anchors": ["pkg/ddl/postgres/diff_create_table.go:diffCreateTableColumn", "pkg/ddl/mysql/diff_create_table.go:diffCreateTableColumn", "pkg/ddl/cockroachdb/diff_create_table.go:diffCreateTableColumn", "pkg/ddl/spanner/diff_create_table.go:diffCreateTableColumn"]}
{"id": "C08", "title": "Diff touches only objects that differ", "statement": "Every statement of Diff(before, after) names a table or index that is defined in before or after, and a table with the same definition on both sides is not mentioned by any ALTER/DROP/CREATE TABLE statement.", "quantifier": "for every pair of DDLs", "why_tests_cant": "Quantifies over all schemas; tests check selected outputs.", "anchors": ["pkg/ddl/postgres/diff.go:Diff"]}
{"id": "C09", "title": "Statement order in a diff", "statement": "All drops of removed objects come first, then all creations of new objects, then alterations; inside one table removed constraints are dropped before any column is dropped, and new constraints are added after all columns were added.", "quantifier": "for every pair of DDLs / table definitions", "why_tests_cant": "Order must hold for any mix of changes.", "anchors": ["pkg/ddl/postgres/diff.go:Diff", "pkg/ddl/postgres/diff_create_table.go:DiffCreateTable"]}
{"id": "C10", "title": "Parsing always terminates", "statement": "Lexing and parsing any input terminates: the parser never loops on any byte string, however malformed, in any dialect.", "quantifier": "for every input byte string, every dialect", "why_tests_cant": "Termination over all inputs cannot be tested.", "anchors": ["pkg/ddl/postgres/parser.go:Parse", "pkg/ddl/cockroachdb/parser.go:Parse", "pkg/ddl/mysql/parser.go:Parse", "pkg/ddl/spanner/parser.go:Parse"]}
{"id": "C11", "title": "Malformed SQL is reported as an error, never as a crash", "statement": "Parse returns a DDL or an error on every input; it never panics.", "quantifier": "for every input byte string", "why_tests_cant": "Crashing inputs are a thin subset; fuzzing cannot show that none remain.", "anchors": ["pkg/ddl/postgres/parser.go:parseColumnDefault", "pkg/ddl/postgres/lexar.go:readQuotedLiteral", "pkg/ddl/spanner/ddl_table.go:Append"]}
{"id": "C12", "title": "Comments and whitespace do not change the meaning", "statement": "Inserting or removing whitespace and `-- ...` line comments between tokens does not change the parse result.", "quantifier": "for every source text and every whitespace/comment run between tokens", "why_tests_cant": "All texts and all places.", "anchors": ["pkg/ddl/postgres/lexar.go:NextToken", "pkg/ddl/postgres/lexar.go:skipComment"]}
{"id": "C13", "title": "Keywords are case-insensitive", "statement": "Changing the letter case of unquoted keywords changes neither success of parsing nor the diff-relevant content.", "quantifier": "for every source text and every recasing of its keywords", "why_tests_cant": "2^n recasings of each text.", "anchors": ["pkg/ddl/postgres/lexar.go:lookupIdent"]}
{"id": "C14", "title": "Printed DDL parses back to the same DDL (PostgreSQL)", "statement": "Printing a parsed DDL and parsing the text again gives the same DDL, so the output of one ddlctl run can be the input of the next.", "quantifier": "for every DDL obtained from parsing", "why_tests_cant": "Round trip over an infinite language.", "anchors": ["pkg/ddl/postgres/parser.go:Parse", "pkg/ddl/postgres/ddl_table_create.go:String", "pkg/ddl/postgres/ddl_index_create.go:String"]}
{"id": "C15", "title": "Constraint names are unique within a parsed table", "statement": "In every table returned by Parse no two constraints share a name; the last definition of a name wins at the position of the first.", "quantifier": "for every input text that parses", "why_tests_cant": "All inputs.", "anchors": ["pkg/ddl/postgres/ddl_table.go:Append", "pkg/ddl/mysql/ddl_table.go:Append"]}
{"id": "C16", "title": "Quoting of identifiers does not cause a diff", "statement": "Two schemas differing only in whether identifiers are written quoted or unquoted have no difference.", "quantifier": "for every schema and every choice of quoted identifiers", "why_tests_cant": "2^n quotings of each schema.", "anchors": ["pkg/ddl/postgres/parser.go:NewRawIdent", "pkg/ddl/postgres/ddl.go:StringForDiff"]}
{"id": "C17", "title": "Nothing is executed without approval", "statement": "ddlctl apply sends no query to the database unless auto-approve is set or the user typed exactly `yes`, and none if there is no difference, the arguments are wrong or diff fails.", "quantifier": "for every configuration, argument list, diff outcome and user input", "why_tests_cant": "Negative claim over all inputs of an interactive command that touches a database.", "anchors": ["pkg/ddlctl/apply/ddlctl_apply.go:Command", "pkg/ddlctl/apply/ddlctl_apply.go:prompt"]}
{"id": "C18", "title": "What is executed is what was shown", "statement": "The queries sent by apply are exactly the statements of the DDL text shown in the prompt, in the order shown, without the comment lines and with nothing added (for Spanner wrapped in START BATCH DDL / RUN BATCH).", "quantifier": "for every diff text", "why_tests_cant": "Depends on text splitting over arbitrary statement text, including string literals.", "anchors": ["pkg/ddlctl/apply/ddlctl_apply.go:splitExec", "pkg/internal/util/remove_comment.go:RemoveCommentsAndEmptyLines"]}
{"id": "C19", "title": "Success of apply means every statement succeeded", "statement": "If apply reports success then there is one complete pass over the statement list, the last one, in which each statement either succeeded or failed with an error classified as already-applied.", "quantifier": "for every database behaviour (any sequence of results)", "why_tests_cant": "The database is an adversary; tests script a few behaviours.", "anchors": ["pkg/ddlctl/apply/ddlctl_apply.go:splitExec", "pkg/ddlctl/apply/ddlctl_apply.go:Apply"]}
{"id": "C20", "title": "Apply gives up after a bounded number of queries", "statement": "If the text shown splits at `;\\n` into n pieces (one per statement and an empty last one), apply sends at most (n+1)*n queries whatever the database answers; with n statements that is at most (n+2)*n non-empty queries.", "quantifier": "for every statement list and every database behaviour", "why_tests_cant": "Unbounded set of behaviours.", "anchors": ["pkg/ddlctl/apply/ddlctl_apply.go:splitExec"]}
{"id": "C21", "title": "Apply stops at the first failing statement", "statement": "After a statement fails with an unrecognised error no later statement of the list is sent.", "quantifier": "for every statement list and database behaviour", "why_tests_cant": "Quantifies over all failure points.", "anchors": ["pkg/ddlctl/apply/ddlctl_apply.go:splitExec", "pkg/ddlctl/apply/ddlctl_apply.go:Apply"]}
{"id": "C22", "title": "A statement that succeeded is not executed again", "statement": "A statement already applied successfully is not re-sent by a retry.", "quantifier": "for every statement list and database behaviour", "why_tests_cant": "Needs failing databases at all positions.", "anchors": ["pkg/ddlctl/apply/ddlctl_apply.go:splitExec"]}
{"id": "C23", "title": "Unsupported dialects are refused", "statement": "With an empty or unknown dialect diff, generate and show return ErrDialectIsEmpty/ErrNotSupported and write nothing.", "quantifier": "for every dialect string outside the four supported ones", "why_tests_cant": "Infinitely many strings.", "anchors": ["pkg/ddlctl/diff/ddlctl_diff.go:Diff", "pkg/ddlctl/generate/ddlctl_generate.go:Fprint", "pkg/ddlctl/show/ddlctl_show.go:Show"]}
{"id": "C24", "title": "diff writes all or nothing", "statement": "The diff command writes the complete migration or, on any error or when nothing differs, not a single byte; no difference counts as success.", "quantifier": "for every pair of sources", "why_tests_cant": "All error paths of all inputs.", "anchors": ["pkg/ddlctl/diff/ddlctl_diff.go:Command", "pkg/ddlctl/diff/ddlctl_diff.go:Diff"]}
{"id": "C25", "title": "Comments attached to a migration never become SQL", "statement": "Whatever text a statement's comment contains (several lines, semicolons, SQL), the printed statement tokenises exactly like the statement without the comment.", "quantifier": "for every comment text and every statement", "why_tests_cant": "Injection through arbitrary text.", "anchors": ["pkg/ddl/postgres/ddl_table_alter.go:String", "pkg/ddl/postgres/ddl_table_create.go:String", "pkg/ddl/postgres/ddl_index_drop.go:String"]}
{"id": "C26", "title": "Generated CREATE TABLE lists are well separated", "statement": "The generated text of a table contains every column, the primary key and every constraint once and in order, separated by commas, with no comma before the closing parenthesis.", "quantifier": "for every generator table with any number of columns, key columns, constraints, options", "why_tests_cant": "Comma logic depends on emptiness of three lists; all combinations of lengths.", "anchors": ["pkg/internal/generator/dialect/postgres/create_table.go:fprintCreateTable", "pkg/internal/generator/dialect/mysql/create_table.go", "pkg/internal/generator/dialect/spanner/create_table.go"]}
{"id": "C27", "title": "Source comments copied into generated DDL stay comments", "statement": "A comment line copied from Go source into generated SQL contributes no SQL token.", "quantifier": "for every comment text without line break", "why_tests_cant": "Arbitrary text.", "anchors": ["pkg/internal/generator/dialect/postgres/postgres.go:fprintComment"]}
{"id": "C28", "title": "Struct fields map to columns as tagged", "statement": "A struct field yields a column iff its column tag is not `-` and its DDL tag is neither empty nor `-`; columns keep field order; the primary key lists exactly the columns tagged true/1 in field order; a table without columns is not emitted.", "quantifier": "for every list of struct fields and tags", "why_tests_cant": "All combinations of tags.", "anchors": ["pkg/internal/lang/go/parse.go:parseFile"]}
{"id": "C29", "title": "Configuration rollback restores the previous configuration", "statement": "A failed load leaves the configuration unchanged; rollback after a successful load restores exactly the configuration before that load; nested load/rollback pairs restore in LIFO order.", "quantifier": "for every sequence of loads and rollbacks", "why_tests_cant": "All interleavings/sequences.", "anchors": ["pkg/internal/config/config.go:Load"]}
{"id": "C30", "title": "Spanner tables are recreated only when their key or options change", "statement": "In spanner a table is dropped and recreated iff its primary key/options changed; otherwise only in-place alterations are emitted.", "quantifier": "for every pair of spanner table definitions with equal names", "why_tests_cant": "All pairs.", "anchors": ["pkg/ddl/spanner/diff_create_table.go:DiffCreateTable"]}
{"id": "C31", "title": "A MySQL column change is complete", "statement": "When a kept MySQL column differs, the emitted ALTER statements carry every changed attribute of the new column (type, character set, collation, NOT NULL, default, auto increment, ON action, comment).", "quantifier": "for every pair of column definitions", "why_tests_cant": "Eight attributes in all combinations.", "anchors": ["pkg/ddl/mysql/diff_create_table.go:diffCreateTableColumn", "pkg/ddl/mysql/ddl_table_alter.go:String"]}
{"id": "C32", "title": "Changes of foreign key actions are noticed", "statement": "If the ON DELETE/ON UPDATE action of a foreign key changes, the diff replaces the constraint.", "quantifier": "for every foreign key and every pair of actions, each dialect", "why_tests_cant": "Needs all pairs and dialects.", "anchors": ["pkg/ddl/postgres/ddl_table.go:ForeignKeyConstraint.StringForDiff", "pkg/ddl/mysql/ddl_table.go:ForeignKeyConstraint.StringForDiff"]}
{"id": "C33", "title": "A string literal is not confused with a keyword or number", "statement": "Changing a default between the keyword/number X and the string literal 'X' is a difference.", "quantifier": "for every default value", "why_tests_cant": "All values.", "anchors": ["pkg/ddl/mysql/parser.go:NewRawIdent", "pkg/ddl/spanner/parser.go:NewRawIdent", "pkg/ddl/postgres/parser.go:NewRawIdent"]}
{"id": "C34", "title": "MySQL AUTO_INCREMENT counters never cause a migration; other table options do", "statement": "A difference only in the AUTO_INCREMENT table option yields no statement; a changed or added ENGINE/CHARSET/COLLATE/COMMENT option yields exactly one ALTER TABLE setting it.", "quantifier": "for every pair of option lists", "why_tests_cant": "All lists.", "anchors": ["pkg/ddl/mysql/diff_create_table.go:DiffCreateTable"]}
{"id": "C35", "title": "No constraint written in the source is silently lost", "statement": "If a CREATE TABLE parses, every column-level constraint written in the source appears in the result.", "quantifier": "for every column definition", "why_tests_cant": "All combinations of column constraints.", "anchors": ["pkg/ddl/postgres/parser.go:parseColumnConstraints"]}
{"id": "C36", "title": "Spelling variants of a type are the same type", "statement": "Columns whose types are spelled with SQL synonyms (INT/INTEGER, TIMESTAMPTZ/TIMESTAMP WITH TIME ZONE, VARCHAR/CHARACTER VARYING) do not differ.", "quantifier": "for every type parameter list and letter case", "why_tests_cant": "All parameters and cases.", "anchors": ["pkg/ddl/postgres/parser.go:parseDataType", "pkg/ddl/cockroachdb/parser.go:parseDataType"]}
{"id": "C37", "title": "Trailing garbage is refused", "statement": "Text after a complete CREATE INDEX statement that is not a statement separator is reported as an error.", "quantifier": "for every trailing token", "why_tests_cant": "All tokens.", "anchors": ["pkg/ddl/postgres/parser.go:parseCreateIndexStmt", "pkg/ddl/postgres/parser.go:Parse"]}
{"id": "C38", "title": "CockroachDB's hidden hash-shard columns are left alone", "statement": "A NOT VISIBLE ... VIRTUAL column missing from the target is not dropped; every other missing column is.", "quantifier": "for every pair of CockroachDB tables", "why_tests_cant": "All tables.", "anchors": ["pkg/ddl/cockroachdb/diff_create_table.go:diffCreateTableColumn"]}
{"id": "C39", "title": "Tokenisation loses nothing", "statement": "Every byte of the input that is not whitespace and not in a comment is part of exactly one token's literal, in order.", "quantifier": "for every input whose quotes are closed", "why_tests_cant": "All texts.", "anchors": ["pkg/ddl/postgres/lexar.go:NextToken"]}
{"id": "C40", "title": "Removing comments does not change the SQL", "statement": "RemoveCommentsAndEmptyLines preserves the token sequence of the SQL text.", "quantifier": "for every SQL text", "why_tests_cant": "All texts, including literals that contain the comment marker.", "anchors": ["pkg/internal/util/remove_comment.go:RemoveCommentsAndEmptyLines"]}
{"id": "C41", "title": "Constraints are dropped and added exactly as needed", "statement": "Within the alteration of a table a constraint is dropped if it exists before and not after, added (as defined in after) and not dropped if it exists after and not before, and a constraint on both sides is dropped iff it is added again; no other constraint is added.", "quantifier": "for every pair of table definitions, every dialect", "why_tests_cant": "unbounded constraint lists; the loops over before/after with in-place replacing Append can lose or duplicate a constraint only for particular combinations", "anchors": ["pkg/ddl/postgres/diff_create_table.go:76-160", "pkg/ddl/mysql/diff_create_table.go", "pkg/ddl/cockroachdb/diff_create_table.go", "pkg/ddl/spanner/diff_create_table.go:83-139"]}
{"id": "C42", "title": "Only annotations of the configured tag contribute", "statement": "The generated statement of an annotated declaration is determined by the comment lines annotated with the configured tag: the table name is the last one annotated, constraints, options and indexes are those annotated, in order; lines of other tools have no effect.", "quantifier": "for every comment group and every configured tag", "why_tests_cant": "the comment texts are unbounded; the tests use groups with one tag only", "anchors": ["pkg/internal/lang/go/parse.go:114-147", "pkg/internal/lang/util/regex.go:11-28"]}
{"id": "C43", "title": "Generated statements come in source order, and a table precedes its indexes", "statement": "Within a file the statements are sorted by their source line, and the CREATE TABLE of a declaration comes before the CREATE INDEX statements annotated at it.", "quantifier": "for every Go file", "why_tests_cant": "the order depends on the sort key and on which line the annotation search finds", "anchors": ["pkg/internal/lang/go/parse.go:119-126,224-226,235-242"]}
{"id": "C44", "title": "Generation from a directory covers exactly the annotated Go files", "statement": "Generation from a directory yields the statements of all Go files that are no tests, in the order of the walk; a file without annotation is skipped; every other error ends the run.", "quantifier": "for every directory tree", "why_tests_cant": "directory trees are unbounded, and the error handling has several branches", "anchors": ["pkg/internal/lang/go/parse.go:34-88"]}
{"id": "C45", "title": "Each annotated struct gives one CREATE TABLE", "statement": "A declaration with annotation comments whose struct has included fields gives exactly one CREATE TABLE statement.", "quantifier": "for every Go file", "why_tests_cant": "depends on how comments are associated with declarations", "anchors": ["pkg/internal/lang/go/extract_source.go:50-90", "pkg/internal/lang/go/parse.go:105-222"]}
{"id": "C46", "title": "Executing the alterations of a table gives the new table (CockroachDB, MySQL, Spanner)", "statement": "The statements DiffCreateTable returns for an old and a new table, executed in order on the old table, all succeed and leave the new table; if none are returned the tables are the same.", "quantifier": "for all pairs of tables, and for no table as old or new one", "why_tests_cant": "the tests compare statement texts with expected texts; whether a database accepts them in that order and what they lead to is not run, and pairs of tables are unbounded", "anchors": ["pkg/ddl/spanner/diff_create_table.go:36-330", "pkg/ddl/cockroachdb/diff_create_table.go:37-300", "pkg/ddl/mysql/diff_create_table.go:37-296"]}
{"id": "C47", "title": "What show prints is the schema of the database (Spanner)", "statement": "The text that ShowCreateAllTables prints for a Spanner database is read by the parser as the CREATE TABLE and CREATE INDEX statements of that database, table by table.", "quantifier": "for all databases, i.e. for all contents of the INFORMATION_SCHEMA views that describe a database", "why_tests_cant": "the repository has no test of this package, since it needs a Spanner instance; the databases are unbounded, and each combination of indexes, defaults, options and keys prints another text", "anchors": ["pkg/show/spanner/show_create_all_tables.go:20-300", "pkg/ddl/spanner/parser.go"]}
{"id": "C48", "title": "Printed DDL parses back to the same DDL (CockroachDB)", "statement": "Printing a parsed CockroachDB DDL and parsing the text again gives the same DDL, so the output of one ddlctl run can be the input of the next.", "quantifier": "for every CockroachDB DDL obtained from parsing", "why_tests_cant": "Round trip over an infinite language; the parser skips tokens behind USING, so that acceptance depends on what follows an item.", "anchors": ["pkg/ddl/cockroachdb/parser.go:Parse", "pkg/ddl/cockroachdb/ddl_table_create.go:String", "pkg/ddl/cockroachdb/ddl_index_create.go:String"]}
{"id": "C49", "title": "Printed DDL parses back to the same DDL (MySQL)", "statement": "Printing a parsed MySQL DDL and parsing the text again gives the same DDL, so the output of one ddlctl run can be the input of the next.", "quantifier": "for every MySQL DDL obtained from parsing", "why_tests_cant": "Round trip over an infinite language; what is lost (actions, orders, synonyms of types) shows only in combinations nobody lists.", "anchors": ["pkg/ddl/mysql/parser.go:Parse", "pkg/ddl/mysql/ddl_table_create.go:String", "pkg/ddl/mysql/ddl_index_create.go:String"]}
{"id": "C50", "title": "Printed DDL parses back to the same DDL (Spanner)", "statement": "Printing a parsed Spanner DDL and parsing the text again gives the same DDL, so the output of one ddlctl run can be the input of the next.", "quantifier": "for every Spanner DDL obtained from parsing", "why_tests_cant": "Round trip over an infinite language; the clauses that are printed in another order than they are accepted show only in combinations nobody lists.", "anchors": ["pkg/ddl/spanner/parser.go:Parse", "pkg/ddl/spanner/ddl_table_create.go:String", "pkg/ddl/spanner/ddl_index_create.go:String"]}
{"id": "C51", "title": "Executing the Spanner migration turns the old schema into the new one", "statement": "When a Spanner database that holds the old schema executes the statements of the diff in the order in which they are emitted, every statement succeeds and the database then holds the tables, columns, constraints, options and indexes of the new schema; if ddlctl reports no difference, the two databases are already the same.", "quantifier": "for every pair of Spanner schemas obtained from parsing that a database accepts", "why_tests_cant": "Whether a statement can be executed depends on all other tables and indexes at that moment: an index or an interleaved child elsewhere makes a DROP fail. The combinations of old schema, new schema and order of statements are unbounded.", "anchors": ["pkg/ddl/spanner/diff.go:Diff", "pkg/ddl/spanner/diff_create_table.go:DiffCreateTable"]}
{"id": "C52", "title": "Executing the CockroachDB migration turns the old schema into the new one", "statement": "When a CockroachDB database that holds the old schema executes the statements of the diff in the order in which they are emitted, every statement succeeds and the database then holds the tables, columns, constraints and indexes of the new schema, whether an index is written in its table or as CREATE INDEX; if ddlctl reports no difference, the two databases are already the same.", "quantifier": "for every pair of CockroachDB schemas that a database accepts", "why_tests_cant": "DROP INDEX names no table and indexes vanish with their tables, so whether a statement works depends on every other table and index at that moment. The combinations of old schema, new schema and order of statements are unbounded.", "anchors": ["pkg/ddl/cockroachdb/diff.go:Diff", "pkg/ddl/cockroachdb/diff_create_table.go:DiffCreateTable"]}
{"id": "C53", "title": "Executing the MySQL migration turns the old schema into the new one", "statement": "When a MySQL database that holds the old schema executes the statements of the diff in the order in which they are emitted, every statement is understood and succeeds, and the database then holds the tables, columns, constraints, indexes and options of the new schema, whether an index is written in its table or as CREATE INDEX; if ddlctl reports no difference, the two databases are already the same.", "quantifier": "for every pair of MySQL schemas that a database accepts", "why_tests_cant": "Whether a statement works depends on every other table and index at that moment, and indexes are looked up by names that are unique only within a table. The combinations of old schema, new schema and order of statements are unbounded; the tests compare texts and never execute them.", "anchors": ["pkg/ddl/mysql/diff.go:Diff", "pkg/ddl/mysql/diff_create_table.go:DiffCreateTable"]}
{"id": "C54", "title": "An approved apply leaves the database with the new schema", "statement": "When `apply` is approved, the old side is the schema of the database, and the database can be reached, then `apply` sends the migration, reports success, and the database then has the new schema: between the two texts and the final state of the database nothing is lost, whether by printing, by removing comments, by splitting at semicolons, by repeating or by batching. If `apply` reports success the database has the new schema, and if it has, `apply` reports success.", "quantifier": "for every pair of schemas, every database, every answer sequence of the server and every dialect", "why_tests_cant": "The result depends on the whole chain from parsing to the last answer of the server and on the state of the database after each statement. Tests run single links of the chain, and with a mock that accepts everything.", "anchors": ["pkg/ddlctl/apply/ddlctl_apply.go:Apply", "pkg/ddlctl/apply/ddlctl_apply.go:splitExec", "pkg/ddlctl/diff/ddlctl_diff.go:Diff"]}
{"id": "C55", "title": "Statements are parsed independently", "statement": "A text that can be read on its own means the same wherever it stands: the text, a semicolon and a second text are read as the statements of the first followed by the statements of the second, and if the second cannot be read the whole fails with the error of the second. Any number of texts (files of a directory, rows of a database) that are joined with semicolons are read as the concatenation of their statements. Neither the look-ahead of the parser nor its loops over options, expressions and lists take a token of the next statement.", "quantifier": "for all texts and every dialect", "why_tests_cant": "The parsers look one token ahead in some sixty functions per dialect and have loops that end at different tokens; which statement follows which is unbounded. Tests contain a few fixed sequences.", "anchors": ["pkg/ddl/postgres/parser.go:Parse", "pkg/ddl/cockroachdb/parser.go:Parse", "pkg/ddl/mysql/parser.go:Parse", "pkg/ddl/spanner/parser.go:Parse"]}
{"id": "C56", "title": "What generate writes is read as annotated", "statement": "The file that `generate` writes for annotated Go structs, with its comments, source positions, indentation and padding, is read by the parser of the same dialect exactly like the annotated statements written by hand on one line each; if each of them can be read, the file is read as their statements in order. Hence `diff` between the Go sources and a file with the hand-written statements prints nothing and succeeds.", "quantifier": "for every generated DDL (any number of tables, columns, keys, constraints, options, indexes and comments) and every dialect", "why_tests_cant": "The tests of the generator compare text with text, and those of the parser read fixed texts; that the one is input of the other for all annotations is not tested.", "anchors": ["pkg/ddlctl/generate/ddlctl_generate.go:Fprint", "pkg/internal/generator/dialect/postgres/postgres.go:Fprint", "pkg/internal/generator/dialect/mysql/mysql.go:Fprint", "pkg/internal/generator/dialect/spanner/spanner.go:Fprint", "pkg/ddlctl/diff/ddlctl_diff.go:resolve"]}
{"id": "C57", "title": "What show prints is the schema of the database (MySQL, CockroachDB)", "statement": "For MySQL and CockroachDB, which print the definitions of tables themselves, the text that `ddlctl show` prints, and that `diff` and `apply` take as the current state, is read by the parser as the statements that the server prints for all tables of the current database, none left out or joined, in the order in which the server lists them.", "quantifier": "for every number of tables, every name without backquote and every text of a table that the parser can read by itself", "why_tests_cant": "There is no test of `show`: it needs a server. A test against one would try a few tables, and the text has to be read back for all that a server may hold.", "anchors": ["pkg/show/mysql/show_create_all_tables.go:ShowCreateAllTables", "pkg/show/cockroachdb/show_create_all_tables.go:ShowCreateAllTables", "pkg/ddlctl/show/ddlctl_show.go"]}
{"id": "C58", "title": "What show prints is the schema of the database (PostgreSQL)", "statement": "For PostgreSQL, where `ddlctl` puts the definitions together from `information_schema` and `pg_indexes`, the text that `ddlctl show` prints, and that `diff` and `apply` take as the current state, is read by the parser as the statements that create the schema `public`: every table with its columns, their types, default values and `NOT NULL`, its constraints, and every index that does not belong to a constraint.", "quantifier": "for every set of rows of the five views in which a database of tables, columns, default values, keys and indexes is described, in any order and among rows of other schemas", "why_tests_cant": "There is no test of `show`: it needs a server, since most of it is one SQL query. A test against one would try a few tables, and the text has to be read back for all that a server may hold.", "anchors": ["pkg/show/postgres/show_create_all_tables.go:ShowCreateAllTables", "pkg/show/postgres/show_create_all_tables.go:formatShowCreateAllTables", "pkg/show/postgres/show_create_all_tables.go:formatShowCreateAllIndexes", "pkg/ddlctl/show/ddlctl_show.go"]}
{"id": "C59", "title": "No difference is reported exactly for schemas that are alike (CockroachDB, MySQL, Spanner)", "statement": "`Diff(before, after)` returns `ErrNoDifference` if and only if every table and every index of either schema has one of the same definition in the other: the same columns, constraints, options and so on by name, in any order, whatever the quotes, comments, spelling of types and `IF NOT EXISTS`.", "quantifier": "for every two schemas of CREATE statements with distinct names whose texts are unambiguous", "why_tests_cant": "It is a claim in both directions about all pairs of schemas. Tests compare a few pairs; a part of the definitions that is never compared, or a text that two definitions share, shows only for the pair that differs in just that.", "anchors": ["pkg/ddl/cockroachdb/diff.go:Diff", "pkg/ddl/cockroachdb/diff_create_table.go:DiffCreateTable", "pkg/ddl/mysql/diff.go:Diff", "pkg/ddl/mysql/diff_create_table.go:DiffCreateTable", "pkg/ddl/spanner/diff.go:Diff", "pkg/ddl/spanner/diff_create_table.go:DiffCreateTable"]}
{"id": "C60", "title": "A run of generate leaves the annotated schema behind", "statement": "A successful `ddlctl generate` leaves in the destination, or in `ddlctl.gen.sql` if the destination is a directory, the note and the statements annotated at the source, in order and nothing else, printed for the configured dialect; the parser of the dialect reads it as those statements, and `ddlctl diff` finds no difference between it and the source. It succeeds exactly if the destination can be written, language and dialect are supported and the source can be read. A run that fails leaves the files as they were.", "quantifier": "for every source path (file or directory tree), configuration, destination and content of the file system", "why_tests_cant": "There is no test of the command; directory trees, annotations and causes of failure are unbounded.", "anchors": ["pkg/ddlctl/generate/ddlctl_generate.go:Command", "pkg/ddlctl/generate/ddlctl_generate.go:Generate", "pkg/ddlctl/generate/ddlctl_generate.go:Parse", "pkg/ddlctl/generate/ddlctl_generate.go:Fprint", "pkg/internal/lang/go/parse.go:Parse", "pkg/internal/generator/ddl.go:NewDDL"]}
{"id": "C61", "title": "A run of show writes the schema of the database, or nothing", "statement": "`ddlctl show` opens the database with the driver of the dialect and writes the schema it has, in one piece; if the database cannot be opened, shown or closed, or the dialect is not supported, it fails and writes nothing. What it writes, saved in a file, differs in nothing from the database.", "quantifier": "for every dialect, data source and behaviour of the database library", "why_tests_cant": "`show` needs a server and has no test; failures of opening, querying and closing cannot be provoked one by one.", "anchors": ["pkg/ddlctl/show/ddlctl_show.go:Command", "pkg/ddlctl/show/ddlctl_show.go:Show"]}
{"id": "C62", "title": "Scripts are read as they are written", "statement": "A text made of well-formed CREATE TABLE and CREATE INDEX statements, separated by semicolons, is accepted, and the syntax tree is exactly what is written: every column with its name, type, default value and nullability, every constraint with its name (or the default name), columns and reference, in the order of the text (for MySQL and CockroachDB the primary key first; of several constraints with one name the last one, at the place of the first one), and nothing else. Blanks, line breaks and comments do not matter.", "quantifier": "for every dialect and every text that the grammar of the dialect admits", "why_tests_cant": "the texts of a grammar are unbounded; tests compare some sample scripts with their printed form, and a phrase swallowed or attached to another place is only seen for the combination at hand.", "anchors": ["pkg/ddl/postgres/parser.go:Parse", "pkg/ddl/cockroachdb/parser.go:Parse", "pkg/ddl/mysql/parser.go:Parse", "pkg/ddl/spanner/parser.go:Parse"]}
{"id": "C63", "title": "After apply there is nothing left to do", "statement": "Two schemas that create the same database have no difference. Hence once apply has brought the database to the desired schema, running it again prints 'no difference' and sends nothing, however the database words its schema.", "quantifier": "for every dialect, all pairs of schemas that create the same database, and every run of apply after a successful one", "why_tests_cant": "a database can show a schema in unboundedly many wordings and orders; tests compare a schema with itself or with one changed copy.", "anchors": ["pkg/ddl/postgres/diff.go:Diff", "pkg/ddl/cockroachdb/diff.go:Diff", "pkg/ddl/mysql/diff.go:Diff", "pkg/ddl/spanner/diff.go:Diff", "pkg/ddlctl/apply/ddlctl_apply.go:Command"]}
{"id": "C64", "title": "Applying to a database the schema it was created from does nothing", "statement": "If the left argument of apply is the data source of a database and the right argument a schema that creates the same database, apply prints 'no difference' and sends nothing: what the database shows of itself is read back, compared with the schema and found equal.", "quantifier": "for every dialect, every database and every schema that creates it", "why_tests_cant": "the loop goes through the catalogue of a live server, the printed schema, the parser and the comparison; tests check each with samples and never with a database created from the schema at hand.", "anchors": ["pkg/ddlctl/apply/ddlctl_apply.go:Command", "pkg/ddlctl/diff/ddlctl_diff.go:resolve", "pkg/show/postgres/show_create_all_tables.go:ShowCreateAllTables", "pkg/show/cockroachdb/show_create_all_tables.go:ShowCreateAllTables", "pkg/show/mysql/show_create_all_tables.go:ShowCreateAllTables", "pkg/show/spanner/show_create_all_tables.go:ShowCreateAllTables"]}
{"id": "C65", "title": "Nothing is read that is not written", "statement": "Whatever text a parser accepts, the syntax tree consists of what is in the text: the tokens fall into consecutive statements, these into phrases, and each statement, column, type, default value, attribute, constraint, option and comment of the tree stands for a phrase of its own, in the order of the text; a default value or an expression has all letters of its phrase. Of several constraints of a table with the same name the last one counts. No tokens are passed over but commas, opening brackets of lists, brackets and semicolons between statements, one token behind a statement, one behind CHECK and REFERENCES in a column, what is written in place of INDEX behind UNIQUE, and what is behind a NUL byte.", "quantifier": "for every dialect and every accepted text, well-formed or not", "why_tests_cant": "tests feed well-formed samples and a few broken ones; that a malformed but accepted text never makes the parser invent or misattribute something is a statement about all texts.", "anchors": ["pkg/ddl/postgres/parser.go:Parse", "pkg/ddl/cockroachdb/parser.go:Parse", "pkg/ddl/mysql/parser.go:Parse", "pkg/ddl/spanner/parser.go:Parse"]}
{"id": "C66", "title": "Comparing two schemas gives an answer", "statement": "For any two schemas that were read from texts, Diff returns a non-empty list of statements or ErrNoDifference; it never panics and never returns another error.", "quantifier": "for every dialect and every two texts that can be read", "why_tests_cant": "tests compare a few dozen pairs of schemas; a nil pointer that only appears in one combination of definitions is found only by looking at all pairs.", "anchors": ["pkg/ddl/postgres/diff.go:Diff", "pkg/ddl/cockroachdb/diff.go:Diff", "pkg/ddl/mysql/diff.go:Diff", "pkg/ddl/spanner/diff.go:Diff", "pkg/ddl/spanner/diff_create_table.go:findConstraintByName"]}
{"id": "C67", "title": "The exit status tells the truth", "statement": "Every run of ddlctl ends. It ends with status 0 exactly if the command did what it was asked for: diff has printed the migration, or nothing if there is no difference; apply has said `done` at the end, or `no difference` and nothing else; show has printed the schema; generate has written the generated text to its destination and nothing else. It ends with status 1, and not with a crash, on wrong arguments and on schemas that can be read.", "quantifier": "for every command, all arguments, all files, Go sources, databases and inputs, whatever fails outside", "why_tests_cant": "the paths to an exit are the combinations of failures of files, sources, databases, the standard output and the answers of the user; tests run a few of them, and none runs main.", "anchors": ["cmd/ddlctl/main.go:main", "pkg/ddlctl/ddlctl.go:DDLCtl", "pkg/ddlctl/diff/ddlctl_diff.go:Command", "pkg/ddlctl/apply/ddlctl_apply.go:Command", "pkg/ddlctl/show/ddlctl_show.go:Command", "pkg/ddlctl/generate/ddlctl_generate.go:Command"]}
{"id": "C68", "title": "Migrations can be undone and do not depend on the way", "statement": "Let the schemas b, m and a give the databases B, M and A. The diff from b to a, executed on B, works, and the diff from a to b, executed on the result, works and leads back to B and nowhere else. Going from b to m and then to a gives the same database as going from b to a at once.", "quantifier": "for every dialect and all schemas that were read and that a database accepts", "why_tests_cant": "a test migrates one pair of schemas in one direction and compares texts; a round trip and a detour quantify over all pairs and triples of schemas and over the effect of every generated statement on a database.", "anchors": ["pkg/ddl/postgres/diff.go:Diff", "pkg/ddl/cockroachdb/diff.go:Diff", "pkg/ddl/mysql/diff.go:Diff", "pkg/ddl/spanner/diff.go:Diff", "pkg/ddl/postgres/diff_create_table.go:DiffCreateTable"]}
{"id": "C69", "title": "Independent parts of a schema are migrated independently", "statement": "If the old and the new schema are each put together from two parts, in any interleaving, and no table or index of the first part has the name of one of the second part, the diff of the whole is an interleaving of the diffs of the two parts. In particular a part that stays as it is does not change the diff of the rest.", "quantifier": "for every dialect, all schemas, all ways to divide them into independent parts and all interleavings", "why_tests_cant": "a test compares a few schemas as a whole; that nothing in one part influences the statements for another part quantifies over all other parts and all positions in the file.", "anchors": ["pkg/ddl/postgres/diff.go:Diff", "pkg/ddl/cockroachdb/diff.go:Diff", "pkg/ddl/mysql/diff.go:Diff", "pkg/ddl/spanner/diff.go:Diff", "pkg/ddl/postgres/diff.go:findStmtByTypeAndName", "pkg/ddl/postgres/diff.go:onlyLeftStmt"]}
{"id": "C70", "title": "The options do what the usage texts say", "statement": "Each command takes every setting from the option on the command line, else from the documented environment variable, else from the documented default, and nothing else has an influence on what it does. Statements are sent to a database only by apply, and only if --auto-approve or DDLCTL_AUTO_APPROVE is set to true or the user types yes. Without a dialect no command touches anything, and none succeeds.", "quantifier": "for all commands, command lines, environments, inputs and outside worlds", "why_tests_cant": "a test sets a few options; that no other option, variable or default leads to an approval or changes a run quantifies over all command lines and environments.", "anchors": ["pkg/ddlctl/ddlctl.go:DDLCtl", "pkg/internal/config/config.go:load", "pkg/internal/config/dialect.go:loadDialect", "pkg/internal/config/auto_approve.go:loadAutoApprove", "pkg/internal/config/language.go:loadLanguage", "pkg/internal/consts/cli.go:OptionAutoApprove"]}
{"id": "C71", "title": "The order of the definitions does not matter", "statement": "If the tables and indexes of the old schema, of the new schema or of both are written in another order, the diff has the same statements, each as often; in particular there is a difference in one order exactly if there is one in the other.", "quantifier": "for every dialect, all schemas and all permutations of their definitions", "why_tests_cant": "a test compares a few files in one order; the claim quantifies over all schemas and all pairs of permutations.", "anchors": ["pkg/ddl/postgres/diff.go:Diff", "pkg/ddl/cockroachdb/diff.go:Diff", "pkg/ddl/mysql/diff.go:Diff", "pkg/ddl/spanner/diff.go:Diff", "pkg/ddl/postgres/diff.go:findStmtByTypeAndName"]}
{"id": "C72", "title": "The database follows the annotations", "statement": "When `apply` is given a database and a directory of annotated Go sources and is approved, it succeeds and the database then has exactly the tables and indexes that the annotations mean when they are written by hand as SQL, whatever comments, source positions and indentation the generated text has. It never refuses a text it has itself generated from annotations that are complete SQL.", "quantifier": "for every dialect, all annotations, all source positions and comments, every schema of the database before, and every database that executes the statements it understands", "why_tests_cant": "the claim goes through the whole chain from the annotations to the state of the server; the tests of the generator compare a few generated texts and none of them reads such a text back or executes the difference.", "anchors": ["pkg/ddlctl/diff/ddlctl_diff.go:resolve", "pkg/ddlctl/generate/ddlctl_generate.go:Generate", "pkg/ddlctl/apply/ddlctl_apply.go:Command", "pkg/ddlctl/apply/ddlctl_apply.go:Apply"]}
{"id": "C73", "title": "A difference is seen from both sides", "statement": "Whether two schemas differ does not depend on which of them is the old one: the comparison of the first with the second reports no difference exactly if the comparison of the second with the first reports none.", "quantifier": "for every dialect and every pair of texts it reads", "why_tests_cant": "it relates two runs on the same pair of inputs; the tests run each pair in one direction only, and the rules for parts that are gone and parts that are new are separate pieces of code.", "anchors": ["pkg/ddl/postgres/diff.go:Diff", "pkg/ddl/postgres/diff_create_table.go:DiffCreateTable", "pkg/ddl/cockroachdb/diff_create_table.go:DiffCreateTable", "pkg/ddl/mysql/diff_create_table.go:DiffCreateTable", "pkg/ddl/spanner/diff_create_table.go:DiffCreateTable"]}
{"id": "C74", "title": "The option NOT VALID changes nothing else", "statement": "With the library option DiffCreateTableUseAlterTableAddConstraintNotValid(true) every constraint DiffCreateTable adds to a table is added NOT VALID, and without it none is; the other statements, their order and the errors are the same with and without it.", "quantifier": "for every dialect and every two tables, one or both of which may be missing", "why_tests_cant": "it relates two runs on the same inputs for all pairs of tables; the tests use the option on single tables, and constraints are added in two places of each dialect.", "anchors": ["pkg/ddl/postgres/diff_create_table.go:DiffCreateTable", "pkg/ddl/cockroachdb/diff_create_table.go:DiffCreateTable", "pkg/ddl/mysql/diff_create_table.go:DiffCreateTable", "pkg/ddl/spanner/diff_create_table.go:DiffCreateTable", "pkg/ddl/postgres/ddl_table_alter.go:String"]}
{"id": "C75", "title": "A table under another name is renamed first", "statement": "If DiffCreateTable is given two tables of different names, the first statement renames the table to the new name, in its old schema if the new name has none, and the remaining statements are exactly those that DiffCreateTable gives for the renamed table and the new one.", "quantifier": "for every dialect and every two tables of different names that are printed differently (Spanner: with the same options)", "why_tests_cant": "it relates two runs for all pairs of tables; the tests rename a table in a few single cases, and ddlctl itself never compares tables of different names.", "anchors": ["pkg/ddl/postgres/diff_create_table.go:DiffCreateTable", "pkg/ddl/cockroachdb/diff_create_table.go:DiffCreateTable", "pkg/ddl/mysql/diff_create_table.go:DiffCreateTable", "pkg/ddl/spanner/diff_create_table.go:DiffCreateTable"]}
{"id": "C76", "title": "A migration repeats nothing", "statement": "Between two schemas in which no table, no index and no column of a table is defined twice, the statements of a migration do pairwise different things: no table or index is dropped or created twice, and no thing is done twice to the same column, constraint or option of a table.", "quantifier": "for every dialect and every two parsed schemas without repeated definitions, and every difference between them", "why_tests_cant": "it compares all pairs of statements of all migrations, across the parts of the comparison that make them; the tests compare single migrations with expected texts.", "anchors": ["pkg/ddl/postgres/diff.go:Diff", "pkg/ddl/postgres/diff_create_table.go:DiffCreateTable", "pkg/ddl/cockroachdb/diff_create_table.go:DiffCreateTable", "pkg/ddl/mysql/diff_create_table.go:DiffCreateTable", "pkg/ddl/spanner/diff_create_table.go:DiffCreateTable"]}
{"id": "C77", "title": "A migration takes nothing back", "statement": "Between two schemas in which no table, no index and no column of a table is defined twice, no statement of a migration drops a table, an index, a column or a constraint that an earlier statement of the same migration has created or added.", "quantifier": "for every dialect and every two parsed schemas without repeated definitions, and every difference between them", "why_tests_cant": "it compares all pairs of statements of all migrations; the tests compare single migrations, mostly of one table, with expected texts.", "anchors": ["pkg/ddl/postgres/diff.go:Diff", "pkg/ddl/postgres/diff_create_table.go:DiffCreateTable", "pkg/ddl/cockroachdb/diff_create_table.go:DiffCreateTable", "pkg/ddl/mysql/diff_create_table.go:DiffCreateTable", "pkg/ddl/spanner/diff_create_table.go:DiffCreateTable"]}
{"id": "C78", "title": "The shown difference is only a comment", "statement": "The text that a migration shows for a difference, which comes from the library simplediff, has no influence on the migration: two versions of the library give the same statements up to their comments, or the same error; and the comment is printed as whole lines beginning with `-- ` in front of the statement.", "quantifier": "for every dialect, every two functions in place of simplediff.Diff, every two schemas and every two tables, with and without NOT VALID, and every statement", "why_tests_cant": "it speaks about all possible texts of the library, also such as contain line breaks; the tests see one version and compare its output.", "anchors": ["pkg/ddl/postgres/diff_create_table.go:DiffCreateTable", "pkg/ddl/cockroachdb/diff_create_table.go:DiffCreateTable", "pkg/ddl/mysql/diff_create_table.go:DiffCreateTable", "pkg/ddl/spanner/diff_create_table.go:DiffCreateTable", "pkg/ddl/postgres/ddl_table_alter.go:AlterTableStmt.String"]}
{"id": "C79", "title": "Every statement of a migration has a reason", "statement": "What a statement of a migration creates, adds or sets is so defined in the new schema and not in the old one; what it drops or removes is in the old schema and not, or not so, in the new one. This holds for tables, indexes, columns, types, defaults, NOT NULL, constraints, table options and row deletion policies, each taken over as written.", "quantifier": "for every dialect, every two schemas (also such as have repeated definitions), every difference between them and every statement in it", "why_tests_cant": "it relates every statement of every migration to the two definitions it comes from; the tests compare migrations of a few schemas with expected texts.", "anchors": ["pkg/ddl/postgres/diff.go:Diff", "pkg/ddl/postgres/diff_create_table.go:DiffCreateTable", "pkg/ddl/cockroachdb/diff_create_table.go:DiffCreateTable", "pkg/ddl/mysql/diff_create_table.go:DiffCreateTable", "pkg/ddl/spanner/diff_create_table.go:DiffCreateTable"]}
{"id": "C80", "title": "The dialects get the same generated DDL", "statement": "From the same annotations, generate writes the same text for PostgreSQL and CockroachDB, and for MySQL the same text with backquotes in place of the double quotes around column names; for Spanner the same text as for MySQL, if no table has a tagged key (whose place differs in Spanner). If it fails, it fails in the same way for all of them.", "quantifier": "for every source tree and everything read from it, every language option", "why_tests_cant": "the three printers are separate packages with copied code, each compared with its own expected files; the tests do not compare them with each other.", "anchors": ["pkg/ddlctl/generate/ddlctl_generate.go:Fprint", "pkg/internal/generator/dialect/postgres/create_table.go:fprintCreateTable", "pkg/internal/generator/dialect/mysql/create_table.go:fprintCreateTable", "pkg/internal/generator/dialect/spanner/create_table.go:fprintCreateTable"]}
{"id": "C81", "title": "Every difference of a changed table is answered", "statement": "If a table is defined in both schemas with different texts, the migration has a statement for every difference between its columns: it adds each new column, drops each one that is gone (CockroachDB: unless hidden and virtual), and sets or removes each attribute of a kept column that changed, with the value of the new schema. For MySQL it also sets each table option that is new or changed, except the counter AUTO_INCREMENT (an option that is gone is not answered, see C73; what MODIFY says about the character set is C79); for Spanner it also answers a changed row deletion policy, and tables with other options are dropped and made anew.", "quantifier": "for every dialect, every two schemas, every difference between them and every table in both, where the new schema's tables have different names and so have the new table's columns (MySQL: and its options)", "why_tests_cant": "every combination of differences between two tables of any size; the tests compare migrations of a few pairs of tables, mostly with one difference each.", "anchors": ["pkg/ddl/postgres/diff.go:Diff", "pkg/ddl/postgres/diff_create_table.go:DiffCreateTable", "pkg/ddl/cockroachdb/diff_create_table.go:DiffCreateTable", "pkg/ddl/mysql/diff_create_table.go:DiffCreateTable", "pkg/ddl/spanner/diff_create_table.go:DiffCreateTable"]}
