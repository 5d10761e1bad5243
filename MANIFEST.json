{
 "claims": [
  {
   "property": "C01",
   "status": "proved",
   "theorems": [
    "Ddl.Props.C01_no_self_difference"
   ],
   "note": ""
  },
  {
   "property": "C02",
   "status": "proved",
   "theorems": [
    "Ddl.Props.C02_from_and_to_nothing"
   ],
   "note": ""
  },
  {
   "property": "C03",
   "status": "partial",
   "theorems": [
    "Ddl.Props.C03_migration_partial",
    "Ddl.Props.C03_dropped_table_index_fails",
    "Ddl.Props.C03_dropped_table_referred_fails",
    "Ddl.Props.C03_dropped_column_constraint_fails",
    "Ddl.Props.C03_dropped_column_index_fails",
    "Ddl.Props.C03_dropped_column_referred_fails",
    "Ddl.Props.C03_new_index_column_fails",
    "Ddl.Props.C03_referred_column_fails",
    "Ddl.Props.C03_moved_index_fails",
    "Ddl.Props.C03_lost_not_null_fails",
    "Ddl.Props.C03_lost_key_fails",
    "Ddl.Props.C03_index_method_fails"
   ],
   "note": "Proved for tame schemas accepted by the database model of Verif/Spec/Db.lean and without the changes listed in NoHazard; for each of these changes a theorem shows that the migration fails or ends in another schema."
  },
  {
   "property": "C04",
   "status": "partial",
   "theorems": [
    "Ddl.Props.C04_no_difference_partial",
    "Ddl.Props.C04_method_fails",
    "Ddl.Props.C04_quoted_fails",
    "Ddl.Props.C04_column_list_fails",
    "Ddl.Props.C04_case_fails"
   ],
   "note": "Full statement: no difference is reported only for equivalent schemas. Proved for PostgreSQL schemas read from texts without illegal characters, with distinct names, whose quoted identifiers contain no separators (TameSchema), up to the index method. The code violates the rest: index method ignored, quoted identifiers confused with the words they contain, letter case of quoted identifiers."
  },
  {
   "property": "C05",
   "status": "proved",
   "theorems": [
    "Ddl.Props.C05_postgres",
    "Ddl.Props.C05_cockroachdb",
    "Ddl.Props.C05_mysql",
    "Ddl.Props.C05_spanner"
   ],
   "note": "Stated for all four dialects. Schemas may differ in order of objects, columns and constraints, in quoting and in type spelling."
  },
  {
   "property": "C06",
   "status": "proved",
   "theorems": [
    "Ddl.Props.C06_kept_table_not_dropped",
    "Ddl.Props.C06_spanner"
   ],
   "note": ""
  },
  {
   "property": "C07",
   "status": "proved",
   "theorems": [
    "Ddl.Props.C07_columns_exact"
   ],
   "note": "CockroachDB: up to hidden columns (C38); Spanner: unless the table is recreated (C30)."
  },
  {
   "property": "C08",
   "status": "proved",
   "theorems": [
    "Ddl.Props.C08_only_differences",
    "Ddl.Props.C08_identity"
   ],
   "note": "MySQL: for names without dots inside quotes."
  },
  {
   "property": "C09",
   "status": "proved",
   "theorems": [
    "Ddl.Props.C09_three_phases",
    "Ddl.Props.C09_table_order"
   ],
   "note": "MySQL whole diff: for names without dots inside quotes."
  },
  {
   "property": "C10",
   "status": "proved",
   "theorems": [
    "Ddl.Props.C10_terminates"
   ],
   "note": ""
  },
  {
   "property": "C11",
   "status": "partial",
   "theorems": [
    "Ddl.Props.C11_postgres_no_panic_partial",
    "Ddl.Props.C11_postgres_panics",
    "Ddl.Props.C11_postgres_accepted",
    "Ddl.Props.C11_cockroachdb_no_panic_partial",
    "Ddl.Props.C11_cockroachdb_panics",
    "Ddl.Props.C11_cockroachdb_accepted",
    "Ddl.Props.C11_mysql_no_panic_partial",
    "Ddl.Props.C11_mysql_panics",
    "Ddl.Props.C11_mysql_accepted",
    "Ddl.Props.C11_spanner_no_panic_partial",
    "Ddl.Props.C11_spanner_panics",
    "Ddl.Props.C11_spanner_accepted",
    "Ddl.Props.C11_accepted_nul_fails"
   ],
   "note": "The code panics on some texts (C11_*_panics); no panic on texts following the lexical grammar without the token pairs named in the theorems; a text without NUL bytes that is accepted follows the lexical grammar, so a text with an open quote is refused or crashes but is never accepted (C11_*_accepted)."
  },
  {
   "property": "C12",
   "status": "proved",
   "theorems": [
    "Ddl.Props.C12_blanks",
    "Ddl.Props.C12_final_comment",
    "Ddl.Props.C12_blanks_lex"
   ],
   "note": ""
  },
  {
   "property": "C13",
   "status": "partial",
   "theorems": [
    "Ddl.Props.C13_postgres_partial",
    "Ddl.Props.C13_cockroachdb_partial",
    "Ddl.Props.C13_mysql_partial",
    "Ddl.Props.C13_spanner_partial",
    "Ddl.Props.C13_postgres_fails",
    "Ddl.Props.C13_cockroachdb_fails",
    "Ddl.Props.C13_mysql_fails",
    "Ddl.Props.C13_spanner_fails",
    "Ddl.Props.C13_action_fails"
   ],
   "note": "Texts with recased keywords parse alike, to definitions equal up to the case of keywords stored inside expressions and actions; no difference if those were in capitals. The rest of the claim is false: C13_*_fails."
  },
  {
   "property": "C14",
   "status": "partial",
   "theorems": [
    "Ddl.Props.C14_round_trip_partial",
    "Ddl.Props.C14_check_fails",
    "Ddl.Props.C14_action_fails",
    "Ddl.Props.C14_generated_name_fails",
    "Ddl.Props.C14_empty_default_fails",
    "Ddl.Props.C14_illegal_fails"
   ],
   "note": "Proved for every schema read from a text without illegal characters, unless it has a CHECK constraint, a foreign key action, a generated name that would need quotes, or a DEFAULT without a value. Each of these is shown to break the round trip."
  },
  {
   "property": "C15",
   "status": "partial",
   "theorems": [
    "Ddl.Props.C15_unique_names",
    "Ddl.Props.C15_last_wins",
    "Ddl.Props.C15_postgres_text",
    "Ddl.Props.C15_position_fails",
    "Ddl.Props.C62_postgres_partial",
    "Ddl.Props.C62_cockroachdb_partial",
    "Ddl.Props.C62_mysql_partial",
    "Ddl.Props.C62_spanner_partial"
   ],
   "note": "Uniqueness for all dialects and texts. The last definition wins in all dialects; at the position of the first in PostgreSQL and Spanner. From the text on this is part of C62_<dialect>_partial. In CockroachDB and MySQL a primary key is moved to the front."
  },
  {
   "property": "C16",
   "status": "partial",
   "theorems": [
    "Ddl.Props.C16_postgres",
    "Ddl.Props.C16_spanner",
    "Ddl.Props.C16_cockroachdb_partial",
    "Ddl.Props.C16_mysql_partial",
    "Ddl.Props.C16_cockroachdb_fails",
    "Ddl.Props.C16_mysql_fails"
   ],
   "note": "Full for PostgreSQL and Spanner; CockroachDB without USING, MySQL without quoted column comments; negations for those two."
  },
  {
   "property": "C17",
   "status": "proved",
   "theorems": [
    "Ddl.Props.C17_approval",
    "Ddl.Props.C17_no_difference",
    "Ddl.Props.C17_refused"
   ],
   "note": "nothing is sent unless the difference is non-empty, shown in full, and approved by the flag or the answer YES"
  },
  {
   "property": "C18",
   "status": "partial",
   "theorems": [
    "Ddl.Props.C18_statements_partial",
    "Ddl.Props.C18_spanner_partial",
    "Ddl.Props.C18_migration",
    "Ddl.Props.C18_literal_fails",
    "Ddl.Props.C18_split_fails",
    "Ddl.Props.C18_long_line_fails"
   ],
   "note": "for texts whose statement bodies contain no '--' and no ';' at a line end and whose lines are shorter than 64 KiB; each restriction is shown to be needed"
  },
  {
   "property": "C19",
   "status": "proved",
   "theorems": [
    "Ddl.Props.C19_success"
   ],
   "note": "success is reported only if in the last pass every statement succeeded or failed with a tolerated message"
  },
  {
   "property": "C20",
   "status": "proved",
   "theorems": [
    "Ddl.Props.C20_pieces",
    "Ddl.Props.C20_bound",
    "Ddl.Props.C20_reached"
   ],
   "note": "n counts the pieces of the split text; C20_reached shows the bound is attained, so the same bound with the number of statements would be wrong"
  },
  {
   "property": "C21",
   "status": "partial",
   "theorems": [
    "Ddl.Props.C21_spanner_partial",
    "Ddl.Props.C21_fails"
   ],
   "note": "holds for Spanner's non-split path; refuted for the split path"
  },
  {
   "property": "C22",
   "status": "partial",
   "theorems": [
    "Ddl.Props.C22_once_partial",
    "Ddl.Props.C22_fails"
   ],
   "note": "holds when the first pass succeeds; refuted with a retry"
  },
  {
   "property": "C23",
   "status": "partial",
   "theorems": [
    "Ddl.Props.C23_diff",
    "Ddl.Props.C23_diff_kind",
    "Ddl.Props.C23_diff_kind_directory",
    "Ddl.Props.C23_generate",
    "Ddl.Props.C23_generate_command",
    "Ddl.Props.C23_show_partial",
    "Ddl.Props.C23_show_fails",
    "Ddl.Props.C23_generate_empties"
   ],
   "note": "proved for diff and generate (text written, success, error kind); show refuses too but with the error of the database library (C23_show_fails), and generate empties its destination before the check (C23_generate_empties)"
  },
  {
   "property": "C24",
   "status": "proved",
   "theorems": [
    "Ddl.Props.C24_complete",
    "Ddl.Props.C24_error",
    "Ddl.Props.C24_no_difference",
    "Ddl.Props.C24_silent"
   ],
   "note": "writes are the arguments of io.WriteString; if that single write itself fails, bytes may have been written; files, Go sources and databases are arbitrary"
  },
  {
   "property": "C25",
   "status": "partial",
   "theorems": [
    "Ddl.Props.C25_stmt_partial",
    "Ddl.Props.C25_migration_partial",
    "Ddl.Props.C25_nul_fails"
   ],
   "note": "for comments without NUL bytes; a NUL byte ends a comment for the lexer (refuted)"
  },
  {
   "property": "C26",
   "status": "proved",
   "theorems": [
    "Ddl.Props.C26_text",
    "Ddl.Props.C26_text_spanner",
    "Ddl.Props.C26_tokens"
   ],
   "note": "exact text for every table, and its token sequence for tables whose parts are lexically complete"
  },
  {
   "property": "C27",
   "status": "proved",
   "theorems": [
    "Ddl.Props.C27_comments",
    "Ddl.Props.C27_comment_line",
    "Ddl.Props.C27_block_comment_fails"
   ],
   "note": "comment texts without line break; block comments over several lines do become SQL (C27_block_comment_fails)"
  },
  {
   "property": "C28",
   "status": "proved",
   "theorems": [
    "Ddl.Props.C28_columns",
    "Ddl.Props.C28_tags",
    "Ddl.Props.C28_file",
    "Ddl.Props.C28_safe",
    "Ddl.Props.C28_panics",
    "Ddl.Props.C28_interpreted_tag_fails"
   ],
   "note": "tags, annotations, files and printing modelled; what go/parser makes of a file is the input; fields without tag or name panic (C28_panics); interpreted tags are ignored (C28_interpreted_tag_fails)"
  },
  {
   "property": "C29",
   "status": "proved",
   "theorems": [
    "Ddl.Props.C29_failed_load",
    "Ddl.Props.C29_rollback",
    "Ddl.Props.C29_rollback_later",
    "Ddl.Props.C29_nested",
    "Ddl.Props.C29_wrong_order"
   ],
   "note": "operations are atomic: the mutex is not modelled"
  },
  {
   "property": "C30",
   "status": "partial",
   "theorems": [
    "Ddl.Props.C30_same_options_in_place",
    "Ddl.Props.C30_read_recreate_iff_partial",
    "Ddl.Props.C30_recreate_iff_partial",
    "Ddl.Props.C30_recreate_iff_fails"
   ],
   "note": "The iff is proved for all tables read from texts whose option words have no blanks or commas inside quotes (read_recreate_iff), and for any tables with one such option; with blanks inside quoted names it is refuted."
  },
  {
   "property": "C31",
   "status": "partial",
   "theorems": [
    "Ddl.Props.C31_complete_partial",
    "Ddl.Props.C31_printed",
    "Ddl.Props.C31_charset_fails"
   ],
   "note": "All attributes but the character set: a new CHARACTER SET is never emitted (C31_charset_fails). Compared columns have plain argument lists and defaults."
  },
  {
   "property": "C32",
   "status": "partial",
   "theorems": [
    "Ddl.Props.C32_postgres",
    "Ddl.Props.C32_postgres_replaced",
    "Ddl.Props.C32_cockroachdb",
    "Ddl.Props.C32_cockroachdb_replaced",
    "Ddl.Props.C32_mysql_fails"
   ],
   "note": "Holds for PostgreSQL and CockroachDB; refuted for MySQL for all tables. Spanner has no foreign key actions."
  },
  {
   "property": "C33",
   "status": "partial",
   "theorems": [
    "Ddl.Props.C33_postgres",
    "Ddl.Props.C33_cockroachdb",
    "Ddl.Props.C33_mysql_fails",
    "Ddl.Props.C33_spanner_fails"
   ],
   "note": "Holds for PostgreSQL and CockroachDB; refuted for MySQL and Spanner for all words."
  },
  {
   "property": "C34",
   "status": "proved",
   "theorems": [
    "Ddl.Props.C34_auto_increment",
    "Ddl.Props.C34_options",
    "Ddl.Props.C34_changed",
    "Ddl.Props.C34_added"
   ],
   "note": "Options as the parser makes them, option names distinct."
  },
  {
   "property": "C35",
   "status": "partial",
   "theorems": [
    "Ddl.Props.C35_postgres_partial",
    "Ddl.Props.C35_postgres_last_partial",
    "Ddl.Props.C35_fails",
    "Ddl.Props.C62_postgres_partial",
    "Ddl.Props.C65_postgres",
    "Ddl.Props.C62_cockroachdb_partial",
    "Ddl.Props.C65_cockroachdb",
    "Ddl.Props.C62_mysql_partial",
    "Ddl.Props.C65_mysql",
    "Ddl.Props.C62_spanner_partial",
    "Ddl.Props.C65_spanner"
   ],
   "note": "For column constraints given by a token grammar, of pairwise different kinds, with CHECK or REFERENCES without ON only at the end: exactly the written constraints are read (PostgreSQL). C62_<dialect>_partial has the same from the text on, for all dialects and with table constraints; C65_<dialect> has the converse for every accepted text: what belongs to no phrase is one of the listed skipped tokens. Missing: other sequences; C35_fails shows that constraints are lost there."
  },
  {
   "property": "C36",
   "status": "partial",
   "theorems": [
    "Ddl.Props.C36_postgres_partial",
    "Ddl.Props.C36_cockroachdb_partial",
    "Ddl.Props.C36_mysql_partial",
    "Ddl.Props.C36_postgres_fails",
    "Ddl.Props.C36_postgres_numeric_fails",
    "Ddl.Props.C36_cockroachdb_fails",
    "Ddl.Props.C36_cockroachdb_numeric_fails",
    "Ddl.Props.C36_cockroachdb_real_fails",
    "Ddl.Props.C36_mysql_fails",
    "Ddl.Props.C36_mysql_numeric_fails",
    "Ddl.Props.C36_mysql_boolean_fails"
   ],
   "note": "Replacing the words of a column's type by a synonym (table Spec.synonyms, any letter case, any parameters and rest) gives the same outcome and no alteration in PostgreSQL, CockroachDB, MySQL. Missing: the documented synonyms the code takes for different types, with witnesses."
  },
  {
   "property": "C37",
   "status": "partial",
   "theorems": [
    "Ddl.Props.C37_postgres_fails",
    "Ddl.Props.C37_cockroachdb_fails",
    "Ddl.Props.C37_mysql_fails",
    "Ddl.Props.C37_spanner_fails",
    "Ddl.Props.C37_postgres_partial",
    "Ddl.Props.C37_cockroachdb_partial",
    "Ddl.Props.C37_mysql_partial",
    "Ddl.Props.C37_spanner_partial"
   ],
   "note": "One token after the closing parenthesis of CREATE INDEX is skipped, whatever it is: for every complete index and every token in place of the separator the result is the same (negation). Missing: that token. Proved: a second trailing token is refused."
  },
  {
   "property": "C38",
   "status": "proved",
   "theorems": [
    "Ddl.Props.C38_hidden_columns_kept"
   ],
   "note": ""
  },
  {
   "property": "C39",
   "status": "partial",
   "theorems": [
    "Ddl.Props.C39_lexer_iff_grammar",
    "Ddl.Props.C39_lossless_partial",
    "Ddl.Props.C39_lossless_fails"
   ],
   "note": "A byte >= 0x80 outside quotes and comments is re-encoded (newToken: string(byte)); negation proved, positive theorem for all other texts."
  },
  {
   "property": "C40",
   "status": "partial",
   "theorems": [
    "Ddl.Props.C40_tokens_partial",
    "Ddl.Props.C40_literal_fails",
    "Ddl.Props.C40_multiline_fails",
    "Ddl.Props.C40_space_fails",
    "Ddl.Props.C40_long_line_fails"
   ],
   "note": "for texts in which -- occurs only as comment marker, without illegal characters, NUL, multi-line literals and 64 KiB lines; each restriction is shown to be needed"
  },
  {
   "property": "C41",
   "status": "proved",
   "theorems": [
    "Ddl.Props.C41_constraints_exact"
   ],
   "note": ""
  },
  {
   "property": "C42",
   "status": "partial",
   "theorems": [
    "Ddl.Props.C42_contents_partial",
    "Ddl.Props.C42_foreign_tag_fails",
    "Ddl.Props.C42_block_comment_fails"
   ],
   "note": "fails: the tag in front of the key is never compared; partial: all annotation lines of the group have the configured tag"
  },
  {
   "property": "C43",
   "status": "partial",
   "theorems": [
    "Ddl.Props.C43_sorted",
    "Ddl.Props.C43_table_first_partial",
    "Ddl.Props.C43_index_first_fails"
   ],
   "note": "sorted by line for lines below 10^9; table before its indexes unless the text of an index annotation is found in or before the first tagged line (C43_index_first_fails)"
  },
  {
   "property": "C44",
   "status": "proved",
   "theorems": [
    "Ddl.Props.C44_walk",
    "Ddl.Props.C44_not_found"
   ],
   "note": "the walk of filepath.WalkDir and the Go parser are inputs"
  },
  {
   "property": "C45",
   "status": "partial",
   "theorems": [
    "Ddl.Props.C45_count",
    "Ddl.Props.C45_once_partial",
    "Ddl.Props.C45_twice_fails",
    "Ddl.Props.C45_group_fails"
   ],
   "note": "fails for two tagged groups at one declaration and for declarations of several types; partial: at most one tagged group per declaration"
  },
  {
   "property": "C46",
   "status": "partial",
   "theorems": [
    "Ddl.Props.C46_spanner_partial",
    "Ddl.Props.C46_cockroachdb_partial",
    "Ddl.Props.C46_mysql_partial",
    "Ddl.Props.C46_spanner_fails",
    "Ddl.Props.C46_cockroachdb_dropped_fails",
    "Ddl.Props.C46_cockroachdb_hidden_fails",
    "Ddl.Props.C46_cockroachdb_computed_fails",
    "Ddl.Props.C46_cockroachdb_kind_fails",
    "Ddl.Props.C46_mysql_dropped_fails",
    "Ddl.Props.C46_mysql_characterSet_fails",
    "Ddl.Props.C46_mysql_action_fails",
    "Ddl.Props.C46_mysql_option_fails",
    "Ddl.Props.C46_mysql_kind_fails",
    "Ddl.Props.C46_schema_fails"
   ],
   "note": "Proved for unambiguous tables and changes outside NoHazard (column dropped while a kept constraint mentions it; CockroachDB: hidden virtual columns dropped, AS / NOT VISIBLE changed; MySQL: changed columns with character set, foreign key actions, removed options; index and constraint exchanged under one name; schema lost in the new name), each refuted by a witness. Execution is specified in Verif/Spec/Run.lean."
  },
  {
   "property": "C47",
   "status": "partial",
   "theorems": [
    "Ddl.Props.C47_spanner_partial",
    "Ddl.Props.C47_spanner_exact",
    "Ddl.Props.C47_spanner_indexes_fails",
    "Ddl.Props.C47_spanner_descending_fails",
    "Ddl.Props.C47_spanner_parent_fails",
    "Ddl.Props.C47_spanner_checks_fails",
    "Ddl.Props.C47_spanner_stored_fails",
    "Ddl.Props.C47_spanner_default_fails",
    "Ddl.Props.C47_spanner_keyword_fails",
    "Ddl.Props.C47_spanner_type_fails",
    "Ddl.Props.C47_spanner_nokey_fails",
    "Ddl.Props.C47_spanner_schema_fails"
   ],
   "note": "Proved for databases whose names need no quotes, whose types the parser knows and whose tables are simple (at most one secondary index, nothing descending, no CHECK, no parent); exact shows the property is false for every other such table, stored_fails that STORING always is an error, the other _fails theorems are witnesses for what Plain excludes."
  },
  {
   "property": "C48",
   "status": "partial",
   "theorems": [
    "Ddl.Props.C48_round_trip_partial",
    "Ddl.Props.C48_check_fails",
    "Ddl.Props.C48_action_fails",
    "Ddl.Props.C48_generated_name_fails",
    "Ddl.Props.C48_foreign_key_name_fails",
    "Ddl.Props.C48_default_and_as_fails",
    "Ddl.Props.C48_casts_fails",
    "Ddl.Props.C48_index_method_before_fails",
    "Ddl.Props.C48_index_method_behind_fails",
    "Ddl.Props.C48_empty_default_fails",
    "Ddl.Props.C48_empty_as_fails",
    "Ddl.Props.C48_two_primary_keys_fails",
    "Ddl.Props.C48_illegal_fails"
   ],
   "note": "For all texts without illegal characters whose schema is Rereadable (Spec/RoundTripCrdb.lean); the other schemas are refuted by the _fails theorems."
  },
  {
   "property": "C49",
   "status": "partial",
   "theorems": [
    "Ddl.Props.C49_round_trip_partial",
    "Ddl.Props.C49_default_auto_increment_fails",
    "Ddl.Props.C49_generated_name_fails",
    "Ddl.Props.C49_foreign_key_name_fails",
    "Ddl.Props.C49_boolean_fails",
    "Ddl.Props.C49_order_fails",
    "Ddl.Props.C49_index_order_fails",
    "Ddl.Props.C49_action_fails",
    "Ddl.Props.C49_empty_default_fails",
    "Ddl.Props.C49_primary_key_order_fails",
    "Ddl.Props.C49_illegal_fails"
   ],
   "note": "Round trip for schemas without the constructs named in the _fails theorems."
  },
  {
   "property": "C50",
   "status": "partial",
   "theorems": [
    "Ddl.Props.C50_round_trip_partial",
    "Ddl.Props.C50_default_options_fails",
    "Ddl.Props.C50_foreign_key_name_fails",
    "Ddl.Props.C50_empty_default_fails",
    "Ddl.Props.C50_illegal_fails"
   ],
   "note": "Holds for schemas read from a text without illegal characters whose tables are Rereadable (Spec/RoundTripSp.lean). Refuted for the other schemas, one witness for each excluded case."
  },
  {
   "property": "C51",
   "status": "partial",
   "theorems": [
    "Ddl.Props.C51_spanner_partial",
    "Ddl.Props.C51_read",
    "Ddl.Props.C51_dropped_table_index_fails",
    "Ddl.Props.C51_dropped_parent_fails",
    "Ddl.Props.C51_dropped_table_referred_fails",
    "Ddl.Props.C51_recreated_table_index_fails",
    "Ddl.Props.C51_recreated_parent_fails",
    "Ddl.Props.C51_dropped_column_constraint_fails",
    "Ddl.Props.C51_dropped_column_index_fails",
    "Ddl.Props.C51_new_index_column_fails",
    "Ddl.Props.C51_moved_index_fails"
   ],
   "note": "Schemas of CREATE statements that can be told from their texts (C51_read: those read from a text that can be printed and read again); the changes excluded by NoSchemaHazard are refuted one by one"
  },
  {
   "property": "C52",
   "status": "partial",
   "theorems": [
    "Ddl.Props.C52_cockroachdb_partial",
    "Ddl.Props.C52_read",
    "Ddl.Props.C52_dropped_table_index_fails",
    "Ddl.Props.C52_dropped_table_referred_fails",
    "Ddl.Props.C52_dropped_column_index_fails",
    "Ddl.Props.C52_new_index_column_fails",
    "Ddl.Props.C52_index_rewritten_fails",
    "Ddl.Props.C52_index_lost_fails",
    "Ddl.Props.C52_ambiguous_index_fails",
    "Ddl.Props.C52_moved_index_fails"
   ],
   "note": "Schemas of CREATE statements that can be told from their texts (C52_read: those read from a text that can be printed and read again); the changes excluded by NoSchemaHazard are refuted one by one"
  },
  {
   "property": "C53",
   "status": "partial",
   "theorems": [
    "Ddl.Props.C53_mysql_partial",
    "Ddl.Props.C53_read",
    "Ddl.Props.C53_dropped_index_fails",
    "Ddl.Props.C53_changed_index_fails",
    "Ddl.Props.C53_dropped_key_fails",
    "Ddl.Props.C53_changed_key_fails",
    "Ddl.Props.C53_schema_key_fails",
    "Ddl.Props.C53_dropped_table_referred_fails",
    "Ddl.Props.C53_new_index_column_fails",
    "Ddl.Props.C53_index_rewritten_fails",
    "Ddl.Props.C53_same_index_name_fails"
   ],
   "note": "Schemas of CREATE statements that can be told from their texts (C53_read: those read from a text that can be printed and read again); the changes excluded by NoSchemaHazard are refuted one by one"
  },
  {
   "property": "C54",
   "status": "partial",
   "theorems": [
    "Ddl.Props.C54_in_order",
    "Ddl.Props.C54_batch",
    "Ddl.Props.C54_postgres_partial",
    "Ddl.Props.C54_cockroachdb_partial",
    "Ddl.Props.C54_mysql_partial",
    "Ddl.Props.C54_spanner_partial",
    "Ddl.Props.C54_index_lost_fails",
    "Ddl.Props.C54_retry_fails",
    "Ddl.Props.C54_mysql_retry"
   ],
   "note": "Under the hypotheses of C03 (PostgreSQL) and C51-C53, and if the server reads each printed statement as what it was printed from; success without the new schema and the new schema without success are both shown possible otherwise"
  },
  {
   "property": "C55",
   "status": "partial",
   "theorems": [
    "Ddl.Props.C55_postgres_partial",
    "Ddl.Props.C55_postgres_all_partial",
    "Ddl.Props.C55_postgres_nul_fails",
    "Ddl.Props.C55_postgres_semicolon_fails",
    "Ddl.Props.C55_cockroachdb_partial",
    "Ddl.Props.C55_cockroachdb_all_partial",
    "Ddl.Props.C55_cockroachdb_nul_fails",
    "Ddl.Props.C55_cockroachdb_semicolon_fails",
    "Ddl.Props.C55_mysql_partial",
    "Ddl.Props.C55_mysql_all_partial",
    "Ddl.Props.C55_mysql_nul_fails",
    "Ddl.Props.C55_mysql_semicolon_fails",
    "Ddl.Props.C55_spanner_partial",
    "Ddl.Props.C55_spanner_all_partial",
    "Ddl.Props.C55_spanner_nul_fails",
    "Ddl.Props.C55_spanner_semicolon_fails"
   ],
   "note": "All four dialects, two texts (statements and errors) and any number of texts. Missing: first texts with the byte 0 (refuted by C55_*_nul_fails) and second texts that panic. The converse is refuted by C55_*_semicolon_fails."
  },
  {
   "property": "C56",
   "status": "partial",
   "theorems": [
    "Ddl.Props.C56_postgres_partial",
    "Ddl.Props.C56_cockroachdb_partial",
    "Ddl.Props.C56_mysql_partial",
    "Ddl.Props.C56_spanner_partial",
    "Ddl.Props.C56_diff_partial",
    "Ddl.Props.C56_postgres_fails",
    "Ddl.Props.C56_cockroachdb_fails",
    "Ddl.Props.C56_mysql_fails",
    "Ddl.Props.C56_spanner_fails",
    "Ddl.Props.C56_comment_fails"
   ],
   "note": "All four dialects, and through the diff command. Missing: annotations that are not complete SQL by themselves (open quotes, or ending within a comment; C56_comment_fails). C56_<dialect>_fails lists annotations that generate accepts and the parser of the same dialect refuses."
  },
  {
   "property": "C57",
   "status": "partial",
   "theorems": [
    "Ddl.Props.C57_mysql_partial",
    "Ddl.Props.C57_mysql_backquote_fails",
    "Ddl.Props.C57_mysql_unread_fails",
    "Ddl.Props.C57_cockroachdb_partial",
    "Ddl.Props.C57_cockroachdb_foreign_key_fails",
    "Ddl.Props.C57_cockroachdb_unread_fails",
    "Ddl.Props.C57_cockroachdb_dropped_fails"
   ],
   "note": "Fails for names with a backquote and unreadable types (MySQL), foreign keys and several types (CockroachDB); CockroachDB tables are shown with their schema and are then dropped by the migration."
  },
  {
   "property": "C58",
   "status": "partial",
   "theorems": [
    "Ddl.Props.C58_postgres_seen",
    "Ddl.Props.C58_postgres_partial",
    "Ddl.Props.C58_postgres_foreign_key_fails",
    "Ddl.Props.C58_postgres_other_schema_fails",
    "Ddl.Props.C58_postgres_lost_fails",
    "Ddl.Props.C58_postgres_types_fails",
    "Ddl.Props.C58_postgres_quotes_fails",
    "Ddl.Props.C58_postgres_empty_fails",
    "Ddl.Props.C58_postgres_index_fails",
    "Ddl.Props.C58_postgres_dropped_fails"
   ],
   "note": "Holds for databases without foreign keys, check constraints, precisions and views, with names that need no quotes and types the parser knows; C58_postgres_partial is an equivalence, so it fails for all others of them. The text is read as seen db when there is no foreign key, and refused when there is one."
  },
  {
   "property": "C59",
   "status": "partial",
   "theorems": [
    "Ddl.Props.C59_cockroachdb_partial",
    "Ddl.Props.C59_mysql_partial",
    "Ddl.Props.C59_spanner_partial",
    "Ddl.Props.C59_cockroachdb_visibility_fails",
    "Ddl.Props.C59_cockroachdb_computed_fails",
    "Ddl.Props.C59_cockroachdb_hidden_fails",
    "Ddl.Props.C59_cockroachdb_quoted_fails",
    "Ddl.Props.C59_mysql_action_fails",
    "Ddl.Props.C59_mysql_option_fails",
    "Ddl.Props.C59_mysql_method_fails",
    "Ddl.Props.C59_mysql_quoted_fails",
    "Ddl.Props.C59_spanner_method_fails",
    "Ddl.Props.C59_spanner_quoted_fails",
    "Ddl.Props.C59_spanner_primary_key_fails"
   ],
   "note": "Equivalence for each of the three dialects, for schemas with unambiguous texts: no difference just if every table and index has an alike one on the other side. Parts of definitions that are not compared (visibility and computation of columns, foreign key actions, removed options, index methods) are left out of alike and refuted by witnesses."
  },
  {
   "property": "C60",
   "status": "partial",
   "theorems": [
    "Ddl.Props.C60_success",
    "Ddl.Props.C60_written",
    "Ddl.Props.C60_read_partial",
    "Ddl.Props.C60_diff_partial",
    "Ddl.Props.C60_failure_partial",
    "Ddl.Props.C60_failure_fails",
    "Ddl.Props.C60_diff_file_fails",
    "Ddl.Props.C60_nothing"
   ],
   "note": "A failed run empties the destination (C60_failure_fails), and diff reads a single Go file as SQL (C60_diff_file_fails)"
  },
  {
   "property": "C61",
   "status": "proved",
   "theorems": [
    "Ddl.Props.C61_success",
    "Ddl.Props.C61_failure",
    "Ddl.Props.C61_diff"
   ],
   "note": "The contents of the text are C47, C57 and C58"
  },
  {
   "property": "C62",
   "status": "partial",
   "theorems": [
    "Ddl.Props.C62_postgres_partial",
    "Ddl.Props.C62_postgres_skips_fails",
    "Ddl.Props.C62_postgres_order_fails",
    "Ddl.Props.C62_postgres_constraints_fails",
    "Ddl.Props.C62_mysql_partial",
    "Ddl.Props.C62_mysql_skips_fails",
    "Ddl.Props.C62_mysql_order_fails",
    "Ddl.Props.C62_cockroachdb_partial",
    "Ddl.Props.C62_cockroachdb_skips_fails",
    "Ddl.Props.C62_cockroachdb_order_fails",
    "Ddl.Props.C62_cockroachdb_constraints_fails",
    "Ddl.Props.C62_spanner_partial",
    "Ddl.Props.C62_spanner_skips_fails",
    "Ddl.Props.C62_spanner_order_fails",
    "Ddl.Props.C62_spanner_constraints_fails"
   ],
   "note": "All four dialects; of constraints with equal names the last one counts. Missing in the grammars: column-level CHECK or REFERENCES not followed by another column (the parser skips a token, refuted), attributes behind constraints and most attributes behind DEFAULT (refuted), some table constraints (refuted), for CockroachDB and MySQL something else with the name of a primary key."
  },
  {
   "property": "C63",
   "status": "partial",
   "theorems": [
    "Ddl.Props.C63_postgres_partial",
    "Ddl.Props.C63_postgres_same_partial",
    "Ddl.Props.C63_postgres_again_partial",
    "Ddl.Props.C63_postgres_key_fails",
    "Ddl.Props.C63_cockroachdb_partial",
    "Ddl.Props.C63_cockroachdb_same_partial",
    "Ddl.Props.C63_cockroachdb_again_partial",
    "Ddl.Props.C63_cockroachdb_key_fails",
    "Ddl.Props.C63_cockroachdb_index_fails",
    "Ddl.Props.C63_mysql_partial",
    "Ddl.Props.C63_mysql_same_partial",
    "Ddl.Props.C63_mysql_again_partial",
    "Ddl.Props.C63_mysql_key_fails",
    "Ddl.Props.C63_mysql_index_fails",
    "Ddl.Props.C63_spanner_partial",
    "Ddl.Props.C63_spanner_again_partial"
   ],
   "note": "All four dialects: for schemas that create the same database, no difference is equivalent to writing NOT NULL alike and (CockroachDB, MySQL) indexes at the same places; for Spanner there is never a difference. The _same_partial theorems have the direction to 'no difference' without any condition on the texts. A second run of apply after a run as in C54 prints 'no difference' and sends nothing. Refuted for primary key columns with and without NOT NULL and for inline indexes."
  },
  {
   "property": "C64",
   "status": "partial",
   "theorems": [
    "Ddl.Props.C64_postgres_partial",
    "Ddl.Props.C64_cockroachdb_partial",
    "Ddl.Props.C64_mysql_partial",
    "Ddl.Props.C64_spanner_partial",
    "Ddl.Props.C64_postgres_unqualified_fails",
    "Ddl.Props.C64_cockroachdb_unqualified_fails",
    "Ddl.Props.C64_postgres_check_fails",
    "Ddl.Props.C64_cockroachdb_rowid_fails",
    "Ddl.Props.C64_mysql_default_fails",
    "Ddl.Props.C64_spanner_descending_fails",
    "Ddl.Props.C64_spanner_parent_fails",
    "Ddl.Props.C64_spanner_indexes_fails",
    "Ddl.Props.C64_spanner_checks_fails"
   ],
   "note": "Databases that can be shown (C47, C57, C58) and schemas written as in C63; the violations are proved, two of them for all databases and schemas."
  },
  {
   "property": "C65",
   "status": "proved",
   "theorems": [
    "Ddl.Props.C65_postgres",
    "Ddl.Props.C65_cockroachdb",
    "Ddl.Props.C65_mysql",
    "Ddl.Props.C65_spanner",
    "Ddl.Props.C65_postgres_skipped_fails",
    "Ddl.Props.C65_cockroachdb_skipped_fails",
    "Ddl.Props.C65_mysql_skipped_fails",
    "Ddl.Props.C65_spanner_skipped_fails",
    "Ddl.Props.C65_statements_fails"
   ],
   "note": "Every token of an accepted text belongs to a phrase that stands for its part of the syntax tree; the exceptions are part of the statement, and the _fails theorems show they occur."
  },
  {
   "property": "C66",
   "status": "partial",
   "theorems": [
    "Ddl.Props.C66_postgres",
    "Ddl.Props.C66_cockroachdb",
    "Ddl.Props.C66_mysql",
    "Ddl.Props.C66_spanner_partial",
    "Ddl.Props.C66_spanner_exact",
    "Ddl.Props.C66_spanner_fails"
   ],
   "note": "Proved for PostgreSQL, CockroachDB and MySQL. Spanner: an unnamed CHECK crashes the comparison (C66_spanner_fails); C66_spanner_exact says for which pairs."
  },
  {
   "property": "C67",
   "status": "partial",
   "theorems": [
    "Ddl.Props.C67_ends",
    "Ddl.Props.C67_apply",
    "Ddl.Props.C67_diff",
    "Ddl.Props.C67_show",
    "Ddl.Props.C67_generate",
    "Ddl.Props.C67_no_crash",
    "Ddl.Props.C67_arguments_partial",
    "Ddl.Props.C67_arguments_fails",
    "Ddl.Props.C67_crash_fails"
   ],
   "note": "Status 0 is characterised for every command, every run ends, diff and apply do not crash on readable sources. Missing: show and generate crash without arguments (C67_arguments_fails); texts with open quotes and unnamed CHECKs crash diff and apply (C67_crash_fails). What the option parser makes of os.Args is an input."
  },
  {
   "property": "C68",
   "status": "partial",
   "theorems": [
    "Ddl.Props.C68_postgres_undo_partial",
    "Ddl.Props.C68_postgres_path_partial",
    "Ddl.Props.C68_postgres_undo_fails",
    "Ddl.Props.C68_postgres_path_fails",
    "Ddl.Props.C68_cockroachdb_undo_partial",
    "Ddl.Props.C68_cockroachdb_path_partial",
    "Ddl.Props.C68_cockroachdb_undo_fails",
    "Ddl.Props.C68_cockroachdb_path_fails",
    "Ddl.Props.C68_mysql_undo_partial",
    "Ddl.Props.C68_mysql_path_partial",
    "Ddl.Props.C68_mysql_undo_fails",
    "Ddl.Props.C68_mysql_path_fails",
    "Ddl.Props.C68_spanner_undo_partial",
    "Ddl.Props.C68_spanner_path_partial",
    "Ddl.Props.C68_spanner_undo_fails",
    "Ddl.Props.C68_spanner_path_fails"
   ],
   "note": "Undone and AnyPath are proved for every dialect where the changes are not among the excluded ones (NoHazard, Way), in the directions needed; the code violates the full claim, witnesses C68_*_undo_fails and C68_*_path_fails"
  },
  {
   "property": "C69",
   "status": "partial",
   "theorems": [
    "Ddl.Props.C69_postgres_partial",
    "Ddl.Props.C69_postgres_unchanged_partial",
    "Ddl.Props.C69_postgres_fails",
    "Ddl.Props.C69_cockroachdb_partial",
    "Ddl.Props.C69_cockroachdb_unchanged_partial",
    "Ddl.Props.C69_cockroachdb_fails",
    "Ddl.Props.C69_mysql_partial",
    "Ddl.Props.C69_mysql_unchanged_partial",
    "Ddl.Props.C69_mysql_fails",
    "Ddl.Props.C69_spanner_partial",
    "Ddl.Props.C69_spanner_unchanged_partial",
    "Ddl.Props.C69_spanner_fails"
   ],
   "note": "Proved for all four dialects and every interleaving, if no table or index is defined twice in the old schema and different schemas and parts are printed differently. Violated if a table is defined twice (C69_..._fails)."
  },
  {
   "property": "C70",
   "status": "partial",
   "theorems": [
    "Ddl.Props.C70_documented",
    "Ddl.Props.C70_nothing_else",
    "Ddl.Props.C70_approval",
    "Ddl.Props.C70_no_dialect_partial",
    "Ddl.Props.C70_no_dialect_fails"
   ],
   "note": "Settings, their independence of anything else, and approval are proved. Without a dialect no command succeeds, prints, writes or sends anything; violated in that generate empties its destination first (C70_no_dialect_fails)."
  },
  {
   "property": "C71",
   "status": "partial",
   "theorems": [
    "Ddl.Props.C71_postgres_partial",
    "Ddl.Props.C71_postgres_fails",
    "Ddl.Props.C71_cockroachdb_partial",
    "Ddl.Props.C71_cockroachdb_fails",
    "Ddl.Props.C71_mysql_partial",
    "Ddl.Props.C71_mysql_fails",
    "Ddl.Props.C71_spanner_partial",
    "Ddl.Props.C71_spanner_fails"
   ],
   "note": "Proved for all four dialects and all permutations of both schemas, if no table or index is defined twice and different schemas are printed differently. Violated if the new schema defines a table twice (C71_..._fails)."
  },
  {
   "property": "C72",
   "status": "partial",
   "theorems": [
    "Ddl.Props.C72_postgres_partial",
    "Ddl.Props.C72_cockroachdb_partial",
    "Ddl.Props.C72_mysql_partial",
    "Ddl.Props.C72_spanner_partial",
    "Ddl.Props.C72_refused_fails"
   ],
   "note": "Proved for all four dialects by composing C56 with C03 and C51-C54: a directory of annotated Go sources is resolved to a text that is read like the statements written by hand, and apply brings the server to their schema. Missing: what is missing in those properties. The claim that a generated text is never refused is violated (C72_refused_fails)."
  },
  {
   "property": "C73",
   "status": "partial",
   "theorems": [
    "Ddl.Props.C73_postgres_partial",
    "Ddl.Props.C73_cockroachdb_partial",
    "Ddl.Props.C73_mysql_partial",
    "Ddl.Props.C73_spanner_partial",
    "Ddl.Props.C73_hidden_fails",
    "Ddl.Props.C73_option_fails",
    "Ddl.Props.C73_default_fails",
    "Ddl.Props.C73_twice_fails"
   ],
   "note": "Symmetric for PostgreSQL and Spanner schemas with distinct names and valued defaults; for CockroachDB and MySQL if no hidden virtual column / table option is gone. The other cases are violations with witnesses."
  },
  {
   "property": "C74",
   "status": "proved",
   "theorems": [
    "Ddl.Props.C74_postgres",
    "Ddl.Props.C74_cockroachdb",
    "Ddl.Props.C74_mysql",
    "Ddl.Props.C74_spanner"
   ],
   "note": "for every pair of tables, nil included, in all four dialects"
  },
  {
   "property": "C75",
   "status": "partial",
   "theorems": [
    "Ddl.Props.C75_postgres",
    "Ddl.Props.C75_cockroachdb",
    "Ddl.Props.C75_mysql_partial",
    "Ddl.Props.C75_spanner_partial",
    "Ddl.Props.C75_mysql_fails",
    "Ddl.Props.C75_spanner_fails"
   ],
   "note": "PostgreSQL and CockroachDB in full. Missing: MySQL tables moved to another schema (the rest names indexes in the old schema, C75_mysql_fails), Spanner tables with an unnamed CHECK (C75_spanner_fails)"
  },
  {
   "property": "C76",
   "status": "partial",
   "theorems": [
    "Ddl.Props.C76_postgres",
    "Ddl.Props.C76_cockroachdb_partial",
    "Ddl.Props.C76_cockroachdb_fails",
    "Ddl.Props.C76_mysql_partial",
    "Ddl.Props.C76_mysql_fails",
    "Ddl.Props.C76_spanner",
    "Ddl.Props.C76_cockroachdb_kind_fails",
    "Ddl.Props.C76_mysql_kind_fails"
   ],
   "note": "Proved for PostgreSQL and Spanner, for schemas in which no table, index or column is defined twice. For CockroachDB and MySQL partial: names of indexes declared inside tables must be different from each other and from other index names, and no constraint becomes an index; each condition is needed (the _fails theorems). sd (the text of a difference) is arbitrary."
  },
  {
   "property": "C77",
   "status": "partial",
   "theorems": [
    "Ddl.Props.C77_postgres",
    "Ddl.Props.C77_cockroachdb_partial",
    "Ddl.Props.C77_cockroachdb_fails",
    "Ddl.Props.C77_cockroachdb_kind_fails",
    "Ddl.Props.C77_mysql_partial",
    "Ddl.Props.C77_mysql_fails",
    "Ddl.Props.C77_mysql_kind_fails",
    "Ddl.Props.C77_spanner"
   ],
   "note": "Proved for PostgreSQL and Spanner, for schemas in which no table, index or column is defined twice. For CockroachDB and MySQL partial: names of indexes declared inside tables are unique, an index of both schemas is in the same place in both, no constraint becomes an index (both needed, see the _fails theorems); MySQL: tables of equal names have equal schemas, and options are not repeated."
  },
  {
   "property": "C78",
   "status": "proved",
   "theorems": [
    "Ddl.Props.C78_postgres",
    "Ddl.Props.C78_cockroachdb",
    "Ddl.Props.C78_mysql",
    "Ddl.Props.C78_spanner"
   ],
   "note": "All dialects, all inputs, no hypotheses: the text of simplediff is an arbitrary function."
  },
  {
   "property": "C79",
   "status": "partial",
   "theorems": [
    "Ddl.Props.C79_postgres",
    "Ddl.Props.C79_spanner",
    "Ddl.Props.C79_cockroachdb_partial",
    "Ddl.Props.C79_cockroachdb_fails",
    "Ddl.Props.C79_cockroachdb_constraint_fails",
    "Ddl.Props.C79_mysql_partial",
    "Ddl.Props.C79_mysql_fails",
    "Ddl.Props.C79_mysql_constraint_fails",
    "Ddl.Props.C79_mysql_character_set_fails"
   ],
   "note": "Proved for PostgreSQL and Spanner without hypotheses. For CockroachDB and MySQL partial: no constraint becomes an index and no index another constraint; MySQL: without the character set of a column. Each condition is needed, see the _fails theorems."
  },
  {
   "property": "C80",
   "status": "proved",
   "theorems": [
    "Ddl.Props.C80_generate"
   ],
   "note": "All inputs; the condition for Spanner (no tagged keys) is part of the statement."
  },
  {
   "property": "C81",
   "status": "proved",
   "theorems": [
    "Ddl.Props.C81_postgres",
    "Ddl.Props.C81_cockroachdb",
    "Ddl.Props.C81_mysql",
    "Ddl.Props.C81_spanner"
   ],
   "note": "for tables with different texts; names of tables in the new schema, and of columns in the new table, are unique. Gone MySQL table options are not answered (C73)."
  }
 ]
}
