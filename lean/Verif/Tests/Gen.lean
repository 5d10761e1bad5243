import Verif.Generator

/-!
# The golden files of the generator, run on the model

The syntax trees of `pkg/internal/generator/dialect/*/integrationtest_go_001.source` (what Go's parser and
`ast.NewCommentMap` make of these files is written down by hand), the expected texts `integrationtest_go_001.golden`, and the
tables of `TestFprint` in `postgres_test.go`, `mysql_test.go`, `spanner_test.go`.  These are tests, not proofs.
-/

set_option maxRecDepth 20000

namespace Ddl.Tests.Gen
open Ddl Gen

/-- `strconv.Unquote` of a text without escapes. -/
def unquote (s : Str) : Option Str := some ((s.drop 1).dropLast)

/-- The table of `TestFprint`, the same in the three files: `postgres_test.go:22-76`. -/
def spans : Table :=
  { sourceFile := [], sourceLine := 0, comments := [s%"Spans is Spanner test table."], createTable := s%"CREATE TABLE Spans"
    columns := [
      ⟨[s%"Id is Spans's Id."], s%"Id", s%"STRING(64) NOT NULL"⟩,
      ⟨[s%"Name is Spans's Name."], s%"Name", s%"STRING(100) NOT NULL"⟩,
      ⟨[], s%"Number", s%"INT64 NOT NULL"⟩,
      ⟨[s%"Description is Spans's Description."], s%"Description", s%"STRING(1024) NOT NULL"⟩,
      ⟨[s%"CreatedAt is Spans's CreatedAt."], s%"CreatedAt", s%"TIMESTAMP NOT NULL OPTIONS (allow_commit_timestamp=true)"⟩,
      ⟨[s%"UpdatedAt is Spans's UpdatedAt."], s%"UpdatedAt", s%"TIMESTAMP NOT NULL OPTIONS (allow_commit_timestamp=true)"⟩]
    constraints := [
      ⟨[], s%"CONSTRAINT NumberGteZero CHECK(Number >= 0)"⟩,
      ⟨[s%"CREATE TABLE CONSTRAINT COMMENT"], s%"CONSTRAINT CreateBeforeUpdate CHECK(CreatedAt <= UpdatedAt)"⟩]
    options := [
      ⟨[], s%"PRIMARY KEY (Id)"⟩,
      ⟨[s%"CREATE TABLE OPTION COMMENT: If SpanParents record is deleted, Spans record is deleted."],
        s%"INTERLEAVE IN PARENT SpanParents ON DELETE CASCADE"⟩]
    primaryKey := [] }

def postgresNodes : List Node := [
  ⟨[[⟨s%"// UserID is a user ID.", 10⟩]],
    []⟩,
  ⟨[[⟨s%"// Name is a user name.", 12⟩]],
    []⟩,
  ⟨[[⟨s%"// Email is a user email.", 14⟩]],
    []⟩,
  ⟨[[⟨s%"// Age is a user age.", 16⟩]],
    []⟩,
  ⟨[[⟨s%"// Ignore is a ignore field.", 18⟩]],
    []⟩,
  ⟨[[⟨s%"// User is a user.", 4⟩, ⟨s%"//", 5⟩, ⟨s%"// pgddl:      table: \"users\"", 6⟩, ⟨s%"// pgddl: constraint: UNIQUE(\"name\")", 7⟩, ⟨s%"// pgddl:      index: CREATE INDEX \"index_users_by_name\" ON \"users\" (\"name\")", 8⟩]],
    [(s%"User", some [⟨[s%"UserID"], some s%"`dbtest:\"user_id\" pgddl:\"TEXT    NOT NULL\" pkey:\"true\"`", [s%"UserID is a user ID."]⟩,
      ⟨[s%"Name"], some s%"`dbtest:\"name\"    pgddl:\"TEXT    NOT NULL\"`", [s%"Name is a user name."]⟩,
      ⟨[s%"Email"], some s%"`dbtest:\"email\"   pgddl:\"TEXT    NOT NULL\"`", [s%"Email is a user email."]⟩,
      ⟨[s%"Age"], some s%"`dbtest:\"age\"     pgddl:\"INTEGER NOT NULL\"`", [s%"Age is a user age."]⟩,
      ⟨[s%"Ignore"], some s%"`dbtest:\"-\"       pgddl:\"-\"`", [s%"Ignore is a ignore field."]⟩])]⟩,
  ⟨[[⟨s%"// Users is a user array.", 22⟩, ⟨s%"// This type is expected not to be detected.", 23⟩, ⟨s%"//", 24⟩, ⟨s%"// pgddl: table: \"user_arrays\"", 25⟩]],
    [(s%"Users", none)]⟩,
  ⟨[[⟨s%"// ID is a group ID.", 32⟩]],
    []⟩,
  ⟨[[⟨s%"// Name is a group name.", 34⟩]],
    []⟩,
  ⟨[[⟨s%"// UserGroup is a user group.", 28⟩, ⟨s%"//", 29⟩, ⟨s%"// pgddl:table:", 30⟩]],
    [(s%"UserGroup", some [⟨[s%"ID"], some s%"`dbtest:\"id\"   pgddl:\"TEXT NOT NULL\"`", [s%"ID is a group ID."]⟩,
      ⟨[s%"Name"], some s%"`dbtest:\"name\" pgddl:\"TEXT NOT NULL\"`", [s%"Name is a group name."]⟩])]⟩,
  ⟨[[⟨s%"// ID is a author ID.", 41⟩]],
    []⟩,
  ⟨[[⟨s%"// Name is a author name.", 43⟩]],
    []⟩,
  ⟨[[⟨s%"// Author is a author.", 38⟩, ⟨s%"// pgddl:", 39⟩]],
    [(s%"Author", some [⟨[s%"AuthorID"], some s%"`dbtest:\"id\"     pgddl:\"TEXT NOT NULL\"`", [s%"ID is a author ID."]⟩,
      ⟨[s%"Name"], some s%"`dbtest:\"name\"   pgddl:\"TEXT NOT NULL\"`", [s%"Name is a author name."]⟩])]⟩,
  ⟨[[⟨s%"// AuthorID is a book author.", 51⟩]],
    []⟩,
  ⟨[[⟨s%"// ID is a book ID.", 53⟩]],
    []⟩,
  ⟨[[⟨s%"// Title is a book title.", 55⟩]],
    []⟩,
  ⟨[[⟨s%"// Book is a book.", 47⟩, ⟨s%"//", 48⟩, ⟨s%"// pgddl:table:\"books\"", 49⟩]],
    [(s%"Book", some [⟨[s%"AuthorID"], some s%"`pgddl:\"TEXT NOT NULL\" pkey:\"true\"`", [s%"AuthorID is a book author."]⟩,
      ⟨[s%"ID"], some s%"`pgddl:\"TEXT NOT NULL\" pkey:\"true\"`", [s%"ID is a book ID."]⟩,
      ⟨[s%"Title"], some s%"`pgddl:\"TEXT NOT NULL\"`", [s%"Title is a book title."]⟩])]⟩,
  ⟨[[⟨s%"// ID is a store ID.", 62⟩]],
    []⟩,
  ⟨[[⟨s%"// Name is a store name.", 64⟩]],
    []⟩,
  ⟨[[⟨s%"// Store", 59⟩, ⟨s%"// pgddl: table: CREATE TABLE \"stores\"", 60⟩]],
    [(s%"Store", some [⟨[s%"ID"], some s%"`dbtest:\"id\" pkey:\"false\"`", [s%"ID is a store ID."]⟩,
      ⟨[s%"Name"], some s%"`dbtest:\"name\"`", [s%"Name is a store name."]⟩])]⟩,
  ⟨[[⟨s%"// pgddl: index: \"index_books_by_title\" ON \"books\" (\"Title\")", 69⟩]],
    []⟩]

def postgresGolden : Str :=
  s%"-- Code generated by ddlctl. DO NOT EDIT.\n" ++
  s%"--\n" ++
  s%"\n" ++
  s%"-- source: postgres/integrationtest_go_001.source:6\n" ++
  s%"-- User is a user.\n" ++
  s%"--\n" ++
  s%"-- pgddl:      table: \"users\"\n" ++
  s%"-- pgddl: constraint: UNIQUE(\"name\")\n" ++
  s%"-- NOTE: the \"User\" struct's \"Ignore\" field has a tag for column name (`dbtest:\"-\"`), so the field is ignored.\n" ++
  s%"CREATE TABLE \"users\" (\n" ++
  s%"    -- UserID is a user ID.\n" ++
  s%"    \"user_id\" TEXT    NOT NULL,\n" ++
  s%"    -- Name is a user name.\n" ++
  s%"    \"name\"    TEXT    NOT NULL,\n" ++
  s%"    -- Email is a user email.\n" ++
  s%"    \"email\"   TEXT    NOT NULL,\n" ++
  s%"    -- Age is a user age.\n" ++
  s%"    \"age\"     INTEGER NOT NULL,\n" ++
  s%"    PRIMARY KEY (\"user_id\"),\n" ++
  s%"    UNIQUE(\"name\")\n" ++
  s%");\n" ++
  s%"\n" ++
  s%"-- source: postgres/integrationtest_go_001.source:8\n" ++
  s%"-- pgddl:      index: CREATE INDEX \"index_users_by_name\" ON \"users\" (\"name\")\n" ++
  s%"CREATE INDEX \"index_users_by_name\" ON \"users\" (\"name\");\n" ++
  s%"\n" ++
  s%"-- source: postgres/integrationtest_go_001.source:30\n" ++
  s%"-- UserGroup is a user group.\n" ++
  s%"--\n" ++
  s%"-- pgddl:table:\n" ++
  s%"-- WARN: the comment (postgres/integrationtest_go_001.source:28) does not have a key for table (pgddl: table: CREATE TABLE <table>), so the struct name \"UserGroup\" is used as the table name.\n" ++
  s%"CREATE TABLE UserGroup (\n" ++
  s%"    -- ID is a group ID.\n" ++
  s%"    \"id\"   TEXT NOT NULL,\n" ++
  s%"    -- Name is a group name.\n" ++
  s%"    \"name\" TEXT NOT NULL\n" ++
  s%");\n" ++
  s%"\n" ++
  s%"-- source: postgres/integrationtest_go_001.source:39\n" ++
  s%"-- Author is a author.\n" ++
  s%"-- pgddl:\n" ++
  s%"-- WARN: the comment (postgres/integrationtest_go_001.source:38) does not have a key for table (pgddl: table: CREATE TABLE <table>), so the struct name \"Author\" is used as the table name.\n" ++
  s%"CREATE TABLE Author (\n" ++
  s%"    -- ID is a author ID.\n" ++
  s%"    \"id\"   TEXT NOT NULL,\n" ++
  s%"    -- Name is a author name.\n" ++
  s%"    \"name\" TEXT NOT NULL\n" ++
  s%");\n" ++
  s%"\n" ++
  s%"-- source: postgres/integrationtest_go_001.source:49\n" ++
  s%"-- Book is a book.\n" ++
  s%"--\n" ++
  s%"-- pgddl:table:\"books\"\n" ++
  s%"CREATE TABLE \"books\" (\n" ++
  s%"    -- WARN: the \"Book\" struct's \"AuthorID\" field does not have a tag for column name (`dbtest:\"<ColumnName>\"`), so the field name \"AuthorID\" is used as the column name.\n" ++
  s%"    -- AuthorID is a book author.\n" ++
  s%"    \"AuthorID\" TEXT NOT NULL,\n" ++
  s%"    -- WARN: the \"Book\" struct's \"ID\" field does not have a tag for column name (`dbtest:\"<ColumnName>\"`), so the field name \"ID\" is used as the column name.\n" ++
  s%"    -- ID is a book ID.\n" ++
  s%"    \"ID\"       TEXT NOT NULL,\n" ++
  s%"    -- WARN: the \"Book\" struct's \"Title\" field does not have a tag for column name (`dbtest:\"<ColumnName>\"`), so the field name \"Title\" is used as the column name.\n" ++
  s%"    -- Title is a book title.\n" ++
  s%"    \"Title\"    TEXT NOT NULL,\n" ++
  s%"    PRIMARY KEY (\"AuthorID\", \"ID\")\n" ++
  s%");\n" ++
  s%"\n" ++
  s%"-- source: postgres/integrationtest_go_001.source:69\n" ++
  s%"-- pgddl: index: \"index_books_by_title\" ON \"books\" (\"Title\")\n" ++
  s%"CREATE INDEX \"index_books_by_title\" ON \"books\" (\"Title\");\n"

/-- `postgres/integrationtest_go_test.go`. -/
example : (match parse ⟨s%"dbtest", s%"pgddl", s%"pkey", id, unquote⟩ (.file ⟨s%"postgres/integrationtest_go_001.source", some postgresNodes⟩) with
    | .ok g => fprint id .postgres g
    | _ => []) = postgresGolden := by decide +kernel

def postgresExpected : Str :=
  s%"-- Code generated by ddlctl. DO NOT EDIT.\n" ++
  s%"--\n" ++
  s%"\n" ++
  s%"-- Spans is Spanner test table.\n" ++
  s%"CREATE TABLE Spans (\n" ++
  s%"    -- Id is Spans's Id.\n" ++
  s%"    \"Id\"          STRING(64) NOT NULL,\n" ++
  s%"    -- Name is Spans's Name.\n" ++
  s%"    \"Name\"        STRING(100) NOT NULL,\n" ++
  s%"    \"Number\"      INT64 NOT NULL,\n" ++
  s%"    -- Description is Spans's Description.\n" ++
  s%"    \"Description\" STRING(1024) NOT NULL,\n" ++
  s%"    -- CreatedAt is Spans's CreatedAt.\n" ++
  s%"    \"CreatedAt\"   TIMESTAMP NOT NULL OPTIONS (allow_commit_timestamp=true),\n" ++
  s%"    -- UpdatedAt is Spans's UpdatedAt.\n" ++
  s%"    \"UpdatedAt\"   TIMESTAMP NOT NULL OPTIONS (allow_commit_timestamp=true),\n" ++
  s%"    CONSTRAINT NumberGteZero CHECK(Number >= 0),\n" ++
  s%"    -- CREATE TABLE CONSTRAINT COMMENT\n" ++
  s%"    CONSTRAINT CreateBeforeUpdate CHECK(CreatedAt <= UpdatedAt)\n" ++
  s%")\n" ++
  s%"PRIMARY KEY (Id),\n" ++
  s%"-- CREATE TABLE OPTION COMMENT: If SpanParents record is deleted, Spans record is deleted.\n" ++
  s%"INTERLEAVE IN PARENT SpanParents ON DELETE CASCADE;\n"

/-- `TestFprint` of `postgres/postgres_test.go`. -/
example : fprint id .postgres (newDDL [.table spans]) = postgresExpected := by decide +kernel

def mysqlNodes : List Node := [
  ⟨[[⟨s%"// UserID is a user ID.", 10⟩]],
    []⟩,
  ⟨[[⟨s%"// Name is a user name.", 12⟩]],
    []⟩,
  ⟨[[⟨s%"// Email is a user email.", 14⟩]],
    []⟩,
  ⟨[[⟨s%"// Age is a user age.", 16⟩]],
    []⟩,
  ⟨[[⟨s%"// Ignore is a ignore field.", 18⟩]],
    []⟩,
  ⟨[[⟨s%"// User is a user.", 4⟩, ⟨s%"//", 5⟩, ⟨s%"// myddl:      table: `users`", 6⟩, ⟨s%"// myddl: constraint: UNIQUE KEY `users_unique_name` (`name`)", 7⟩, ⟨s%"// myddl:      index: CREATE INDEX `index_users_by_name` ON `users` (`name`)", 8⟩]],
    [(s%"User", some [⟨[s%"UserID"], some s%"`dbtest:\"user_id\" myddl:\"VARCHAR(36)  NOT NULL\" pkey:\"true\"`", [s%"UserID is a user ID."]⟩,
      ⟨[s%"Name"], some s%"`dbtest:\"name\"    myddl:\"VARCHAR(255) NOT NULL\"`", [s%"Name is a user name."]⟩,
      ⟨[s%"Email"], some s%"`dbtest:\"email\"   myddl:\"VARCHAR(255) NOT NULL\"`", [s%"Email is a user email."]⟩,
      ⟨[s%"Age"], some s%"`dbtest:\"age\"     myddl:\"INT          NOT NULL\"`", [s%"Age is a user age."]⟩,
      ⟨[s%"Ignore"], some s%"`dbtest:\"-\"       myddl:\"-\"`", [s%"Ignore is a ignore field."]⟩])]⟩,
  ⟨[[⟨s%"// Users is a user array.", 22⟩, ⟨s%"// This type is expected not to be detected.", 23⟩, ⟨s%"//", 24⟩, ⟨s%"// myddl: table: `UserArrays`", 25⟩]],
    [(s%"Users", none)]⟩,
  ⟨[[⟨s%"// ID is a group ID.", 32⟩]],
    []⟩,
  ⟨[[⟨s%"// Name is a group name.", 34⟩]],
    []⟩,
  ⟨[[⟨s%"// UserGroup is a user group.", 28⟩, ⟨s%"//", 29⟩, ⟨s%"// myddl:table:", 30⟩]],
    [(s%"UserGroup", some [⟨[s%"ID"], some s%"`dbtest:\"id\"   myddl:\"VARCHAR(36)  NOT NULL\"`", [s%"ID is a group ID."]⟩,
      ⟨[s%"Name"], some s%"`dbtest:\"name\" myddl:\"VARCHAR(255) NOT NULL\"`", [s%"Name is a group name."]⟩])]⟩,
  ⟨[[⟨s%"// ID is a author ID.", 41⟩]],
    []⟩,
  ⟨[[⟨s%"// Name is a author name.", 43⟩]],
    []⟩,
  ⟨[[⟨s%"// Author is a author.", 38⟩, ⟨s%"// myddl:", 39⟩]],
    [(s%"Author", some [⟨[s%"AuthorID"], some s%"`dbtest:\"id\"   myddl:\"VARCHAR(36)  NOT NULL\"`", [s%"ID is a author ID."]⟩,
      ⟨[s%"Name"], some s%"`dbtest:\"name\" myddl:\"VARCHAR(255) NOT NULL\"`", [s%"Name is a author name."]⟩])]⟩,
  ⟨[[⟨s%"// AuthorID is a book author.", 51⟩]],
    []⟩,
  ⟨[[⟨s%"// ID is a book ID.", 53⟩]],
    []⟩,
  ⟨[[⟨s%"// Title is a book title.", 55⟩]],
    []⟩,
  ⟨[[⟨s%"// Book is a book.", 47⟩, ⟨s%"//", 48⟩, ⟨s%"// myddl:table:`books`", 49⟩]],
    [(s%"Book", some [⟨[s%"AuthorID"], some s%"`myddl:\"VARCHAR(255) NOT NULL\" pkey:\"true\"`", [s%"AuthorID is a book author."]⟩,
      ⟨[s%"ID"], some s%"`myddl:\"VARCHAR(36)  NOT NULL\" pkey:\"true\"`", [s%"ID is a book ID."]⟩,
      ⟨[s%"Title"], some s%"`myddl:\"VARCHAR(255) NOT NULL\"`", [s%"Title is a book title."]⟩])]⟩,
  ⟨[[⟨s%"// ID is a store ID.", 62⟩]],
    []⟩,
  ⟨[[⟨s%"// Name is a store name.", 64⟩]],
    []⟩,
  ⟨[[⟨s%"// Store", 59⟩, ⟨s%"// myddl: table: CREATE TABLE `stores`", 60⟩]],
    [(s%"Store", some [⟨[s%"ID"], some s%"`dbtest:\"id\" pkey:\"false\"`", [s%"ID is a store ID."]⟩,
      ⟨[s%"Name"], some s%"`dbtest:\"name\"`", [s%"Name is a store name."]⟩])]⟩,
  ⟨[[⟨s%"// myddl: index: `index_books_by_title` ON `books` (`title`)", 69⟩]],
    []⟩]

def mysqlGolden : Str :=
  s%"-- Code generated by ddlctl. DO NOT EDIT.\n" ++
  s%"--\n" ++
  s%"\n" ++
  s%"-- source: mysql/integrationtest_go_001.source:6\n" ++
  s%"-- User is a user.\n" ++
  s%"--\n" ++
  s%"-- myddl:      table: `users`\n" ++
  s%"-- myddl: constraint: UNIQUE KEY `users_unique_name` (`name`)\n" ++
  s%"-- NOTE: the \"User\" struct's \"Ignore\" field has a tag for column name (`dbtest:\"-\"`), so the field is ignored.\n" ++
  s%"CREATE TABLE `users` (\n" ++
  s%"    -- UserID is a user ID.\n" ++
  s%"    `user_id` VARCHAR(36)  NOT NULL,\n" ++
  s%"    -- Name is a user name.\n" ++
  s%"    `name`    VARCHAR(255) NOT NULL,\n" ++
  s%"    -- Email is a user email.\n" ++
  s%"    `email`   VARCHAR(255) NOT NULL,\n" ++
  s%"    -- Age is a user age.\n" ++
  s%"    `age`     INT          NOT NULL,\n" ++
  s%"    PRIMARY KEY (`user_id`),\n" ++
  s%"    UNIQUE KEY `users_unique_name` (`name`)\n" ++
  s%");\n" ++
  s%"\n" ++
  s%"-- source: mysql/integrationtest_go_001.source:8\n" ++
  s%"-- myddl:      index: CREATE INDEX `index_users_by_name` ON `users` (`name`)\n" ++
  s%"CREATE INDEX `index_users_by_name` ON `users` (`name`);\n" ++
  s%"\n" ++
  s%"-- source: mysql/integrationtest_go_001.source:30\n" ++
  s%"-- UserGroup is a user group.\n" ++
  s%"--\n" ++
  s%"-- myddl:table:\n" ++
  s%"-- WARN: the comment (mysql/integrationtest_go_001.source:28) does not have a key for table (myddl: table: CREATE TABLE <table>), so the struct name \"UserGroup\" is used as the table name.\n" ++
  s%"CREATE TABLE UserGroup (\n" ++
  s%"    -- ID is a group ID.\n" ++
  s%"    `id`   VARCHAR(36)  NOT NULL,\n" ++
  s%"    -- Name is a group name.\n" ++
  s%"    `name` VARCHAR(255) NOT NULL\n" ++
  s%");\n" ++
  s%"\n" ++
  s%"-- source: mysql/integrationtest_go_001.source:39\n" ++
  s%"-- Author is a author.\n" ++
  s%"-- myddl:\n" ++
  s%"-- WARN: the comment (mysql/integrationtest_go_001.source:38) does not have a key for table (myddl: table: CREATE TABLE <table>), so the struct name \"Author\" is used as the table name.\n" ++
  s%"CREATE TABLE Author (\n" ++
  s%"    -- ID is a author ID.\n" ++
  s%"    `id`   VARCHAR(36)  NOT NULL,\n" ++
  s%"    -- Name is a author name.\n" ++
  s%"    `name` VARCHAR(255) NOT NULL\n" ++
  s%");\n" ++
  s%"\n" ++
  s%"-- source: mysql/integrationtest_go_001.source:49\n" ++
  s%"-- Book is a book.\n" ++
  s%"--\n" ++
  s%"-- myddl:table:`books`\n" ++
  s%"CREATE TABLE `books` (\n" ++
  s%"    -- WARN: the \"Book\" struct's \"AuthorID\" field does not have a tag for column name (`dbtest:\"<ColumnName>\"`), so the field name \"AuthorID\" is used as the column name.\n" ++
  s%"    -- AuthorID is a book author.\n" ++
  s%"    `AuthorID` VARCHAR(255) NOT NULL,\n" ++
  s%"    -- WARN: the \"Book\" struct's \"ID\" field does not have a tag for column name (`dbtest:\"<ColumnName>\"`), so the field name \"ID\" is used as the column name.\n" ++
  s%"    -- ID is a book ID.\n" ++
  s%"    `ID`       VARCHAR(36)  NOT NULL,\n" ++
  s%"    -- WARN: the \"Book\" struct's \"Title\" field does not have a tag for column name (`dbtest:\"<ColumnName>\"`), so the field name \"Title\" is used as the column name.\n" ++
  s%"    -- Title is a book title.\n" ++
  s%"    `Title`    VARCHAR(255) NOT NULL,\n" ++
  s%"    PRIMARY KEY (`AuthorID`, `ID`)\n" ++
  s%");\n" ++
  s%"\n" ++
  s%"-- source: mysql/integrationtest_go_001.source:69\n" ++
  s%"-- myddl: index: `index_books_by_title` ON `books` (`title`)\n" ++
  s%"CREATE INDEX `index_books_by_title` ON `books` (`title`);\n"

/-- `mysql/integrationtest_go_test.go`. -/
example : (match parse ⟨s%"dbtest", s%"myddl", s%"pkey", id, unquote⟩ (.file ⟨s%"mysql/integrationtest_go_001.source", some mysqlNodes⟩) with
    | .ok g => fprint id .mysql g
    | _ => []) = mysqlGolden := by decide +kernel

def mysqlExpected : Str :=
  s%"-- Code generated by ddlctl. DO NOT EDIT.\n" ++
  s%"--\n" ++
  s%"\n" ++
  s%"-- Spans is Spanner test table.\n" ++
  s%"CREATE TABLE Spans (\n" ++
  s%"    -- Id is Spans's Id.\n" ++
  s%"    `Id`          STRING(64) NOT NULL,\n" ++
  s%"    -- Name is Spans's Name.\n" ++
  s%"    `Name`        STRING(100) NOT NULL,\n" ++
  s%"    `Number`      INT64 NOT NULL,\n" ++
  s%"    -- Description is Spans's Description.\n" ++
  s%"    `Description` STRING(1024) NOT NULL,\n" ++
  s%"    -- CreatedAt is Spans's CreatedAt.\n" ++
  s%"    `CreatedAt`   TIMESTAMP NOT NULL OPTIONS (allow_commit_timestamp=true),\n" ++
  s%"    -- UpdatedAt is Spans's UpdatedAt.\n" ++
  s%"    `UpdatedAt`   TIMESTAMP NOT NULL OPTIONS (allow_commit_timestamp=true),\n" ++
  s%"    CONSTRAINT NumberGteZero CHECK(Number >= 0),\n" ++
  s%"    -- CREATE TABLE CONSTRAINT COMMENT\n" ++
  s%"    CONSTRAINT CreateBeforeUpdate CHECK(CreatedAt <= UpdatedAt)\n" ++
  s%")\n" ++
  s%"PRIMARY KEY (Id),\n" ++
  s%"-- CREATE TABLE OPTION COMMENT: If SpanParents record is deleted, Spans record is deleted.\n" ++
  s%"INTERLEAVE IN PARENT SpanParents ON DELETE CASCADE;\n"

/-- `TestFprint` of `mysql/mysql_test.go`. -/
example : fprint id .mysql (newDDL [.table spans]) = mysqlExpected := by decide +kernel

def spannerNodes : List Node := [
  ⟨[[⟨s%"// UserID is a user ID.", 10⟩]],
    []⟩,
  ⟨[[⟨s%"// Name is a user name.", 12⟩]],
    []⟩,
  ⟨[[⟨s%"// Email is a user email.", 14⟩]],
    []⟩,
  ⟨[[⟨s%"// Age is a user age.", 16⟩]],
    []⟩,
  ⟨[[⟨s%"// Ignore is a ignore field.", 18⟩]],
    []⟩,
  ⟨[[⟨s%"// User is a user.", 4⟩, ⟨s%"//", 5⟩, ⟨s%"// spanddl:      table: `Users`", 6⟩, ⟨s%"// spanddl: constraint: CONSTRAINT AgeGTEZero CHECK(Age >= 0)", 7⟩, ⟨s%"// spanddl:      index: CREATE INDEX `IndexUsersByName` ON `Users` (`Name`)", 8⟩]],
    [(s%"User", some [⟨[s%"UserID"], some s%"`dbtest:\"UserId\" spanddl:\"STRING(36)  NOT NULL\" pkey:\"true\"`", [s%"UserID is a user ID."]⟩,
      ⟨[s%"Name"], some s%"`dbtest:\"Name\"   spanddl:\"STRING(255) NOT NULL\"`", [s%"Name is a user name."]⟩,
      ⟨[s%"Email"], some s%"`dbtest:\"Email\"  spanddl:\"STRING(255) NOT NULL\"`", [s%"Email is a user email."]⟩,
      ⟨[s%"Age"], some s%"`dbtest:\"Age\"    spanddl:\"INT64       NOT NULL\"`", [s%"Age is a user age."]⟩,
      ⟨[s%"Ignore"], some s%"`dbtest:\"-\"      spanddl:\"-\"`", [s%"Ignore is a ignore field."]⟩])]⟩,
  ⟨[[⟨s%"// Users is a user array.", 22⟩, ⟨s%"// This type is expected not to be detected.", 23⟩, ⟨s%"//", 24⟩, ⟨s%"// spanddl: table: `UserArrays`", 25⟩]],
    [(s%"Users", none)]⟩,
  ⟨[[⟨s%"// ID is a group ID.", 32⟩]],
    []⟩,
  ⟨[[⟨s%"// Name is a group name.", 34⟩]],
    []⟩,
  ⟨[[⟨s%"// UserGroup is a user group.", 28⟩, ⟨s%"//", 29⟩, ⟨s%"// spanddl:table:", 30⟩]],
    [(s%"UserGroup", some [⟨[s%"ID"], some s%"`dbtest:\"Id\"   spanddl:\"STRING(36)  NOT NULL\"`", [s%"ID is a group ID."]⟩,
      ⟨[s%"Name"], some s%"`dbtest:\"Name\" spanddl:\"STRING(255) NOT NULL\"`", [s%"Name is a group name."]⟩])]⟩,
  ⟨[[⟨s%"// ID is a author ID.", 41⟩]],
    []⟩,
  ⟨[[⟨s%"// Name is a author name.", 43⟩]],
    []⟩,
  ⟨[[⟨s%"// Author is a author.", 38⟩, ⟨s%"// spanddl:", 39⟩]],
    [(s%"Author", some [⟨[s%"AuthorID"], some s%"`dbtest:\"Id\"     spanddl:\"STRING(36)  NOT NULL\"`", [s%"ID is a author ID."]⟩,
      ⟨[s%"Name"], some s%"`dbtest:\"Name\"   spanddl:\"STRING(255) NOT NULL\"`", [s%"Name is a author name."]⟩])]⟩,
  ⟨[[⟨s%"// AuthorID is a book author.", 52⟩]],
    []⟩,
  ⟨[[⟨s%"// ID is a book ID.", 54⟩]],
    []⟩,
  ⟨[[⟨s%"// Title is a book title.", 56⟩]],
    []⟩,
  ⟨[[⟨s%"// Book is a book.", 47⟩, ⟨s%"//", 48⟩, ⟨s%"//spanddl:table `Books`", 49⟩, ⟨s%"//spanddl:option INTERLEAVE IN PARENT `Author` ON DELETE CASCADE", 50⟩]],
    [(s%"Book", some [⟨[s%"AuthorID"], some s%"`spanddl:\"STRING(255) NOT NULL\" pkey:\"true\"`", [s%"AuthorID is a book author."]⟩,
      ⟨[s%"ID"], some s%"`spanddl:\"STRING(36)  NOT NULL\" pkey:\"true\"`", [s%"ID is a book ID."]⟩,
      ⟨[s%"Title"], some s%"`spanddl:\"STRING(255) NOT NULL\"`", [s%"Title is a book title."]⟩])]⟩,
  ⟨[[⟨s%"// ID is a store ID.", 63⟩]],
    []⟩,
  ⟨[[⟨s%"// Name is a store name.", 65⟩]],
    []⟩,
  ⟨[[⟨s%"// Store", 60⟩, ⟨s%"// spanddl: table: CREATE TABLE `Stores`", 61⟩]],
    [(s%"Store", some [⟨[s%"ID"], some s%"`dbtest:\"Id\" pkey:\"false\"`", [s%"ID is a store ID."]⟩,
      ⟨[s%"Name"], some s%"`dbtest:\"Name\"`", [s%"Name is a store name."]⟩])]⟩,
  ⟨[[⟨s%"// spanddl: index: `IndexBooksByTitle` ON `Books` (`Title`)", 70⟩]],
    []⟩]

def spannerGolden : Str :=
  s%"-- Code generated by ddlctl. DO NOT EDIT.\n" ++
  s%"--\n" ++
  s%"\n" ++
  s%"-- source: spanner/integrationtest_go_001.source:6\n" ++
  s%"-- User is a user.\n" ++
  s%"--\n" ++
  s%"-- spanddl:      table: `Users`\n" ++
  s%"-- spanddl: constraint: CONSTRAINT AgeGTEZero CHECK(Age >= 0)\n" ++
  s%"-- NOTE: the \"User\" struct's \"Ignore\" field has a tag for column name (`dbtest:\"-\"`), so the field is ignored.\n" ++
  s%"CREATE TABLE `Users` (\n" ++
  s%"    -- UserID is a user ID.\n" ++
  s%"    `UserId` STRING(36)  NOT NULL,\n" ++
  s%"    -- Name is a user name.\n" ++
  s%"    `Name`   STRING(255) NOT NULL,\n" ++
  s%"    -- Email is a user email.\n" ++
  s%"    `Email`  STRING(255) NOT NULL,\n" ++
  s%"    -- Age is a user age.\n" ++
  s%"    `Age`    INT64       NOT NULL,\n" ++
  s%"    CONSTRAINT AgeGTEZero CHECK(Age >= 0)\n" ++
  s%") PRIMARY KEY (`UserId`);\n" ++
  s%"\n" ++
  s%"-- source: spanner/integrationtest_go_001.source:8\n" ++
  s%"-- spanddl:      index: CREATE INDEX `IndexUsersByName` ON `Users` (`Name`)\n" ++
  s%"CREATE INDEX `IndexUsersByName` ON `Users` (`Name`);\n" ++
  s%"\n" ++
  s%"-- source: spanner/integrationtest_go_001.source:30\n" ++
  s%"-- UserGroup is a user group.\n" ++
  s%"--\n" ++
  s%"-- spanddl:table:\n" ++
  s%"-- WARN: the comment (spanner/integrationtest_go_001.source:28) does not have a key for table (spanddl: table: CREATE TABLE <table>), so the struct name \"UserGroup\" is used as the table name.\n" ++
  s%"CREATE TABLE UserGroup (\n" ++
  s%"    -- ID is a group ID.\n" ++
  s%"    `Id`   STRING(36)  NOT NULL,\n" ++
  s%"    -- Name is a group name.\n" ++
  s%"    `Name` STRING(255) NOT NULL\n" ++
  s%");\n" ++
  s%"\n" ++
  s%"-- source: spanner/integrationtest_go_001.source:39\n" ++
  s%"-- Author is a author.\n" ++
  s%"-- spanddl:\n" ++
  s%"-- WARN: the comment (spanner/integrationtest_go_001.source:38) does not have a key for table (spanddl: table: CREATE TABLE <table>), so the struct name \"Author\" is used as the table name.\n" ++
  s%"CREATE TABLE Author (\n" ++
  s%"    -- ID is a author ID.\n" ++
  s%"    `Id`   STRING(36)  NOT NULL,\n" ++
  s%"    -- Name is a author name.\n" ++
  s%"    `Name` STRING(255) NOT NULL\n" ++
  s%");\n" ++
  s%"\n" ++
  s%"-- source: spanner/integrationtest_go_001.source:49\n" ++
  s%"-- Book is a book.\n" ++
  s%"--\n" ++
  s%"-- spanddl:table `Books`\n" ++
  s%"-- spanddl:option INTERLEAVE IN PARENT `Author` ON DELETE CASCADE\n" ++
  s%"CREATE TABLE `Books` (\n" ++
  s%"    -- WARN: the \"Book\" struct's \"AuthorID\" field does not have a tag for column name (`dbtest:\"<ColumnName>\"`), so the field name \"AuthorID\" is used as the column name.\n" ++
  s%"    -- AuthorID is a book author.\n" ++
  s%"    `AuthorID` STRING(255) NOT NULL,\n" ++
  s%"    -- WARN: the \"Book\" struct's \"ID\" field does not have a tag for column name (`dbtest:\"<ColumnName>\"`), so the field name \"ID\" is used as the column name.\n" ++
  s%"    -- ID is a book ID.\n" ++
  s%"    `ID`       STRING(36)  NOT NULL,\n" ++
  s%"    -- WARN: the \"Book\" struct's \"Title\" field does not have a tag for column name (`dbtest:\"<ColumnName>\"`), so the field name \"Title\" is used as the column name.\n" ++
  s%"    -- Title is a book title.\n" ++
  s%"    `Title`    STRING(255) NOT NULL\n" ++
  s%") PRIMARY KEY (`AuthorID`, `ID`),\n" ++
  s%"INTERLEAVE IN PARENT `Author` ON DELETE CASCADE;\n" ++
  s%"\n" ++
  s%"-- source: spanner/integrationtest_go_001.source:70\n" ++
  s%"-- spanddl: index: `IndexBooksByTitle` ON `Books` (`Title`)\n" ++
  s%"CREATE INDEX `IndexBooksByTitle` ON `Books` (`Title`);\n"

/-- `spanner/integrationtest_go_test.go`. -/
example : (match parse ⟨s%"dbtest", s%"spanddl", s%"pkey", id, unquote⟩ (.file ⟨s%"spanner/integrationtest_go_001.source", some spannerNodes⟩) with
    | .ok g => fprint id .spanner g
    | _ => []) = spannerGolden := by decide +kernel

def spannerExpected : Str :=
  s%"-- Code generated by ddlctl. DO NOT EDIT.\n" ++
  s%"--\n" ++
  s%"\n" ++
  s%"-- Spans is Spanner test table.\n" ++
  s%"CREATE TABLE Spans (\n" ++
  s%"    -- Id is Spans's Id.\n" ++
  s%"    `Id`          STRING(64) NOT NULL,\n" ++
  s%"    -- Name is Spans's Name.\n" ++
  s%"    `Name`        STRING(100) NOT NULL,\n" ++
  s%"    `Number`      INT64 NOT NULL,\n" ++
  s%"    -- Description is Spans's Description.\n" ++
  s%"    `Description` STRING(1024) NOT NULL,\n" ++
  s%"    -- CreatedAt is Spans's CreatedAt.\n" ++
  s%"    `CreatedAt`   TIMESTAMP NOT NULL OPTIONS (allow_commit_timestamp=true),\n" ++
  s%"    -- UpdatedAt is Spans's UpdatedAt.\n" ++
  s%"    `UpdatedAt`   TIMESTAMP NOT NULL OPTIONS (allow_commit_timestamp=true),\n" ++
  s%"    CONSTRAINT NumberGteZero CHECK(Number >= 0),\n" ++
  s%"    -- CREATE TABLE CONSTRAINT COMMENT\n" ++
  s%"    CONSTRAINT CreateBeforeUpdate CHECK(CreatedAt <= UpdatedAt)\n" ++
  s%")\n" ++
  s%"PRIMARY KEY (Id),\n" ++
  s%"-- CREATE TABLE OPTION COMMENT: If SpanParents record is deleted, Spans record is deleted.\n" ++
  s%"INTERLEAVE IN PARENT SpanParents ON DELETE CASCADE;\n"

/-- `TestFprint` of `spanner/spanner_test.go`. -/
example : fprint id .spanner (newDDL [.table spans]) = spannerExpected := by decide +kernel

end Ddl.Tests.Gen
