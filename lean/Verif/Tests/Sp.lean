import Verif.Tests.Support
import Verif.Sp.Parser
import Verif.Sp.Diff

/-! Test tables of `pkg/ddl/spanner/*_test.go`. -/

set_option autoImplicit false
set_option maxRecDepth 20000

namespace Ddl.Tests.Sp

open Ddl.Sp

/-- `spanner.NewParser(NewLexer(s)).Parse()`, printed. -/
def parsed (s : Str) : Res Str := mapRes (ddlStr (ops lineDiff)) (parse s)

/-- `spanner.Diff` of two parsed texts, printed. -/
def diffed (b a : Str) : Res Str := do
  let b ← parse b
  let a ← parse a
  mapRes (ddlStr (ops lineDiff)) (diff (ops lineDiff) (some b) (some a))

/-- `spanner.DiffCreateTable` of the first tables of two parsed texts (`none` for nil), printed. -/
def tableDiffed (nv : Bool) (b a : Option Str) : Res Str := do
  let first : Option Str → Res (Option CreateTable)
    | none => .ok none
    | some s => mapRes firstTable (parse s)
  let b ← first b
  let a ← first a
  mapRes (ddlStr (ops lineDiff)) (diffCreateTable lineDiff nv b a)

/-! `lexar_test.go`: `Test_lookupIdent` -/
example : ∀ p ∈ ([(s%"EQUAL", .EQUAL),
    (s%"GREATER", .GREATER),
    (s%"LESS", .LESS),
    (s%"CREATE", .CREATE),
    (s%"ALTER", .ALTER),
    (s%"DROP", .DROP),
    (s%"RENAME", .RENAME),
    (s%"CREATE", .CREATE),
    (s%"ALTER", .ALTER),
    (s%"DROP", .DROP),
    (s%"RENAME", .RENAME),
    (s%"TRUNCATE", .TRUNCATE),
    (s%"DELETE", .DELETE),
    (s%"UPDATE", .UPDATE),
    (s%"TABLE", .TABLE),
    (s%"INDEX", .INDEX),
    (s%"VIEW", .VIEW),
    (s%"IF", .IF),
    (s%"EXISTS", .EXISTS),
    (s%"ON", .ON),
    (s%"TO", .TO),
    (s%"WITH", .WITH),
    (s%"BOOL", .BOOL),
    (s%"NUMERIC", .NUMERIC),
    (s%"FLOAT64", .FLOAT64),
    (s%"JSON", .JSON),
    (s%"STRING", .STRING),
    (s%"BYTES", .BYTES),
    (s%"TIMESTAMP", .TIMESTAMP),
    (s%"DATE", .DATE),
    (s%"ARRAY", .ARRAY),
    (s%"STRUCT", .STRUCT),
    (s%"DEFAULT", .DEFAULT),
    (s%"NOT", .NOT),
    (s%"NULL", .NULL),
    (s%"ASC", .ASC),
    (s%"DESC", .DESC),
    (s%"CASCADE", .CASCADE),
    (s%"CONSTRAINT", .CONSTRAINT),
    (s%"PRIMARY", .PRIMARY),
    (s%"KEY", .KEY),
    (s%"FOREIGN", .FOREIGN),
    (s%"REFERENCES", .REFERENCES),
    (s%"UNIQUE", .UNIQUE),
    (s%"CHECK", .CHECK),
    (s%"NULLIF", .NULLIF),
    (s%"users", .IDENT)] : List (Str × TokType)), lookupIdent .spanner p.1 = p.2 := by decide +kernel

/-! `lexar_test.go`: `TestLex`, `TestLexer_NextToken` -/
example : (lex .spanner s%"CREATE TABLE IF NOT EXISTS \"users\" (\n    \"user_id\"    STRING(36)    NOT NULL,\n    \"name\"       STRING(255)   NOT NULL,\n    \"email\"      STRING(255)   NOT NULL,\n    \"password\"   STRING(255)   NOT NULL,\n    \"created_at\" TIMESTAMP   NOT NULL,\n    \"updated_at\" TIMESTAMP   NOT NULL,\n    PRIMARY KEY (\"user_id\"),\n    UNIQUE (\"email\")\n);").take 61 = [⟨.CREATE, s%"CREATE"⟩, ⟨.TABLE, s%"TABLE"⟩, ⟨.IF, s%"IF"⟩, ⟨.NOT, s%"NOT"⟩, ⟨.EXISTS, s%"EXISTS"⟩, ⟨.IDENT, s%"\"users\""⟩, ⟨.OPEN_PAREN, s%"("⟩, ⟨.IDENT, s%"\"user_id\""⟩, ⟨.STRING, s%"STRING"⟩, ⟨.OPEN_PAREN, s%"("⟩, ⟨.IDENT, s%"36"⟩, ⟨.CLOSE_PAREN, s%")"⟩, ⟨.NOT, s%"NOT"⟩, ⟨.NULL, s%"NULL"⟩, ⟨.COMMA, s%","⟩, ⟨.IDENT, s%"\"name\""⟩, ⟨.STRING, s%"STRING"⟩, ⟨.OPEN_PAREN, s%"("⟩, ⟨.IDENT, s%"255"⟩, ⟨.CLOSE_PAREN, s%")"⟩, ⟨.NOT, s%"NOT"⟩, ⟨.NULL, s%"NULL"⟩, ⟨.COMMA, s%","⟩, ⟨.IDENT, s%"\"email\""⟩, ⟨.STRING, s%"STRING"⟩, ⟨.OPEN_PAREN, s%"("⟩, ⟨.IDENT, s%"255"⟩, ⟨.CLOSE_PAREN, s%")"⟩, ⟨.NOT, s%"NOT"⟩, ⟨.NULL, s%"NULL"⟩, ⟨.COMMA, s%","⟩, ⟨.IDENT, s%"\"password\""⟩, ⟨.STRING, s%"STRING"⟩, ⟨.OPEN_PAREN, s%"("⟩, ⟨.IDENT, s%"255"⟩, ⟨.CLOSE_PAREN, s%")"⟩, ⟨.NOT, s%"NOT"⟩, ⟨.NULL, s%"NULL"⟩, ⟨.COMMA, s%","⟩, ⟨.IDENT, s%"\"created_at\""⟩, ⟨.TIMESTAMP, s%"TIMESTAMP"⟩, ⟨.NOT, s%"NOT"⟩, ⟨.NULL, s%"NULL"⟩, ⟨.COMMA, s%","⟩, ⟨.IDENT, s%"\"updated_at\""⟩, ⟨.TIMESTAMP, s%"TIMESTAMP"⟩, ⟨.NOT, s%"NOT"⟩, ⟨.NULL, s%"NULL"⟩, ⟨.COMMA, s%","⟩, ⟨.PRIMARY, s%"PRIMARY"⟩, ⟨.KEY, s%"KEY"⟩, ⟨.OPEN_PAREN, s%"("⟩, ⟨.IDENT, s%"\"user_id\""⟩, ⟨.CLOSE_PAREN, s%")"⟩, ⟨.COMMA, s%","⟩, ⟨.UNIQUE, s%"UNIQUE"⟩, ⟨.OPEN_PAREN, s%"("⟩, ⟨.IDENT, s%"\"email\""⟩, ⟨.CLOSE_PAREN, s%")"⟩, ⟨.CLOSE_PAREN, s%")"⟩, ⟨.SEMICOLON, s%";"⟩] := by decide +kernel
example : (lex .spanner s%"|").take 1 = [⟨.ILLEGAL, s%"|"⟩] := by decide +kernel
example : (lex .spanner s%":").take 1 = [⟨.ILLEGAL, s%":"⟩] := by decide +kernel
example : (lex .spanner s%"!").take 1 = [⟨.ILLEGAL, s%"!"⟩] := by decide +kernel

/-! `parser_test.go`: `TestParser_Parse` -/
/- success,CREATE_TABLE -/
example : parsed s%"CREATE TABLE \"groups\" (\"id\" STRING(36) NOT NULL, description STRING) PRIMARY KEY (\"id\"); CREATE TABLE \"users\" (id STRING(36) NOT NULL, group_id STRING(36) NOT NULL, \"name\" STRING(255) NOT NULL, \"age\" INT64 DEFAULT 0, ExpiredDate TIMESTAMP, description STRING, CONSTRAINT users_age_check CHECK (\"age\" >= 0), CONSTRAINT users_group_id_fkey FOREIGN KEY (group_id) REFERENCES \"groups\" (\"id\")) PRIMARY KEY (\"id\"), INTERLEAVE IN PARENT names ON DELETE NO ACTION, ROW DELETION POLICY (OLDER_THAN(ExpiredDate, INTERVAL 0 DAY));" =
    .ok s%"CREATE TABLE \"groups\" (\n    \"id\" STRING(36) NOT NULL,\n    description STRING\n) PRIMARY KEY (\"id\");\nCREATE TABLE \"users\" (\n    id STRING(36) NOT NULL,\n    group_id STRING(36) NOT NULL,\n    \"name\" STRING(255) NOT NULL,\n    \"age\" INT64 DEFAULT 0,\n    ExpiredDate TIMESTAMP,\n    description STRING,\n    CONSTRAINT users_age_check CHECK (\"age\" >= 0),\n    CONSTRAINT users_group_id_fkey FOREIGN KEY (group_id) REFERENCES \"groups\" (\"id\")\n) PRIMARY KEY (\"id\"),\nINTERLEAVE IN PARENT names ON DELETE NO ACTION,\nROW DELETION POLICY (OLDER_THAN(ExpiredDate, INTERVAL 0 DAY));\n" := by decide +kernel
/- success,complex_defaults -/
example : parsed s%"-- table: complex_defaults\nCREATE TABLE IF NOT EXISTS complex_defaults (\n    -- id is the primary key.\n    id INT64,\n    created_at TIMESTAMP DEFAULT (CURRENT_TIMESTAMP()),\n    updated_at TIMESTAMP DEFAULT (CURRENT_TIMESTAMP()),\n    unique_code STRING DEFAULT (GENERATE_UUID()),\n    status STRING DEFAULT ('pending'),\n    random_number INT64 DEFAULT (FLOOR(RANDOM() * 100)),\n    json_data JSON DEFAULT ('{}'),\n    calculated_value INT64 DEFAULT (SELECT COUNT(*) FROM another_table)\n) PRIMARY KEY (id);\n" =
    .ok s%"CREATE TABLE IF NOT EXISTS complex_defaults (\n    id INT64,\n    created_at TIMESTAMP DEFAULT (CURRENT_TIMESTAMP()),\n    updated_at TIMESTAMP DEFAULT (CURRENT_TIMESTAMP()),\n    unique_code STRING DEFAULT (GENERATE_UUID()),\n    status STRING DEFAULT ('pending'),\n    random_number INT64 DEFAULT (FLOOR(RANDOM() * 100)),\n    json_data JSON DEFAULT ('{}'),\n    calculated_value INT64 DEFAULT (SELECT COUNT(*) FROM another_table)\n) PRIMARY KEY (id);\n" := by decide +kernel

/-! `parser_test.go`: `failureTests` -/
example : allFail parse [(s%")invalid", .unexpectedCurrentToken),
    (s%"CREATE INVALID;", .unexpectedCurrentToken),
    (s%"CREATE TABLE;", .unexpectedCurrentToken),
    (s%"CREATE TABLE IF;", .unexpectedPeekToken),
    (s%"CREATE TABLE IF NOT;", .unexpectedPeekToken),
    (s%"CREATE TABLE \"users\";", .unexpectedCurrentToken),
    (s%"CREATE TABLE \"users\" (\"id\";", .unexpectedCurrentToken),
    (s%"CREATE TABLE \"users\" (\"id\" STRING(36);", .unexpectedCurrentToken),
    (s%"CREATE TABLE \"users\" (\"id\" STRING(36), enabled BOOL DEFAULT (FALSE);", .unexpectedCurrentToken),
    (s%"CREATE TABLE \"users\" (\"id\" STRING(36), enabled BOOL DEFAULT (TRUE AND FALSE);", .unexpectedCurrentToken),
    (s%"CREATE TABLE \"users\" (\"id\" STRING(36), created_at TIMESTAMP OPTIONS (allow_commit_timestamp = true;", .unexpectedCurrentToken),
    (s%"CREATE TABLE \"users\" (\"id\" STRING(36), CONSTRAINT \"invalid\" NOT;", .unexpectedCurrentToken),
    (s%"CREATE TABLE \"users\" (\"id\" STRING(36))(;", .unexpectedCurrentToken),
    (s%"CREATE TABLE \"users\" (\"id\" TIMESTAMP CREATE", .unexpectedCurrentToken),
    (s%"CREATE TABLE \"users\" (\"id\" VARYING();", .unexpectedCurrentToken),
    (s%"CREATE TABLE \"users\" (\"id\" STRING(36) NULL NOT;", .unexpectedPeekToken),
    (s%"CREATE TABLE \"users\" (\"id\" STRING(36) DEFAULT (\"id\")", .unexpectedCurrentToken),
    (s%"CREATE TABLE \"users\" (\"id\" STRING(36) DEFAULT (\"id\",", .unexpectedCurrentToken),
    (s%"CREATE TABLE \"users\" (\"id\" STRING(36) PRIMARY NOT", .unexpectedCurrentToken),
    (s%"CREATE TABLE \"users\" (\"id\" STRING(36) REFERENCES NOT", .unexpectedPeekToken),
    (s%"CREATE TABLE \"users\" (\"id\" STRING(36) REFERENCES \"groups\" (NOT", .unexpectedCurrentToken),
    (s%"CREATE TABLE \"users\" (\"id\" STRING(36) CHECK NOT", .unexpectedPeekToken),
    (s%"CREATE TABLE \"users\" (\"id\" STRING(36) CHECK (NOT", .unexpectedCurrentToken),
    (s%"CREATE TABLE \"users\" (\"id\" STRING(36), CONSTRAINT NOT", .unexpectedCurrentToken),
    (s%"CREATE TABLE \"users\" (\"id\" STRING(36), CONSTRAINT constraint_name CHECK", .unexpectedPeekToken),
    (s%"CREATE TABLE \"users\" (\"id\" STRING(36), CONSTRAINT constraint_name CHECK (", .unexpectedCurrentToken),
    (s%"CREATE TABLE \"users\" (\"id\" STRING(36)) PRIMARY NOT", .unexpectedCurrentToken),
    (s%"CREATE TABLE \"users\" (\"id\" STRING(36)) PRIMARY KEY NOT", .unexpectedCurrentToken),
    (s%"CREATE TABLE \"users\" (\"id\" STRING(36)) PRIMARY KEY (NOT", .unexpectedCurrentToken),
    (s%"CREATE TABLE \"users\" (\"id\" STRING(36)) PRIMARY KEY (id", .unexpectedCurrentToken),
    (s%"CREATE TABLE \"users\" (\"id\" STRING(36)) PRIMARY KEY (id), INTERLEAVE;", .unexpectedCurrentToken),
    (s%"CREATE TABLE \"users\" (\"id\" STRING(36)) PRIMARY KEY (id), INTERLEAVE IN;", .unexpectedCurrentToken),
    (s%"CREATE TABLE \"users\" (\"id\" STRING(36)) PRIMARY KEY (id), INTERLEAVE IN PARENT;", .unexpectedCurrentToken),
    (s%"CREATE TABLE \"users\" (\"id\" STRING(36)) PRIMARY KEY (id), INTERLEAVE IN PARENT table_name ON;", .unexpectedCurrentToken),
    (s%"CREATE TABLE \"users\" (\"id\" STRING(36)) PRIMARY KEY (id), INTERLEAVE IN PARENT table_name ON DELETE;", .unexpectedCurrentToken),
    (s%"CREATE TABLE \"users\" (\"id\" STRING(36)) PRIMARY KEY (id), INTERLEAVE IN PARENT table_name ON DELETE CASCADE NOT;", .unexpectedCurrentToken),
    (s%"CREATE TABLE \"users\" (\"id\" STRING(36)) PRIMARY KEY (id), INTERLEAVE IN PARENT table_name ON DELETE NO;", .unexpectedCurrentToken),
    (s%"CREATE TABLE \"users\" (\"id\" STRING(36)) PRIMARY KEY (id), ROW;", .unexpectedCurrentToken),
    (s%"CREATE TABLE \"users\" (\"id\" STRING(36)) PRIMARY KEY (id), ROW DELETION;", .unexpectedCurrentToken),
    (s%"CREATE TABLE \"users\" (\"id\" STRING(36)) PRIMARY KEY (id), ROW DELETION POLICY;", .unexpectedCurrentToken),
    (s%"CREATE TABLE \"users\" (\"id\" STRING(36)) PRIMARY KEY (id), ROW DELETION POLICY (;", .unexpectedCurrentToken),
    (s%"CREATE TABLE \"users\" (\"id\" STRING(36)) PRIMARY KEY (id), ROW DELETION POLICY (;", .unexpectedCurrentToken),
    (s%"CREATE TABLE \"users\" (\"id\" STRING(36)) PRIMARY KEY (id), ROW DELETION POLICY (OLDER_THAN;", .unexpectedCurrentToken),
    (s%"CREATE TABLE \"users\" (\"id\" STRING(36)) PRIMARY KEY (id), ROW DELETION POLICY (OLDER_THAN(;", .unexpectedCurrentToken),
    (s%"CREATE TABLE \"users\" (\"id\" STRING(36)) PRIMARY KEY (id), ROW DELETION POLICY (OLDER_THAN(ExpiredDate;", .unexpectedCurrentToken),
    (s%"CREATE TABLE \"users\" (\"id\" STRING(36)) PRIMARY KEY (id), ROW DELETION POLICY (OLDER_THAN(ExpiredDate,;", .unexpectedCurrentToken),
    (s%"CREATE TABLE \"users\" (\"id\" STRING(36)) PRIMARY KEY (id), ROW DELETION POLICY (OLDER_THAN(ExpiredDate, INTERVAL;", .unexpectedCurrentToken),
    (s%"CREATE TABLE \"users\" (\"id\" STRING(36)) PRIMARY KEY (id), ROW DELETION POLICY (OLDER_THAN(ExpiredDate, INTERVAL 0;", .unexpectedCurrentToken),
    (s%"CREATE TABLE \"users\" (\"id\" STRING(36)) PRIMARY KEY (id), ROW DELETION POLICY (OLDER_THAN(ExpiredDate, INTERVAL 0 DAY;", .unexpectedCurrentToken),
    (s%"CREATE TABLE \"users\" (\"id\" STRING(36)) PRIMARY KEY (id), ROW DELETION POLICY (OLDER_THAN(ExpiredDate, INTERVAL 0 DAY);", .unexpectedCurrentToken),
    (s%"CREATE TABLE \"users\" (\"id\" STRING(36), FOREIGN NOT", .unexpectedPeekToken),
    (s%"CREATE TABLE \"users\" (\"id\" STRING(36), FOREIGN KEY NOT", .unexpectedPeekToken),
    (s%"CREATE TABLE \"users\" (\"id\" STRING(36), FOREIGN KEY (NOT", .unexpectedCurrentToken),
    (s%"CREATE TABLE \"users\" (\"id\" STRING(36), FOREIGN KEY (\"group_id\") NOT", .unexpectedCurrentToken),
    (s%"CREATE TABLE \"users\" (\"id\" STRING(36), FOREIGN KEY (\"group_id\") REFERENCES ", .unexpectedCurrentToken),
    (s%"CREATE TABLE \"users\" (\"id\" STRING(36), FOREIGN KEY (\"group_id\") REFERENCES \"groups\" NOT", .unexpectedCurrentToken),
    (s%"CREATE TABLE \"users\" (\"id\" STRING(36), FOREIGN KEY (\"group_id\") REFERENCES \"groups\" (\"id\")", .unexpectedCurrentToken),
    (s%"CREATE TABLE \"users\" (\"id\" STRING(36), UNIQUE NOT", .unexpectedCurrentToken),
    (s%"CREATE TABLE \"users\" (\"id\" STRING(36), UNIQUE INDEX users_idx_name NOT", .unexpectedCurrentToken),
    (s%"CREATE TABLE \"users\" (\"id\" STRING(36), UNIQUE INDEX users_idx_name (NOT", .unexpectedCurrentToken),
    (s%"CREATE TABLE \"users\" (\"id\" STRING(36), UNIQUE INDEX NOT", .unexpectedCurrentToken),
    (s%"CREATE TABLE \"users\" (\"id\" STRING(36), name STRING, UNIQUE (\"id\", name)", .unexpectedCurrentToken),
    (s%"CREATE INDEX NOT", .unexpectedCurrentToken),
    (s%"CREATE INDEX IF;", .unexpectedPeekToken),
    (s%"CREATE INDEX IF NOT;", .unexpectedPeekToken),
    (s%"CREATE INDEX IF NOT EXISTS;", .unexpectedCurrentToken),
    (s%"CREATE INDEX users_idx_username NOT", .unexpectedCurrentToken),
    (s%"CREATE INDEX users_idx_username ON NOT", .unexpectedCurrentToken),
    (s%"CREATE INDEX users_idx_username ON users NOT", .unexpectedCurrentToken),
    (s%"CREATE INDEX users_idx_username ON users USING NOT", .unexpectedCurrentToken),
    (s%"CREATE INDEX users_idx_username ON users USING btree NOT", .unexpectedCurrentToken),
    (s%"CREATE INDEX users_idx_username ON users USING btree (NOT)", .unexpectedCurrentToken)] = true := by decide +kernel

/-! `diff_create_table_test.go` -/
/- failure,ddl.ErrNoDifference -/
example : tableDiffed false
    (some s%"CREATE TABLE \"users\" (id STRING(36) NOT NULL, group_id STRING(36) NOT NULL, \"name\" STRING(255) NOT NULL, description STRING, CONSTRAINT users_group_id_fkey FOREIGN KEY (group_id) REFERENCES \"groups\" (\"id\")) PRIMARY KEY (\"id\");")
    (some s%"CREATE TABLE \"users\" (id STRING(36) NOT NULL, group_id STRING(36) NOT NULL, \"name\" STRING(255) NOT NULL, description STRING, CONSTRAINT users_group_id_fkey FOREIGN KEY (group_id) REFERENCES \"groups\" (\"id\")) PRIMARY KEY (\"id\");") =
    .err .noDifference := by decide +kernel
/- failure,ddl.ErrNoDifference,SameContent -/
example : tableDiffed false
    (some s%"CREATE TABLE \"users\" (id STRING(36) NOT NULL, group_id STRING(36) NOT NULL, \"name\" STRING(255) NOT NULL, description STRING, CONSTRAINT users_group_id_fkey FOREIGN KEY (group_id) REFERENCES \"groups\" (\"id\")) PRIMARY KEY (\"id\");")
    (some s%"CREATE TABLE users (id STRING(36) NOT NULL, group_id STRING(36) NOT NULL, name STRING(255) NOT NULL, description STRING, CONSTRAINT users_group_id_fkey FOREIGN KEY (group_id) REFERENCES groups (id)) PRIMARY KEY (id);") =
    .err .noDifference := by decide +kernel
/- success,ADD_COLUMN -/
example : tableDiffed false
    (some s%"CREATE TABLE \"users\" (id STRING(36) NOT NULL, group_id STRING(36) NOT NULL, \"name\" STRING(255) NOT NULL, description STRING, CONSTRAINT users_group_id_fkey FOREIGN KEY (group_id) REFERENCES \"groups\" (\"id\")) PRIMARY KEY (\"id\");")
    (some s%"CREATE TABLE \"users\" (id STRING(36) NOT NULL, group_id STRING(36) NOT NULL, \"name\" STRING(255) NOT NULL, \"age\" INT64 DEFAULT 0 NOT NULL CHECK (\"age\" >= 0), description STRING, CONSTRAINT users_group_id_fkey FOREIGN KEY (group_id) REFERENCES \"groups\" (\"id\")) PRIMARY KEY (\"id\");") =
    .ok s%"-- -\n-- +\"age\" INT64 NOT NULL DEFAULT 0\nALTER TABLE \"users\" ADD COLUMN \"age\" INT64 NOT NULL DEFAULT 0;\n-- -\n-- +CONSTRAINT users_age_check CHECK (\"age\" >= 0)\nALTER TABLE \"users\" ADD CONSTRAINT users_age_check CHECK (\"age\" >= 0);\n" := by decide +kernel
/- success,DROP_COLUMN -/
example : tableDiffed false
    (some s%"CREATE TABLE \"users\" (id STRING(36) NOT NULL, group_id STRING(36) NOT NULL REFERENCES \"groups\" (\"id\"), \"name\" STRING(255) NOT NULL, \"age\" INT64 DEFAULT 0 NOT NULL CHECK (\"age\" >= 0), description STRING) PRIMARY KEY (\"id\");")
    (some s%"CREATE TABLE \"users\" (id STRING(36) NOT NULL, group_id STRING(36) NOT NULL REFERENCES \"groups\" (\"id\"), \"name\" STRING(255) NOT NULL, description STRING) PRIMARY KEY (\"id\");") =
    .ok s%"-- -CONSTRAINT users_age_check CHECK (\"age\" >= 0)\n-- +\nALTER TABLE \"users\" DROP CONSTRAINT users_age_check;\n-- -\"age\" INT64 NOT NULL DEFAULT 0\n-- +\nALTER TABLE \"users\" DROP COLUMN \"age\";\n" := by decide +kernel
/- success,ALTER_COLUMN_SET_DATA_TYPE -/
example : tableDiffed false
    (some s%"CREATE TABLE \"users\" (id STRING(36) NOT NULL, group_id STRING(36) NOT NULL REFERENCES \"groups\" (\"id\"), \"name\" STRING(255) NOT NULL, \"age\" INT64 DEFAULT 0 CHECK (\"age\" >= 0), description STRING) PRIMARY KEY (\"id\");")
    (some s%"CREATE TABLE \"users\" (id STRING(36) NOT NULL, group_id STRING(36) NOT NULL REFERENCES \"groups\" (\"id\"), \"name\" STRING NOT NULL, \"age\" INT64 DEFAULT 0 CHECK (\"age\" >= 0), description STRING) PRIMARY KEY (\"id\");") =
    .ok s%"-- -\"name\" STRING(255) NOT NULL\n-- +\"name\" STRING NOT NULL\nALTER TABLE \"users\" ALTER COLUMN \"name\" STRING NOT NULL;\n" := by decide +kernel
/- success,ALTER_COLUMN_DROP_DEFAULT -/
example : tableDiffed false
    (some s%"CREATE TABLE \"users\" (id STRING(36) NOT NULL, group_id STRING(36) NOT NULL, \"name\" STRING(255) NOT NULL, \"age\" INT64 DEFAULT 0 CHECK (\"age\" >= 0), description STRING, CONSTRAINT users_group_id_fkey FOREIGN KEY (group_id) REFERENCES \"groups\" (\"id\")) PRIMARY KEY (\"id\");")
    (some s%"CREATE TABLE \"users\" (id STRING(36) NOT NULL, group_id STRING(36) NOT NULL, \"name\" STRING(255) NOT NULL, \"age\" INT64 CHECK (\"age\" >= 0), description STRING, CONSTRAINT users_group_id_fkey FOREIGN KEY (group_id) REFERENCES \"groups\" (\"id\")) PRIMARY KEY (\"id\");") =
    .ok s%"-- -\"age\" INT64 DEFAULT 0\n-- +\"age\" INT64\nALTER TABLE \"users\" ALTER COLUMN \"age\" DROP DEFAULT;\n" := by decide +kernel
/- success,ALTER_COLUMN_SET_DEFAULT -/
example : tableDiffed false
    (some s%"CREATE TABLE \"users\" (id STRING(36) NOT NULL, group_id STRING(36) NOT NULL, \"name\" STRING(255) NOT NULL, \"age\" INT64 CHECK (\"age\" >= 0), description STRING, CONSTRAINT users_group_id_fkey FOREIGN KEY (group_id) REFERENCES \"groups\" (\"id\")) PRIMARY KEY (\"id\");")
    (some s%"CREATE TABLE \"users\" (id STRING(36) NOT NULL, group_id STRING(36) NOT NULL, \"name\" STRING(255) NOT NULL, \"age\" INT64 DEFAULT 0 CHECK (\"age\" <> 0), description STRING, CONSTRAINT users_group_id_fkey FOREIGN KEY (group_id) REFERENCES \"groups\" (\"id\")) PRIMARY KEY (id);") =
    .ok s%"-- -\"age\" INT64\n-- +\"age\" INT64 DEFAULT 0\nALTER TABLE \"users\" ALTER COLUMN \"age\" SET DEFAULT 0;\n-- -CONSTRAINT users_age_check CHECK (\"age\" >= 0)\n-- +\nALTER TABLE \"users\" DROP CONSTRAINT users_age_check;\n-- -\n-- +CONSTRAINT users_age_check CHECK (\"age\" <> 0)\nALTER TABLE \"users\" ADD CONSTRAINT users_age_check CHECK (\"age\" <> 0);\n" := by decide +kernel
/- success,ALTER_TABLE_RENAME_TO -/
example : tableDiffed false
    (some s%"CREATE TABLE \"public.users\" (id STRING(36) NOT NULL, group_id STRING(36) NOT NULL REFERENCES \"groups\" (\"id\"), \"name\" STRING(255) NOT NULL, \"age\" INT64 DEFAULT 0 CHECK (\"age\" >= 0), description STRING) PRIMARY KEY (\"id\");")
    (some s%"CREATE TABLE \"app_users\" (id STRING(36) NOT NULL, group_id STRING(36) NOT NULL REFERENCES \"groups\" (\"id\"), \"name\" STRING(255) NOT NULL, \"age\" INT64 DEFAULT 0 CHECK (\"age\" >= 0), description STRING) PRIMARY KEY (\"id\");") =
    .ok s%"-- -public.users\n-- +public.app_users\nALTER TABLE \"public.users\" RENAME TO \"public.app_users\";\n-- -CONSTRAINT users_group_id_fkey FOREIGN KEY (group_id) REFERENCES \"groups\" (\"id\")\n-- +\nALTER TABLE \"public.app_users\" DROP CONSTRAINT users_group_id_fkey;\n-- -CONSTRAINT users_age_check CHECK (\"age\" >= 0)\n-- +\nALTER TABLE \"public.app_users\" DROP CONSTRAINT users_age_check;\n-- -\n-- +CONSTRAINT app_users_group_id_fkey FOREIGN KEY (group_id) REFERENCES \"groups\" (\"id\")\nALTER TABLE \"public.app_users\" ADD CONSTRAINT app_users_group_id_fkey FOREIGN KEY (group_id) REFERENCES \"groups\" (\"id\");\n-- -\n-- +CONSTRAINT app_users_age_check CHECK (\"age\" >= 0)\nALTER TABLE \"public.app_users\" ADD CONSTRAINT app_users_age_check CHECK (\"age\" >= 0);\n" := by decide +kernel
/- success,SET_NOT_NULL -/
example : tableDiffed false
    (some s%"CREATE TABLE \"users\" (id STRING(36) NOT NULL, group_id STRING(36) NOT NULL REFERENCES \"groups\" (\"id\"), \"name\" STRING(255) NOT NULL, \"age\" INT64 DEFAULT 0 CHECK (\"age\" >= 0), description STRING) PRIMARY KEY (\"id\");")
    (some s%"CREATE TABLE \"users\" (id STRING(36) NOT NULL, group_id STRING(36) NOT NULL REFERENCES \"groups\" (\"id\"), \"name\" STRING(255) NOT NULL, \"age\" INT64 DEFAULT 0 NOT NULL CHECK (\"age\" >= 0), description STRING) PRIMARY KEY (\"id\");") =
    .ok s%"-- -\"age\" INT64 DEFAULT 0\n-- +\"age\" INT64 NOT NULL DEFAULT 0\nALTER TABLE \"users\" ALTER COLUMN \"age\" INT64 NOT NULL;\n" := by decide +kernel
/- success,DROP_NOT_NULL -/
example : tableDiffed false
    (some s%"CREATE TABLE \"users\" (id STRING(36) NOT NULL, group_id STRING(36) NOT NULL REFERENCES \"groups\" (\"id\"), \"name\" STRING(255) NOT NULL, \"age\" INT64 DEFAULT 0 NOT NULL CHECK (\"age\" >= 0), description STRING) PRIMARY KEY (\"id\");")
    (some s%"CREATE TABLE \"users\" (id STRING(36) NOT NULL, group_id STRING(36) NOT NULL REFERENCES \"groups\" (\"id\"), \"name\" STRING(255) NOT NULL, \"age\" INT64 DEFAULT 0 CHECK (\"age\" >= 0), description STRING) PRIMARY KEY (\"id\");") =
    .ok s%"-- -\"age\" INT64 NOT NULL DEFAULT 0\n-- +\"age\" INT64 DEFAULT 0\nALTER TABLE \"users\" ALTER COLUMN \"age\" INT64;\n" := by decide +kernel
/- success,ALTER_PRIMARY_KEY -/
example : tableDiffed false
    (some s%"CREATE TABLE \"users\" (id STRING(36) NOT NULL, group_id STRING(36) NOT NULL REFERENCES \"groups\" (\"id\"), \"name\" STRING(255) NOT NULL, \"age\" INT64 DEFAULT 0 NOT NULL CHECK (\"age\" >= 0), description STRING) PRIMARY KEY (\"id\");")
    (some s%"CREATE TABLE \"users\" (id STRING(36) NOT NULL, group_id STRING(36) NOT NULL REFERENCES \"groups\" (\"id\"), \"name\" STRING(255) NOT NULL, \"age\" INT64 DEFAULT 0 NOT NULL CHECK (\"age\" >= 0), description STRING) PRIMARY KEY (\"id\", name);") =
    .ok s%"-- -PRIMARY KEY (\"id\")\n-- +PRIMARY KEY (\"id\", name)\nDROP TABLE \"users\";\nCREATE TABLE \"users\" (\n    id STRING(36) NOT NULL,\n    group_id STRING(36) NOT NULL,\n    \"name\" STRING(255) NOT NULL,\n    \"age\" INT64 NOT NULL DEFAULT 0,\n    description STRING,\n    CONSTRAINT users_group_id_fkey FOREIGN KEY (group_id) REFERENCES \"groups\" (\"id\"),\n    CONSTRAINT users_age_check CHECK (\"age\" >= 0)\n) PRIMARY KEY (\"id\", name);\n" := by decide +kernel
/- success,ALTER_ADD_ROW_DELETION_POLICY -/
example : tableDiffed false
    (some s%"CREATE TABLE \"users\" (id STRING(36) NOT NULL, group_id STRING(36) NOT NULL REFERENCES \"groups\" (\"id\"), \"name\" STRING(255) NOT NULL, \"age\" INT64 DEFAULT 0 NOT NULL CHECK (\"age\" >= 0), description STRING, CreatedAt TIMESTAMP) PRIMARY KEY (\"id\");")
    (some s%"CREATE TABLE \"users\" (id STRING(36) NOT NULL, group_id STRING(36) NOT NULL REFERENCES \"groups\" (\"id\"), \"name\" STRING(255) NOT NULL, \"age\" INT64 DEFAULT 0 NOT NULL CHECK (\"age\" >= 0), description STRING, CreatedAt TIMESTAMP) PRIMARY KEY (\"id\"), ROW DELETION POLICY (OLDER_THAN(CreatedAt, INTERVAL 7 DAY));") =
    .ok s%"-- -\n-- +ROW DELETION POLICY (OLDER_THAN(CreatedAt, INTERVAL 7 DAY))\nALTER TABLE \"users\" ADD ROW DELETION POLICY (OLDER_THAN(CreatedAt, INTERVAL 7 DAY));\n" := by decide +kernel
/- success,ALTER_REPLACE_ROW_DELETION_POLICY -/
example : tableDiffed false
    (some s%"CREATE TABLE \"users\" (id STRING(36) NOT NULL, group_id STRING(36) NOT NULL REFERENCES \"groups\" (\"id\"), \"name\" STRING(255) NOT NULL, \"age\" INT64 DEFAULT 0 NOT NULL CHECK (\"age\" >= 0), description STRING, CreatedAt TIMESTAMP) PRIMARY KEY (\"id\"), ROW DELETION POLICY (OLDER_THAN(CreatedAt, INTERVAL 30 DAY));")
    (some s%"CREATE TABLE \"users\" (id STRING(36) NOT NULL, group_id STRING(36) NOT NULL REFERENCES \"groups\" (\"id\"), \"name\" STRING(255) NOT NULL, \"age\" INT64 DEFAULT 0 NOT NULL CHECK (\"age\" >= 0), description STRING, CreatedAt TIMESTAMP) PRIMARY KEY (\"id\"), ROW DELETION POLICY (OLDER_THAN(CreatedAt, INTERVAL 7 DAY));") =
    .ok s%"-- -ROW DELETION POLICY (OLDER_THAN(CreatedAt, INTERVAL 30 DAY))\n-- +ROW DELETION POLICY (OLDER_THAN(CreatedAt, INTERVAL 7 DAY))\nALTER TABLE \"users\" REPLACE ROW DELETION POLICY (OLDER_THAN(CreatedAt, INTERVAL 7 DAY));\n" := by decide +kernel
/- success,ALTER_REPLACE_DROP_DELETION_POLICY -/
example : tableDiffed false
    (some s%"CREATE TABLE \"users\" (id STRING(36) NOT NULL, group_id STRING(36) NOT NULL REFERENCES \"groups\" (\"id\"), \"name\" STRING(255) NOT NULL, \"age\" INT64 DEFAULT 0 NOT NULL CHECK (\"age\" >= 0), description STRING, CreatedAt TIMESTAMP) PRIMARY KEY (\"id\"), ROW DELETION POLICY (OLDER_THAN(CreatedAt, INTERVAL 30 DAY));")
    (some s%"CREATE TABLE \"users\" (id STRING(36) NOT NULL, group_id STRING(36) NOT NULL REFERENCES \"groups\" (\"id\"), \"name\" STRING(255) NOT NULL, \"age\" INT64 DEFAULT 0 NOT NULL CHECK (\"age\" >= 0), description STRING, CreatedAt TIMESTAMP) PRIMARY KEY (\"id\");") =
    .ok s%"-- -ROW DELETION POLICY (OLDER_THAN(CreatedAt, INTERVAL 30 DAY))\n-- +\nALTER TABLE \"users\" DROP ROW DELETION POLICY;\n" := by decide +kernel
/- success,DROP_ADD_FOREIGN_KEY -/
example : tableDiffed false
    (some s%"CREATE TABLE \"users\" (id STRING(36) NOT NULL, group_id STRING(36) NOT NULL, \"name\" STRING(255) NOT NULL, \"age\" INT64 DEFAULT 0 NOT NULL CHECK (\"age\" >= 0), description STRING, CONSTRAINT users_group_id_fkey FOREIGN KEY (group_id) REFERENCES \"groups\" (\"id\")) PRIMARY KEY (\"id\");")
    (some s%"CREATE TABLE \"users\" (id STRING(36) NOT NULL, group_id STRING(36) NOT NULL, \"name\" STRING(255) NOT NULL, \"age\" INT64 DEFAULT 0 NOT NULL CHECK (\"age\" >= 0), description STRING, CONSTRAINT users_group_id_fkey FOREIGN KEY (group_id, name) REFERENCES \"groups\" (\"id\", name)) PRIMARY KEY (\"id\");") =
    .ok s%"-- -CONSTRAINT users_group_id_fkey FOREIGN KEY (group_id) REFERENCES \"groups\" (\"id\")\n-- +\nALTER TABLE \"users\" DROP CONSTRAINT users_group_id_fkey;\n-- -\n-- +CONSTRAINT users_group_id_fkey FOREIGN KEY (group_id, name) REFERENCES \"groups\" (\"id\", name)\nALTER TABLE \"users\" ADD CONSTRAINT users_group_id_fkey FOREIGN KEY (group_id, name) REFERENCES \"groups\" (\"id\", name);\n" := by decide +kernel
/- success,DROP_ADD_UNIQUE -/
example : tableDiffed false
    (some s%"CREATE TABLE \"users\" (id STRING(36) NOT NULL, group_id STRING(36) NOT NULL, \"name\" STRING(255) NOT NULL, \"age\" INT64 DEFAULT 0 NOT NULL CHECK (\"age\" >= 0), description STRING, CONSTRAINT users_group_id_fkey FOREIGN KEY (group_id) REFERENCES \"groups\" (\"id\")) PRIMARY KEY (\"id\");")
    (some s%"CREATE TABLE \"users\" (id STRING(36) NOT NULL, group_id STRING(36) NOT NULL, \"name\" STRING(255) NOT NULL, \"age\" INT64 DEFAULT 0 NOT NULL CHECK (\"age\" >= 0), description STRING, CONSTRAINT users_group_id_fkey_2 FOREIGN KEY (group_id) REFERENCES \"groups\" (\"id\")) PRIMARY KEY (\"id\");") =
    .ok s%"-- -CONSTRAINT users_group_id_fkey FOREIGN KEY (group_id) REFERENCES \"groups\" (\"id\")\n-- +\nALTER TABLE \"users\" DROP CONSTRAINT users_group_id_fkey;\n-- -\n-- +CONSTRAINT users_group_id_fkey_2 FOREIGN KEY (group_id) REFERENCES \"groups\" (\"id\")\nALTER TABLE \"users\" ADD CONSTRAINT users_group_id_fkey_2 FOREIGN KEY (group_id) REFERENCES \"groups\" (\"id\");\n" := by decide +kernel
/- success,ALTER_COLUMN_SET_DEFAULT_OVERWRITE -/
example : tableDiffed false
    (some s%"CREATE TABLE \"users\" (id STRING(36) NOT NULL, group_id STRING(36) NOT NULL, \"name\" STRING(255) NOT NULL, \"age\" INT64 DEFAULT 0 NOT NULL CHECK (\"age\" >= 0), description STRING) PRIMARY KEY (\"id\");")
    (some s%"CREATE TABLE \"users\" (id STRING(36) NOT NULL, group_id STRING(36) NOT NULL, \"name\" STRING(255) NOT NULL, \"age\" INT64 DEFAULT ( (0 + 3) - 1 * 4 / 2 ) NOT NULL CHECK (\"age\" >= 0), description STRING) PRIMARY KEY (\"id\");") =
    .ok s%"-- -\"age\" INT64 NOT NULL DEFAULT 0\n-- +\"age\" INT64 NOT NULL DEFAULT ((0 + 3) - 1 * 4 / 2)\nALTER TABLE \"users\" ALTER COLUMN \"age\" SET DEFAULT ((0 + 3) - 1 * 4 / 2);\n" := by decide +kernel
/- success,ALTER_COLUMN_SET_DEFAULT_complex -/
example : tableDiffed false
    (some s%"CREATE TABLE complex_defaults (\n    id INT64,\n    created_at TIMESTAMP OPTIONS (allow_commit_timestamp=true, option_name=null),\n    updated_at TIMESTAMP,\n    unique_code STRING,\n    status STRING DEFAULT ('pending'),\n    random_number INT64 DEFAULT (FLOOR(RANDOM() * 100)),\n    json_data JSON DEFAULT ('{}'),\n    calculated_value INT64 DEFAULT (SELECT COUNT(*) FROM another_table)\n)  PRIMARY KEY (id);\n")
    (some s%"CREATE TABLE complex_defaults (\n    id INT64,\n    created_at TIMESTAMP,\n    updated_at TIMESTAMP OPTIONS (allow_commit_timestamp=true, option_name=null),\n    unique_code STRING DEFAULT (GENERATE_UUID()),\n    status STRING DEFAULT ('pending'),\n    random_number INT64 DEFAULT (FLOOR(RANDOM() * 100)),\n    json_data JSON DEFAULT ('{}'),\n    calculated_value INT64 DEFAULT (SELECT COUNT(*) FROM another_table)\n) PRIMARY KEY (id);\n") =
    .ok s%"-- -created_at TIMESTAMP OPTIONS (allow_commit_timestamp = TRUE, option_name = NULL)\n-- +created_at TIMESTAMP\nALTER TABLE complex_defaults ALTER COLUMN created_at DROP OPTIONS;\n-- -updated_at TIMESTAMP\n-- +updated_at TIMESTAMP OPTIONS (allow_commit_timestamp = TRUE, option_name = NULL)\nALTER TABLE complex_defaults ALTER COLUMN updated_at SET OPTIONS (allow_commit_timestamp = TRUE, option_name = NULL);\n-- -unique_code STRING\n-- +unique_code STRING DEFAULT (GENERATE_UUID())\nALTER TABLE complex_defaults ALTER COLUMN unique_code SET DEFAULT (GENERATE_UUID());\n" := by decide +kernel
/- success,DiffCreateTableUseAlterTableAddConstraintNotValid -/
example : tableDiffed true
    (some s%"CREATE TABLE \"users\" (id STRING(36) NOT NULL, group_id STRING(36) NOT NULL REFERENCES \"groups\" (\"id\"), \"name\" STRING(255) NOT NULL, \"age\" INT64 DEFAULT 0, description STRING) PRIMARY KEY (\"id\");")
    (some s%"CREATE TABLE \"users\" (id STRING(36) NOT NULL, group_id STRING(36) NOT NULL REFERENCES \"groups\" (\"id\"), \"name\" STRING(255) NOT NULL, \"age\" INT64 DEFAULT 0 CHECK (\"age\" >= 0), description STRING) PRIMARY KEY (\"id\");") =
    .ok s%"-- -\n-- +CONSTRAINT users_age_check CHECK (\"age\" >= 0)\nALTER TABLE \"users\" ADD CONSTRAINT users_age_check CHECK (\"age\" >= 0) NOT VALID;\n" := by decide +kernel
/- success,CREATE_TABLE -/
example : tableDiffed true
    none
    (some s%"CREATE TABLE \"users\" (id STRING(36) NOT NULL, group_id STRING(36) NOT NULL REFERENCES \"groups\" (\"id\"), \"name\" STRING(255) NOT NULL, \"age\" INT64 DEFAULT 0 CHECK (\"age\" >= 0), description STRING) PRIMARY KEY (\"id\");") =
    .ok s%"CREATE TABLE \"users\" (\n    id STRING(36) NOT NULL,\n    group_id STRING(36) NOT NULL,\n    \"name\" STRING(255) NOT NULL,\n    \"age\" INT64 DEFAULT 0,\n    description STRING,\n    CONSTRAINT users_group_id_fkey FOREIGN KEY (group_id) REFERENCES \"groups\" (\"id\"),\n    CONSTRAINT users_age_check CHECK (\"age\" >= 0)\n) PRIMARY KEY (\"id\");\n" := by decide +kernel
/- success,DROP_TABLE -/
example : tableDiffed true
    (some s%"CREATE TABLE \"users\" (id STRING(36) NOT NULL, group_id STRING(36) NOT NULL REFERENCES \"groups\" (\"id\"), \"name\" STRING(255) NOT NULL, \"age\" INT64 DEFAULT 0 CHECK (\"age\" >= 0), description STRING) PRIMARY KEY (\"id\");")
    none =
    .ok s%"DROP TABLE \"users\";\n" := by decide +kernel

/-! `diff_test.go` -/
/- success,before,after,Table -/
example : diffed
    s%"CREATE TABLE public.users (\n    user_id STRING(36) NOT NULL,\n    username STRING(256) NOT NULL,\n    is_verified BOOL NOT NULL DEFAULT (false),\n    created_at TIMESTAMP NOT NULL DEFAULT (CURRENT_TIMESTAMP()),\n) PRIMARY KEY (user_id);\n"
    s%"CREATE TABLE public.users (\n    user_id STRING(36) NOT NULL,\n    username STRING(256) NOT NULL,\n    is_verified BOOL NOT NULL DEFAULT (false),\n    created_at TIMESTAMP NOT NULL DEFAULT (CURRENT_TIMESTAMP()),\n    updated_at TIMESTAMP NOT NULL DEFAULT (CURRENT_TIMESTAMP()),\n) PRIMARY KEY (user_id);\n" =
    .ok s%"-- -\n-- +updated_at TIMESTAMP NOT NULL DEFAULT (CURRENT_TIMESTAMP())\nALTER TABLE public.users ADD COLUMN updated_at TIMESTAMP NOT NULL DEFAULT (CURRENT_TIMESTAMP());\n" := by decide +kernel
/- success,before,after,Table,Asc -/
example : diffed
    s%"CREATE TABLE users (\n    user_id STRING(36) NOT NULL,\n    username STRING(256) NOT NULL,\n    is_verified BOOL NOT NULL DEFAULT (false),\n    created_at TIMESTAMP NOT NULL DEFAULT (CURRENT_TIMESTAMP()),\n    updated_at TIMESTAMP NOT NULL DEFAULT (CURRENT_TIMESTAMP()),\n) PRIMARY KEY (user_id);\nCREATE INDEX users_idx_by_username ON users (username DESC);\n"
    s%"CREATE TABLE users (\n    user_id STRING(36) NOT NULL,\n    username STRING(256) NOT NULL,\n    is_verified BOOL NOT NULL DEFAULT (false),\n    created_at TIMESTAMP NOT NULL DEFAULT (CURRENT_TIMESTAMP()),\n    updated_at TIMESTAMP NOT NULL DEFAULT (CURRENT_TIMESTAMP()),\n) PRIMARY KEY (user_id);\nCREATE INDEX users_idx_by_username ON users (username ASC);\n" =
    .ok s%"-- -CREATE INDEX users_idx_by_username ON users (username DESC);\n-- +CREATE INDEX users_idx_by_username ON users (username ASC);\n--  \nDROP INDEX users_idx_by_username;\nCREATE INDEX users_idx_by_username ON users (username ASC);\n" := by decide +kernel
/- success,before,after,Index -/
example : diffed
    s%"CREATE UNIQUE INDEX IF NOT EXISTS public.users_idx_by_username ON public.users (username DESC);"
    s%"CREATE UNIQUE INDEX IF NOT EXISTS public.users_idx_by_username ON public.users (username ASC, age ASC);" =
    .ok s%"-- -CREATE UNIQUE INDEX public.users_idx_by_username ON public.users (username DESC);\n-- +CREATE UNIQUE INDEX public.users_idx_by_username ON public.users (username ASC, age ASC);\n--  \nDROP INDEX public.users_idx_by_username;\nCREATE UNIQUE INDEX IF NOT EXISTS public.users_idx_by_username ON public.users (username ASC, age ASC);\n" := by decide +kernel
/- success,STRING(10)->STRING(11) -/
example : diffed
    s%"CREATE TABLE public.users ( username STRING(10) NOT NULL );"
    s%"CREATE TABLE public.users ( username STRING(11) NOT NULL );" =
    .ok s%"-- -username STRING(10) NOT NULL\n-- +username STRING(11) NOT NULL\nALTER TABLE public.users ALTER COLUMN username STRING(11) NOT NULL;\n" := by decide +kernel
/- success,SET_DEFAULT_TRUE_FALSE -/
example : diffed
    s%"CREATE TABLE public.passwords ( user_id STRING(36) NOT NULL, password STRING NOT NULL, is_verified BOOL NOT NULL DEFAULT (false), is_expired BOOL NOT NULL DEFAULT (true) );"
    s%"CREATE TABLE public.passwords ( user_id STRING(36) NOT NULL, password STRING NOT NULL, is_verified BOOL NOT NULL DEFAULT (FALSE), is_expired BOOL NOT NULL DEFAULT (TRUE) );" =
    .err .noDifference := by decide +kernel
/- success,ddl.ErrNoDifference,SameContent -/
example : diffed
    s%"CREATE TABLE passwords ( user_id STRING(36) NOT NULL, password STRING NOT NULL, is_verified BOOL NOT NULL DEFAULT (false), is_expired BOOL NOT NULL DEFAULT (true) );"
    s%"CREATE TABLE \"passwords\" ( \"user_id\" STRING(36) NOT NULL, \"password\" STRING NOT NULL, \"is_verified\" BOOL NOT NULL DEFAULT (FALSE), \"is_expired\" BOOL NOT NULL DEFAULT (TRUE) );" =
    .err .noDifference := by decide +kernel

end Ddl.Tests.Sp
