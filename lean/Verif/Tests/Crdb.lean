import Verif.Tests.Support
import Verif.Crdb.Parser
import Verif.Crdb.Diff

/-! Test tables of `pkg/ddl/cockroachdb/*_test.go`. -/

set_option autoImplicit false
set_option maxRecDepth 20000

namespace Ddl.Tests.Crdb

open Ddl.Crdb

/-- `cockroachdb.NewParser(NewLexer(s)).Parse()`, printed. -/
def parsed (s : Str) : Res Str := mapRes (ddlStr (ops lineDiff)) (parse s)

/-- `cockroachdb.Diff` of two parsed texts, printed. -/
def diffed (b a : Str) : Res Str := do
  let b ← parse b
  let a ← parse a
  mapRes (ddlStr (ops lineDiff)) (diff (ops lineDiff) (some b) (some a))

/-- `cockroachdb.DiffCreateTable` of the first tables of two parsed texts (`none` for nil), printed. -/
def tableDiffed (nv : Bool) (b a : Option Str) : Res Str := do
  let first : Option Str → Res (Option CreateTable)
    | none => .ok none
    | some s => mapRes firstTable (parse s)
  let b ← first b
  let a ← first a
  mapRes (ddlStr (ops lineDiff)) (diffCreateTable lineDiff nv b a)

/-! `lexar_test.go`: `Test_lookupIdent` -/
example : ∀ p ∈ ([(s%"EQUAL", .EQUAL),
    (s%"GREATER", .GREATER),
    (s%"LESS", .LESS),
    (s%"CREATE", .CREATE),
    (s%"ALTER", .ALTER),
    (s%"DROP", .DROP),
    (s%"RENAME", .RENAME),
    (s%"CREATE", .CREATE),
    (s%"ALTER", .ALTER),
    (s%"DROP", .DROP),
    (s%"RENAME", .RENAME),
    (s%"TRUNCATE", .TRUNCATE),
    (s%"DELETE", .DELETE),
    (s%"UPDATE", .UPDATE),
    (s%"TABLE", .TABLE),
    (s%"INDEX", .INDEX),
    (s%"VIEW", .VIEW),
    (s%"IF", .IF),
    (s%"EXISTS", .EXISTS),
    (s%"ON", .ON),
    (s%"TO", .TO),
    (s%"BOOL", .BOOL),
    (s%"BOOLEAN", .BOOL),
    (s%"SMALLINT", .INT2),
    (s%"INTEGER", .INT4),
    (s%"INT", .INT4),
    (s%"BIGINT", .INT8),
    (s%"DECIMAL", .DECIMAL),
    (s%"NUMERIC", .NUMERIC),
    (s%"REAL", .REAL),
    (s%"DOUBLE", .DOUBLE),
    (s%"PRECISION", .PRECISION),
    (s%"FLOAT4", .FLOAT4),
    (s%"FLOAT8", .FLOAT8),
    (s%"SMALLSERIAL", .SMALLSERIAL),
    (s%"SERIAL", .SERIAL),
    (s%"BIGSERIAL", .BIGSERIAL),
    (s%"UUID", .UUID),
    (s%"JSONB", .JSONB),
    (s%"CHARACTER", .CHARACTER),
    (s%"VARYING", .VARYING),
    (s%"VARCHAR", .VARCHAR),
    (s%"TEXT", .STRING),
    (s%"TIMESTAMP", .TIMESTAMP),
    (s%"TIMESTAMPTZ", .TIMESTAMPTZ),
    (s%"WITH", .WITH),
    (s%"TIME", .TIME),
    (s%"ZONE", .ZONE),
    (s%"DEFAULT", .DEFAULT),
    (s%"NOT", .NOT),
    (s%"NULL", .NULL),
    (s%"ASC", .ASC),
    (s%"DESC", .DESC),
    (s%"CASCADE", .CASCADE),
    (s%"CONSTRAINT", .CONSTRAINT),
    (s%"PRIMARY", .PRIMARY),
    (s%"KEY", .KEY),
    (s%"FOREIGN", .FOREIGN),
    (s%"REFERENCES", .REFERENCES),
    (s%"UNIQUE", .UNIQUE),
    (s%"CHECK", .CHECK),
    (s%"NULLIF", .NULLIF),
    (s%"users", .IDENT)] : List (Str × TokType)), lookupIdent .cockroachdb p.1 = p.2 := by decide +kernel

/-! `lexar_test.go`: `TestLex`, `TestLexer_NextToken` -/
example : (lex .cockroachdb s%"CREATE TABLE IF NOT EXISTS \"users\" (\n    \"user_id\"    UUID         NOT NULL,\n    \"name\"       VARCHAR(255) NOT NULL,\n    \"email\"      VARCHAR(255) NOT NULL,\n    \"password\"   VARCHAR(255) NOT NULL,\n    \"created_at\" TIMESTAMPTZ   NOT NULL,\n    \"updated_at\" TIMESTAMPTZ   NOT NULL,\n    PRIMARY KEY (\"user_id\"),\n    UNIQUE (\"email\")\n);").take 58 = [⟨.CREATE, s%"CREATE"⟩, ⟨.TABLE, s%"TABLE"⟩, ⟨.IF, s%"IF"⟩, ⟨.NOT, s%"NOT"⟩, ⟨.EXISTS, s%"EXISTS"⟩, ⟨.IDENT, s%"\"users\""⟩, ⟨.OPEN_PAREN, s%"("⟩, ⟨.IDENT, s%"\"user_id\""⟩, ⟨.UUID, s%"UUID"⟩, ⟨.NOT, s%"NOT"⟩, ⟨.NULL, s%"NULL"⟩, ⟨.COMMA, s%","⟩, ⟨.IDENT, s%"\"name\""⟩, ⟨.VARCHAR, s%"VARCHAR"⟩, ⟨.OPEN_PAREN, s%"("⟩, ⟨.IDENT, s%"255"⟩, ⟨.CLOSE_PAREN, s%")"⟩, ⟨.NOT, s%"NOT"⟩, ⟨.NULL, s%"NULL"⟩, ⟨.COMMA, s%","⟩, ⟨.IDENT, s%"\"email\""⟩, ⟨.VARCHAR, s%"VARCHAR"⟩, ⟨.OPEN_PAREN, s%"("⟩, ⟨.IDENT, s%"255"⟩, ⟨.CLOSE_PAREN, s%")"⟩, ⟨.NOT, s%"NOT"⟩, ⟨.NULL, s%"NULL"⟩, ⟨.COMMA, s%","⟩, ⟨.IDENT, s%"\"password\""⟩, ⟨.VARCHAR, s%"VARCHAR"⟩, ⟨.OPEN_PAREN, s%"("⟩, ⟨.IDENT, s%"255"⟩, ⟨.CLOSE_PAREN, s%")"⟩, ⟨.NOT, s%"NOT"⟩, ⟨.NULL, s%"NULL"⟩, ⟨.COMMA, s%","⟩, ⟨.IDENT, s%"\"created_at\""⟩, ⟨.TIMESTAMPTZ, s%"TIMESTAMPTZ"⟩, ⟨.NOT, s%"NOT"⟩, ⟨.NULL, s%"NULL"⟩, ⟨.COMMA, s%","⟩, ⟨.IDENT, s%"\"updated_at\""⟩, ⟨.TIMESTAMPTZ, s%"TIMESTAMPTZ"⟩, ⟨.NOT, s%"NOT"⟩, ⟨.NULL, s%"NULL"⟩, ⟨.COMMA, s%","⟩, ⟨.PRIMARY, s%"PRIMARY"⟩, ⟨.KEY, s%"KEY"⟩, ⟨.OPEN_PAREN, s%"("⟩, ⟨.IDENT, s%"\"user_id\""⟩, ⟨.CLOSE_PAREN, s%")"⟩, ⟨.COMMA, s%","⟩, ⟨.UNIQUE, s%"UNIQUE"⟩, ⟨.OPEN_PAREN, s%"("⟩, ⟨.IDENT, s%"\"email\""⟩, ⟨.CLOSE_PAREN, s%")"⟩, ⟨.CLOSE_PAREN, s%")"⟩, ⟨.SEMICOLON, s%";"⟩] := by decide +kernel
example : (lex .cockroachdb s%"|").take 1 = [⟨.ILLEGAL, s%"|"⟩] := by decide +kernel
example : (lex .cockroachdb s%":").take 1 = [⟨.ILLEGAL, s%":"⟩] := by decide +kernel
example : (lex .cockroachdb s%"!").take 1 = [⟨.ILLEGAL, s%"!"⟩] := by decide +kernel

/-! `parser_test.go`: `TestParser_Parse` -/
/- success,CREATE_TABLE -/
example : parsed s%"CREATE TABLE \"groups\" (\"id\" UUID NOT NULL PRIMARY KEY, description TEXT); CREATE TABLE \"users\" (id UUID NOT NULL, group_id UUID NOT NULL REFERENCES \"groups\" (\"id\") ON DELETE NO ACTION, \"name\" VARCHAR(255) NOT NULL UNIQUE, \"age\" INT DEFAULT 0 CHECK (\"age\" >= 0), description TEXT, PRIMARY KEY (\"id\"));" =
    .ok s%"CREATE TABLE \"groups\" (\n    \"id\" UUID NOT NULL,\n    description TEXT,\n    CONSTRAINT groups_pkey PRIMARY KEY (\"id\")\n);\nCREATE TABLE \"users\" (\n    id UUID NOT NULL,\n    group_id UUID NOT NULL,\n    \"name\" VARCHAR(255) NOT NULL,\n    \"age\" INT DEFAULT 0,\n    description TEXT,\n    CONSTRAINT users_pkey PRIMARY KEY (\"id\"),\n    CONSTRAINT users_group_id_fkey FOREIGN KEY (group_id) REFERENCES \"groups\" (\"id\") ON DELETE NO ACTION,\n    UNIQUE INDEX users_unique_name (\"name\"),\n    CONSTRAINT users_age_check CHECK (\"age\" >= 0)\n);\n" := by decide +kernel
/- success,complex_defaults -/
example : parsed s%"-- table: complex_defaults\nCREATE TABLE IF NOT EXISTS complex_defaults (\n    -- id is the primary key.\n    id SERIAL PRIMARY KEY,\n    created_at TIMESTAMP DEFAULT CURRENT_TIMESTAMP,\n    updated_at TIMESTAMP WITH TIME ZONE DEFAULT CURRENT_TIMESTAMP,\n    unique_code TEXT DEFAULT 'CODE-' || TO_CHAR(NOW(), 'YYYYMMDDHH24MISS') || '-' || LPAD(TO_CHAR(NEXTVAL('seq_complex_default')), 5, '0'),\n    status CHARACTER VARYING DEFAULT 'pending',\n    random_number INTEGER DEFAULT FLOOR(RANDOM() * 100::INTEGER)::INTEGER,\n    json_data JSONB DEFAULT '{}',\n    calculated_value INTEGER DEFAULT (SELECT COUNT(*) FROM another_table)\n);\n" =
    .ok s%"CREATE TABLE IF NOT EXISTS complex_defaults (\n    id SERIAL,\n    created_at TIMESTAMP DEFAULT CURRENT_TIMESTAMP,\n    updated_at TIMESTAMP WITH TIME ZONE DEFAULT CURRENT_TIMESTAMP,\n    unique_code TEXT DEFAULT 'CODE-' || TO_CHAR(NOW(), 'YYYYMMDDHH24MISS') || '-' || LPAD(TO_CHAR(NEXTVAL('seq_complex_default')), 5, '0'),\n    status CHARACTER VARYING DEFAULT 'pending',\n    random_number INTEGER DEFAULT FLOOR(RANDOM() * 100::INTEGER)::INTEGER,\n    json_data JSONB DEFAULT '{}',\n    calculated_value INTEGER DEFAULT (SELECT COUNT(*) FROM another_table),\n    CONSTRAINT complex_defaults_pkey PRIMARY KEY (id)\n);\n" := by decide +kernel
/- success,CREATE_TABLE_TYPE_ANNOTATION -/
example : parsed s%"CREATE TABLE IF NOT EXISTS public.users (\n    user_id UUID NOT NULL,\n    username VARCHAR(256) NOT NULL,\n    is_verified BOOL NOT NULL DEFAULT false,\n    created_at TIMESTAMPTZ NOT NULL DEFAULT timezone('UTC':::STRING, current_timestamp():::TIMESTAMPTZ),\n    updated_at TIMESTAMPTZ NOT NULL DEFAULT timezone('UTC':::STRING, current_timestamp():::TIMESTAMPTZ),\n    CONSTRAINT users_pkey PRIMARY KEY (user_id ASC),\n    INDEX users_idx_by_username (username DESC)\n);\n" =
    .ok s%"CREATE TABLE IF NOT EXISTS public.users (\n    user_id UUID NOT NULL,\n    username VARCHAR(256) NOT NULL,\n    is_verified BOOL NOT NULL DEFAULT false,\n    created_at TIMESTAMPTZ NOT NULL DEFAULT timezone('UTC':::STRING, current_timestamp():::TIMESTAMPTZ),\n    updated_at TIMESTAMPTZ NOT NULL DEFAULT timezone('UTC':::STRING, current_timestamp():::TIMESTAMPTZ),\n    CONSTRAINT users_pkey PRIMARY KEY (user_id ASC),\n    INDEX users_idx_by_username (username DESC)\n);\n" := by decide +kernel

/-! `parser_test.go`: `failureTests` -/
example : allFail parse [(s%")invalid", .unexpectedCurrentToken),
    (s%"CREATE INVALID;", .unexpectedCurrentToken),
    (s%"CREATE TABLE;", .unexpectedCurrentToken),
    (s%"CREATE TABLE IF;", .unexpectedPeekToken),
    (s%"CREATE TABLE IF NOT;", .unexpectedPeekToken),
    (s%"CREATE TABLE \"users\";", .unexpectedCurrentToken),
    (s%"CREATE TABLE \"users\" (\"id\";", .unexpectedCurrentToken),
    (s%"CREATE TABLE \"users\" (\"id\" UUID;", .unexpectedCurrentToken),
    (s%"CREATE TABLE \"users\" (\"id\" UUID, CONSTRAINT \"invalid\" NOT;", .unexpectedCurrentToken),
    (s%"CREATE TABLE \"users\" (\"id\" UUID)(;", .unexpectedPeekToken),
    (s%"CREATE TABLE \"users\" (\"id\" TIMESTAMP CREATE", .unexpectedCurrentToken),
    (s%"CREATE TABLE \"users\" (\"id\" VARYING();", .unexpectedCurrentToken),
    (s%"CREATE TABLE \"users\" (\"id\" UUID NULL NOT;", .unexpectedPeekToken),
    (s%"CREATE TABLE \"users\" (\"id\" UUID DEFAULT (\"id\")", .unexpectedCurrentToken),
    (s%"CREATE TABLE \"users\" (\"id\" UUID DEFAULT (\"id\",", .unexpectedCurrentToken),
    (s%"CREATE TABLE \"users\" (\"id\" UUID PRIMARY NOT", .unexpectedPeekToken),
    (s%"CREATE TABLE \"users\" (\"id\" UUID REFERENCES NOT", .unexpectedPeekToken),
    (s%"CREATE TABLE \"users\" (\"id\" UUID REFERENCES \"groups\" (NOT", .unexpectedCurrentToken),
    (s%"CREATE TABLE \"users\" (\"id\" UUID CHECK NOT", .unexpectedPeekToken),
    (s%"CREATE TABLE \"users\" (\"id\" UUID CHECK (NOT", .unexpectedCurrentToken),
    (s%"CREATE TABLE \"users\" (\"id\" UUID, CONSTRAINT NOT", .unexpectedCurrentToken),
    (s%"CREATE TABLE \"users\" (\"id\" UUID, PRIMARY NOT", .unexpectedPeekToken),
    (s%"CREATE TABLE \"users\" (\"id\" UUID, PRIMARY KEY NOT", .unexpectedPeekToken),
    (s%"CREATE TABLE \"users\" (\"id\" UUID, PRIMARY KEY (NOT", .unexpectedCurrentToken),
    (s%"CREATE TABLE \"users\" (\"id\" UUID REFERENCES foo (foo_id) ON", .unexpectedCurrentToken),
    (s%"CREATE TABLE \"users\" (\"id\" UUID REFERENCES foo (foo_id) ON DELETE", .unexpectedPeekToken),
    (s%"CREATE TABLE \"users\" (\"id\" UUID REFERENCES foo (foo_id) ON DELETE NO", .unexpectedPeekToken),
    (s%"CREATE TABLE \"users\" (\"id\" UUID REFERENCES foo (foo_id) ON DELETE NO ACTION", .unexpectedCurrentToken),
    (s%"CREATE TABLE \"users\" (\"id\" UUID, FOREIGN NOT", .unexpectedPeekToken),
    (s%"CREATE TABLE \"users\" (\"id\" UUID, FOREIGN KEY NOT", .unexpectedPeekToken),
    (s%"CREATE TABLE \"users\" (\"id\" UUID, FOREIGN KEY (NOT", .unexpectedCurrentToken),
    (s%"CREATE TABLE \"users\" (\"id\" UUID, FOREIGN KEY (\"group_id\") NOT", .unexpectedCurrentToken),
    (s%"CREATE TABLE \"users\" (\"id\" UUID, FOREIGN KEY (\"group_id\") REFERENCES ", .unexpectedCurrentToken),
    (s%"CREATE TABLE \"users\" (\"id\" UUID, FOREIGN KEY (\"group_id\") REFERENCES \"groups\" NOT", .unexpectedCurrentToken),
    (s%"CREATE TABLE \"users\" (\"id\" UUID, FOREIGN KEY (\"group_id\") REFERENCES \"groups\" (\"id\")", .unexpectedCurrentToken),
    (s%"CREATE TABLE \"users\" (\"id\" UUID, FOREIGN KEY (\"group_id\") REFERENCES \"groups\" (\"id\") ON", .unexpectedCurrentToken),
    (s%"CREATE TABLE \"users\" (\"id\" UUID, FOREIGN KEY (\"group_id\") REFERENCES \"groups\" (\"id\") ON DELETE", .unexpectedPeekToken),
    (s%"CREATE TABLE \"users\" (\"id\" UUID, FOREIGN KEY (\"group_id\") REFERENCES \"groups\" (\"id\") ON DELETE NO", .unexpectedCurrentToken),
    (s%"CREATE TABLE \"users\" (\"id\" UUID, FOREIGN KEY (\"group_id\") REFERENCES \"groups\" (\"id\") ON DELETE NO ACTION", .unexpectedCurrentToken),
    (s%"CREATE TABLE \"users\" (\"id\" UUID, UNIQUE NOT", .unexpectedPeekToken),
    (s%"CREATE TABLE \"users\" (\"id\" UUID, UNIQUE INDEX users_idx_name NOT", .unexpectedPeekToken),
    (s%"CREATE TABLE \"users\" (\"id\" UUID, UNIQUE INDEX users_idx_name (NOT", .unexpectedCurrentToken),
    (s%"CREATE TABLE \"users\" (\"id\" UUID, UNIQUE INDEX NOT", .unexpectedCurrentToken),
    (s%"CREATE TABLE \"users\" (\"id\" UUID, name TEXT, UNIQUE (\"id\", name)", .unexpectedPeekToken),
    (s%"CREATE INDEX NOT", .unexpectedCurrentToken),
    (s%"CREATE INDEX IF;", .unexpectedPeekToken),
    (s%"CREATE INDEX IF NOT;", .unexpectedPeekToken),
    (s%"CREATE INDEX IF NOT EXISTS;", .unexpectedCurrentToken),
    (s%"CREATE INDEX users_idx_username NOT", .unexpectedCurrentToken),
    (s%"CREATE INDEX users_idx_username ON NOT", .unexpectedCurrentToken),
    (s%"CREATE INDEX users_idx_username ON users NOT", .unexpectedCurrentToken),
    (s%"CREATE INDEX users_idx_username ON users USING NOT", .unexpectedCurrentToken),
    (s%"CREATE INDEX users_idx_username ON users USING btree NOT", .unexpectedCurrentToken),
    (s%"CREATE INDEX users_idx_username ON users USING btree (NOT)", .unexpectedCurrentToken)] = true := by decide +kernel

/-! `diff_create_table_test.go` -/
/- failure,ddl.ErrNoDifference -/
example : tableDiffed false
    (some s%"CREATE TABLE \"users\" (id UUID NOT NULL, group_id UUID NOT NULL REFERENCES \"groups\" (\"id\"), \"name\" VARCHAR(255) NOT NULL UNIQUE, description TEXT, PRIMARY KEY (\"id\"));")
    (some s%"CREATE TABLE \"users\" (id UUID NOT NULL, group_id UUID NOT NULL REFERENCES \"groups\" (\"id\"), \"name\" VARCHAR(255) NOT NULL UNIQUE, description TEXT, PRIMARY KEY (\"id\"));") =
    .err .noDifference := by decide +kernel
/- success,ADD_COLUMN -/
example : tableDiffed false
    (some s%"CREATE TABLE \"users\" (id UUID NOT NULL, group_id UUID NOT NULL REFERENCES \"groups\" (\"id\"), \"name\" VARCHAR(255) NOT NULL UNIQUE, description TEXT, PRIMARY KEY (\"id\"));")
    (some s%"CREATE TABLE \"users\" (id UUID NOT NULL, group_id UUID NOT NULL REFERENCES \"groups\" (\"id\"), \"name\" VARCHAR(255) NOT NULL UNIQUE, \"age\" INTEGER DEFAULT 0 NOT NULL CHECK (\"age\" >= 0), description TEXT, PRIMARY KEY (\"id\"));") =
    .ok s%"-- -\n-- +\"age\" INTEGER NOT NULL DEFAULT 0\nALTER TABLE \"users\" ADD COLUMN \"age\" INTEGER NOT NULL DEFAULT 0;\n-- -\n-- +CONSTRAINT users_age_check CHECK (\"age\" >= 0)\nALTER TABLE \"users\" ADD CONSTRAINT users_age_check CHECK (\"age\" >= 0);\n" := by decide +kernel
/- success,DROP_COLUMN -/
example : tableDiffed false
    (some s%"CREATE TABLE \"users\" (id UUID NOT NULL, group_id UUID NOT NULL REFERENCES \"groups\" (\"id\"), \"name\" VARCHAR(255) NOT NULL UNIQUE, \"age\" INTEGER DEFAULT 0 NOT NULL CHECK (\"age\" >= 0), description TEXT, PRIMARY KEY (\"id\"));")
    (some s%"CREATE TABLE \"users\" (id UUID NOT NULL, group_id UUID NOT NULL REFERENCES \"groups\" (\"id\"), \"name\" VARCHAR(255) NOT NULL, description TEXT, PRIMARY KEY (\"id\"));") =
    .ok s%"-- -UNIQUE INDEX users_unique_name (name ASC)\n-- +\nDROP INDEX users_unique_name;\n-- -CONSTRAINT users_age_check CHECK (\"age\" >= 0)\n-- +\nALTER TABLE \"users\" DROP CONSTRAINT users_age_check;\n-- -\"age\" INTEGER NOT NULL DEFAULT 0\n-- +\nALTER TABLE \"users\" DROP COLUMN \"age\";\n" := by decide +kernel
/- success,ALTER_COLUMN_SET_DATA_TYPE -/
example : tableDiffed false
    (some s%"CREATE TABLE \"users\" (id UUID NOT NULL, group_id UUID NOT NULL REFERENCES \"groups\" (\"id\"), \"name\" VARCHAR(255) NOT NULL, \"age\" INT DEFAULT 0 CHECK (\"age\" >= 0), description TEXT, PRIMARY KEY (\"id\"));")
    (some s%"CREATE TABLE \"users\" (id UUID NOT NULL, group_id UUID NOT NULL REFERENCES \"groups\" (\"id\"), \"name\" TEXT NOT NULL UNIQUE, \"age\" BIGINT DEFAULT 0 CHECK (\"age\" >= 0), description STRING, PRIMARY KEY (\"id\"));") =
    .ok s%"-- -\"name\" VARCHAR(255) NOT NULL\n-- +\"name\" TEXT NOT NULL\nALTER TABLE \"users\" ALTER COLUMN \"name\" SET DATA TYPE TEXT;\n-- -\"age\" INT DEFAULT 0\n-- +\"age\" BIGINT DEFAULT 0\nALTER TABLE \"users\" ALTER COLUMN \"age\" SET DATA TYPE BIGINT;\n-- -\n-- +UNIQUE INDEX users_unique_name (name ASC)\nCREATE UNIQUE INDEX users_unique_name ON \"users\" (\"name\");\n" := by decide +kernel
/- success,ALTER_COLUMN_DROP_DEFAULT -/
example : tableDiffed false
    (some s%"CREATE TABLE \"users\" (id UUID NOT NULL, group_id UUID NOT NULL REFERENCES \"groups\" (\"id\"), \"name\" VARCHAR(255) NOT NULL UNIQUE, \"age\" INT DEFAULT 0 CHECK (\"age\" >= 0), description TEXT, PRIMARY KEY (\"id\"));")
    (some s%"CREATE TABLE \"users\" (id UUID NOT NULL, group_id UUID NOT NULL REFERENCES \"groups\" (\"id\"), \"name\" VARCHAR(255) NOT NULL UNIQUE, \"age\" INT CHECK (\"age\" >= 0), description TEXT, PRIMARY KEY (\"id\"));") =
    .ok s%"-- -\"age\" INT DEFAULT 0\n-- +\"age\" INT\nALTER TABLE \"users\" ALTER COLUMN \"age\" DROP DEFAULT;\n" := by decide +kernel
/- success,ALTER_COLUMN_SET_DEFAULT -/
example : tableDiffed false
    (some s%"CREATE TABLE \"users\" (id UUID NOT NULL, group_id UUID NOT NULL REFERENCES \"groups\" (\"id\"), \"name\" VARCHAR(255) NOT NULL UNIQUE, \"age\" INT CHECK (\"age\" >= 0), description TEXT, PRIMARY KEY (\"id\"));")
    (some s%"CREATE TABLE \"users\" (id UUID NOT NULL, group_id UUID NOT NULL REFERENCES \"groups\" (\"id\"), \"name\" VARCHAR(255) NOT NULL UNIQUE, \"age\" INT DEFAULT 0 CHECK (\"age\" <> 0), description TEXT, PRIMARY KEY (id));") =
    .ok s%"-- -\"age\" INT\n-- +\"age\" INT DEFAULT 0\nALTER TABLE \"users\" ALTER COLUMN \"age\" SET DEFAULT 0;\n-- -CONSTRAINT users_age_check CHECK (\"age\" >= 0)\n-- +\nALTER TABLE \"users\" DROP CONSTRAINT users_age_check;\n-- -\n-- +CONSTRAINT users_age_check CHECK (\"age\" <> 0)\nALTER TABLE \"users\" ADD CONSTRAINT users_age_check CHECK (\"age\" <> 0);\n" := by decide +kernel
/- success,ALTER_TABLE_RENAME_TO -/
example : tableDiffed false
    (some s%"CREATE TABLE \"public.users\" (id UUID NOT NULL, group_id UUID NOT NULL REFERENCES \"groups\" (\"id\"), \"name\" VARCHAR(255) NOT NULL UNIQUE, \"age\" INT DEFAULT 0 CHECK (\"age\" >= 0), description TEXT, PRIMARY KEY (\"id\"));")
    (some s%"CREATE TABLE \"app_users\" (id UUID NOT NULL, group_id UUID NOT NULL REFERENCES \"groups\" (\"id\"), \"name\" VARCHAR(255) NOT NULL UNIQUE, \"age\" INT DEFAULT 0 CHECK (\"age\" >= 0), description TEXT, PRIMARY KEY (\"id\"));") =
    .ok s%"-- -public.users\n-- +public.app_users\nALTER TABLE \"public.users\" RENAME TO \"public.app_users\";\n-- -CONSTRAINT users_pkey PRIMARY KEY (\"id\")\n-- +\nALTER TABLE \"public.app_users\" DROP CONSTRAINT users_pkey;\n-- -CONSTRAINT users_group_id_fkey FOREIGN KEY (group_id) REFERENCES \"groups\" (\"id\")\n-- +\nALTER TABLE \"public.app_users\" DROP CONSTRAINT users_group_id_fkey;\n-- -UNIQUE INDEX users_unique_name (name ASC)\n-- +\nDROP INDEX users_unique_name;\n-- -CONSTRAINT users_age_check CHECK (\"age\" >= 0)\n-- +\nALTER TABLE \"public.app_users\" DROP CONSTRAINT users_age_check;\n-- -\n-- +CONSTRAINT app_users_pkey PRIMARY KEY (\"id\")\nALTER TABLE \"public.app_users\" ADD CONSTRAINT app_users_pkey PRIMARY KEY (\"id\");\n-- -\n-- +CONSTRAINT app_users_group_id_fkey FOREIGN KEY (group_id) REFERENCES \"groups\" (\"id\")\nALTER TABLE \"public.app_users\" ADD CONSTRAINT app_users_group_id_fkey FOREIGN KEY (group_id) REFERENCES \"groups\" (\"id\");\n-- -\n-- +UNIQUE INDEX app_users_unique_name (name ASC)\nCREATE UNIQUE INDEX app_users_unique_name ON \"public.app_users\" (\"name\");\n-- -\n-- +CONSTRAINT app_users_age_check CHECK (\"age\" >= 0)\nALTER TABLE \"public.app_users\" ADD CONSTRAINT app_users_age_check CHECK (\"age\" >= 0);\n" := by decide +kernel
/- success,SET_NOT_NULL -/
example : tableDiffed false
    (some s%"CREATE TABLE \"users\" (id UUID NOT NULL, group_id UUID NOT NULL REFERENCES \"groups\" (\"id\"), \"name\" VARCHAR(255) NOT NULL UNIQUE, \"age\" INT DEFAULT 0 CHECK (\"age\" >= 0), description TEXT, PRIMARY KEY (\"id\"));")
    (some s%"CREATE TABLE \"users\" (id UUID NOT NULL, group_id UUID NOT NULL REFERENCES \"groups\" (\"id\"), \"name\" VARCHAR(255) NOT NULL UNIQUE, \"age\" INTEGER DEFAULT 0 NOT NULL CHECK (\"age\" >= 0), description TEXT, PRIMARY KEY (\"id\"));") =
    .ok s%"-- -\"age\" INT DEFAULT 0\n-- +\"age\" INTEGER NOT NULL DEFAULT 0\nALTER TABLE \"users\" ALTER COLUMN \"age\" SET NOT NULL;\n" := by decide +kernel
/- success,DROP_NOT_NULL -/
example : tableDiffed false
    (some s%"CREATE TABLE \"users\" (id UUID NOT NULL, group_id UUID NOT NULL REFERENCES \"groups\" (\"id\"), \"name\" VARCHAR(255) NOT NULL UNIQUE, \"age\" INT DEFAULT 0 NOT NULL CHECK (\"age\" >= 0), description TEXT, PRIMARY KEY (\"id\"));")
    (some s%"CREATE TABLE \"users\" (id UUID NOT NULL, group_id UUID NOT NULL REFERENCES \"groups\" (\"id\"), \"name\" VARCHAR(255) NOT NULL UNIQUE, \"age\" INT DEFAULT 0 CHECK (\"age\" >= 0), description TEXT, PRIMARY KEY (\"id\"));") =
    .ok s%"-- -\"age\" INT NOT NULL DEFAULT 0\n-- +\"age\" INT DEFAULT 0\nALTER TABLE \"users\" ALTER COLUMN \"age\" DROP NOT NULL;\n" := by decide +kernel
/- success,DROP_ADD_PRIMARY_KEY -/
example : tableDiffed false
    (some s%"CREATE TABLE \"users\" (id UUID NOT NULL, group_id UUID NOT NULL REFERENCES \"groups\" (\"id\"), \"name\" VARCHAR(255) NOT NULL UNIQUE, \"age\" INT DEFAULT 0 NOT NULL CHECK (\"age\" >= 0), description TEXT, PRIMARY KEY (\"id\"));")
    (some s%"CREATE TABLE \"users\" (id UUID NOT NULL, group_id UUID NOT NULL REFERENCES \"groups\" (\"id\"), \"name\" VARCHAR(255) NOT NULL UNIQUE, \"age\" INT DEFAULT 0 NOT NULL CHECK (\"age\" >= 0), description TEXT, PRIMARY KEY (\"id\", name));") =
    .ok s%"-- -CONSTRAINT users_pkey PRIMARY KEY (\"id\")\n-- +\nALTER TABLE \"users\" DROP CONSTRAINT users_pkey;\n-- -\n-- +CONSTRAINT users_pkey PRIMARY KEY (\"id\", name)\nALTER TABLE \"users\" ADD CONSTRAINT users_pkey PRIMARY KEY (\"id\", name);\n" := by decide +kernel
/- success,DROP_ADD_FOREIGN_KEY -/
example : tableDiffed false
    (some s%"CREATE TABLE \"users\" (id UUID NOT NULL, group_id UUID NOT NULL, \"name\" VARCHAR(255) NOT NULL UNIQUE, \"age\" INT DEFAULT 0 NOT NULL CHECK (\"age\" >= 0), description TEXT, PRIMARY KEY (\"id\"), CONSTRAINT users_group_id_fkey FOREIGN KEY (group_id) REFERENCES \"groups\" (\"id\"));")
    (some s%"CREATE TABLE \"users\" (id UUID NOT NULL, group_id UUID NOT NULL, \"name\" VARCHAR(255) NOT NULL UNIQUE, \"age\" INT DEFAULT 0 NOT NULL CHECK (\"age\" >= 0), description TEXT, PRIMARY KEY (\"id\"), CONSTRAINT users_group_id_fkey FOREIGN KEY (group_id, name) REFERENCES \"groups\" (\"id\", name));") =
    .ok s%"-- -CONSTRAINT users_group_id_fkey FOREIGN KEY (group_id) REFERENCES \"groups\" (\"id\")\n-- +\nALTER TABLE \"users\" DROP CONSTRAINT users_group_id_fkey;\n-- -\n-- +CONSTRAINT users_group_id_fkey FOREIGN KEY (group_id, name) REFERENCES \"groups\" (\"id\", name)\nALTER TABLE \"users\" ADD CONSTRAINT users_group_id_fkey FOREIGN KEY (group_id, name) REFERENCES \"groups\" (\"id\", name);\n" := by decide +kernel
/- success,DROP_ADD_UNIQUE -/
example : tableDiffed false
    (some s%"CREATE TABLE \"users\" (id UUID NOT NULL, group_id UUID NOT NULL, \"name\" VARCHAR(255) NOT NULL UNIQUE, \"age\" INT DEFAULT 0 NOT NULL CHECK (\"age\" >= 0), description TEXT, PRIMARY KEY (\"id\"));")
    (some s%"CREATE TABLE \"users\" (id UUID NOT NULL, group_id UUID NOT NULL, \"name\" VARCHAR(255) NOT NULL UNIQUE, \"age\" INT DEFAULT 0 NOT NULL CHECK (\"age\" >= 0), description TEXT, PRIMARY KEY (\"id\"), UNIQUE INDEX users_unique_name (\"id\" ASC, name ASC));") =
    .ok s%"-- -UNIQUE INDEX users_unique_name (\"name\")\n-- +UNIQUE INDEX users_unique_name (\"id\" ASC, name ASC)\nDROP INDEX users_unique_name;\nCREATE UNIQUE INDEX users_unique_name ON \"users\" (\"id\" ASC, name ASC);\n" := by decide +kernel
/- success,ALTER_COLUMN_SET_DEFAULT_OVERWRITE -/
example : tableDiffed false
    (some s%"CREATE TABLE \"users\" (id UUID NOT NULL, group_id UUID NOT NULL, \"name\" VARCHAR(255) NOT NULL UNIQUE, \"age\" INT DEFAULT 0 NOT NULL CHECK (\"age\" >= 0), description TEXT, PRIMARY KEY (\"id\"));")
    (some s%"CREATE TABLE \"users\" (id UUID NOT NULL, group_id UUID NOT NULL, \"name\" VARCHAR(255) NOT NULL UNIQUE, \"age\" INT DEFAULT ( (0 + 3) - 1 * 4 / 2 ) NOT NULL CHECK (\"age\" >= 0), description TEXT, PRIMARY KEY (\"id\"));") =
    .ok s%"-- -\"age\" INT NOT NULL DEFAULT 0\n-- +\"age\" INT NOT NULL DEFAULT ((0 + 3) - 1 * 4 / 2)\nALTER TABLE \"users\" ALTER COLUMN \"age\" SET DEFAULT ((0 + 3) - 1 * 4 / 2);\n" := by decide +kernel
/- success,ALTER_COLUMN_SET_DEFAULT_complex -/
example : tableDiffed false
    (some s%"CREATE TABLE complex_defaults (\n    id SERIAL PRIMARY KEY,\n    created_at TIMESTAMP WITH TIME ZONE DEFAULT CURRENT_TIMESTAMP,\n    updated_at TIMESTAMP WITH TIME ZONE DEFAULT CURRENT_TIMESTAMP,\n    unique_code TEXT,\n    status TEXT DEFAULT 'pending',\n    random_number INTEGER DEFAULT FLOOR(RANDOM() * 100)::INTEGER,\n    json_data JSONB DEFAULT '{}',\n    calculated_value INTEGER DEFAULT (SELECT COUNT(*) FROM another_table)\n);\n")
    (some s%"CREATE TABLE complex_defaults (\n    id SERIAL PRIMARY KEY,\n    created_at TIMESTAMP WITH TIME ZONE DEFAULT CURRENT_TIMESTAMP,\n    updated_at TIMESTAMP WITH TIME ZONE DEFAULT CURRENT_TIMESTAMP,\n    unique_code TEXT DEFAULT 'CODE-' || TO_CHAR(NOW(), 'YYYYMMDDHH24MISS') || '-' || LPAD(TO_CHAR(NEXTVAL('seq_complex_default')), 5, '0'),\n    status TEXT DEFAULT 'pending',\n    random_number INTEGER DEFAULT FLOOR(RANDOM() * 100)::INTEGER,\n    json_data JSONB DEFAULT '{}',\n    calculated_value INTEGER DEFAULT (SELECT COUNT(*) FROM another_table)\n);\n") =
    .ok s%"-- -unique_code TEXT\n-- +unique_code TEXT DEFAULT 'CODE-' || TO_CHAR(NOW(), 'YYYYMMDDHH24MISS') || '-' || LPAD(TO_CHAR(NEXTVAL('seq_complex_default')), 5, '0')\nALTER TABLE complex_defaults ALTER COLUMN unique_code SET DEFAULT 'CODE-' || TO_CHAR(NOW(), 'YYYYMMDDHH24MISS') || '-' || LPAD(TO_CHAR(NEXTVAL('seq_complex_default')), 5, '0');\n" := by decide +kernel
/- success,DiffCreateTableUseAlterTableAddConstraintNotValid -/
example : tableDiffed true
    (some s%"CREATE TABLE \"users\" (id UUID NOT NULL, group_id UUID NOT NULL REFERENCES \"groups\" (\"id\"), \"name\" VARCHAR(255) NOT NULL UNIQUE, \"age\" INT DEFAULT 0, description TEXT, PRIMARY KEY (\"id\"));")
    (some s%"CREATE TABLE \"users\" (id UUID NOT NULL, group_id UUID NOT NULL REFERENCES \"groups\" (\"id\"), \"name\" VARCHAR(255) NOT NULL UNIQUE, \"age\" INT DEFAULT 0 CHECK (\"age\" >= 0), description TEXT, PRIMARY KEY (\"id\"));") =
    .ok s%"-- -\n-- +CONSTRAINT users_age_check CHECK (\"age\" >= 0)\nALTER TABLE \"users\" ADD CONSTRAINT users_age_check CHECK (\"age\" >= 0) NOT VALID;\n" := by decide +kernel
/- success,CREATE_TABLE -/
example : tableDiffed true
    none
    (some s%"CREATE TABLE \"users\" (id UUID NOT NULL, group_id UUID NOT NULL REFERENCES \"groups\" (\"id\"), \"name\" VARCHAR(255) NOT NULL UNIQUE, \"age\" INT DEFAULT 0 CHECK (\"age\" >= 0), description TEXT, PRIMARY KEY (\"id\"));") =
    .ok s%"CREATE TABLE \"users\" (\n    id UUID NOT NULL,\n    group_id UUID NOT NULL,\n    \"name\" VARCHAR(255) NOT NULL,\n    \"age\" INT DEFAULT 0,\n    description TEXT,\n    CONSTRAINT users_pkey PRIMARY KEY (\"id\"),\n    CONSTRAINT users_group_id_fkey FOREIGN KEY (group_id) REFERENCES \"groups\" (\"id\"),\n    UNIQUE INDEX users_unique_name (\"name\"),\n    CONSTRAINT users_age_check CHECK (\"age\" >= 0)\n);\n" := by decide +kernel
/- success,DROP_TABLE -/
example : tableDiffed true
    (some s%"CREATE TABLE \"users\" (id UUID NOT NULL, group_id UUID NOT NULL REFERENCES \"groups\" (\"id\"), \"name\" VARCHAR(255) NOT NULL UNIQUE, \"age\" INT DEFAULT 0 CHECK (\"age\" >= 0), description TEXT, PRIMARY KEY (\"id\"));")
    none =
    .ok s%"DROP TABLE \"users\";\n" := by decide +kernel
/- success,NoAsc -/
example : tableDiffed false
    (some s%"CREATE TABLE \"users\" (id UUID NOT NULL, PRIMARY KEY (\"id\" ASC));")
    (some s%"CREATE TABLE \"users\" (id UUID NOT NULL, PRIMARY KEY (\"id\"));") =
    .err .noDifference := by decide +kernel

/-! `diff_test.go` -/
/- success,before,after,Table -/
example : diffed
    s%"CREATE TABLE public.users (\n    user_id UUID NOT NULL,\n    username VARCHAR(256) NOT NULL,\n    is_verified BOOL NOT NULL DEFAULT false,\n    created_at TIMESTAMP WITH TIME ZONE NOT NULL DEFAULT timezone('UTC':::STRING, current_timestamp():::TIMESTAMPTZ),\n    CONSTRAINT users_pkey PRIMARY KEY (user_id ASC),\n    INDEX users_idx_by_username (username DESC)\n);\n"
    s%"CREATE TABLE public.users (\n    user_id UUID NOT NULL,\n    username VARCHAR(256) NOT NULL,\n    is_verified BOOL NOT NULL DEFAULT false,\n    created_at TIMESTAMP WITH TIME ZONE NOT NULL DEFAULT timezone('UTC':::STRING, current_timestamp():::TIMESTAMPTZ),\n    updated_at TIMESTAMP WITH TIME ZONE NOT NULL DEFAULT timezone('UTC':::STRING, current_timestamp():::TIMESTAMPTZ),\n    CONSTRAINT users_pkey PRIMARY KEY (user_id ASC),\n    INDEX users_idx_by_username (username DESC)\n);\n" =
    .ok s%"-- -\n-- +updated_at TIMESTAMP WITH TIME ZONE NOT NULL DEFAULT timezone('UTC':::STRING, current_timestamp():::TIMESTAMPTZ)\nALTER TABLE public.users ADD COLUMN updated_at TIMESTAMP WITH TIME ZONE NOT NULL DEFAULT timezone('UTC':::STRING, current_timestamp():::TIMESTAMPTZ);\n" := by decide +kernel
/- success,before,after,Table,Asc -/
example : diffed
    s%"CREATE TABLE public.users (\n    user_id UUID NOT NULL,\n    username VARCHAR(256) NOT NULL,\n    is_verified BOOL NOT NULL DEFAULT false,\n    created_at TIMESTAMPTZ NOT NULL DEFAULT timezone('UTC':::STRING, current_timestamp():::TIMESTAMPTZ),\n    updated_at TIMESTAMPTZ NOT NULL DEFAULT timezone('UTC':::STRING, current_timestamp():::TIMESTAMPTZ),\n    CONSTRAINT users_pkey PRIMARY KEY (user_id ASC),\n    INDEX users_idx_by_username (username DESC)\n);\n"
    s%"CREATE TABLE public.users (\n    user_id UUID NOT NULL,\n    username VARCHAR(256) NOT NULL,\n    is_verified BOOL NOT NULL DEFAULT false,\n    created_at TIMESTAMPTZ NOT NULL DEFAULT timezone('UTC':::STRING, current_timestamp():::TIMESTAMPTZ),\n    updated_at TIMESTAMPTZ NOT NULL DEFAULT timezone('UTC':::STRING, current_timestamp():::TIMESTAMPTZ),\n    CONSTRAINT users_pkey PRIMARY KEY (user_id ASC),\n    INDEX users_idx_by_username (username ASC)\n);\n" =
    .ok s%"-- -INDEX users_idx_by_username (username DESC)\n-- +INDEX users_idx_by_username (username ASC)\nDROP INDEX users_idx_by_username;\nCREATE INDEX users_idx_by_username ON public.users (username ASC);\n" := by decide +kernel
/- success,before,after,Index -/
example : diffed
    s%"CREATE UNIQUE INDEX IF NOT EXISTS public.users_idx_by_username ON users (username DESC);"
    s%"CREATE UNIQUE INDEX IF NOT EXISTS public.users_idx_by_username ON users (username ASC, age ASC);" =
    .ok s%"-- -CREATE UNIQUE INDEX public.users_idx_by_username ON users (username DESC);\n-- +CREATE UNIQUE INDEX public.users_idx_by_username ON users (username ASC, age ASC);\n--  \nDROP INDEX public.users_idx_by_username;\nCREATE UNIQUE INDEX IF NOT EXISTS public.users_idx_by_username ON users (username ASC, age ASC);\n" := by decide +kernel
/- success,VARCHAR(10)->VARCHAR(11) -/
example : diffed
    s%"CREATE TABLE public.users ( username VARCHAR(10) NOT NULL );"
    s%"CREATE TABLE public.users ( username VARCHAR(11) NOT NULL );" =
    .ok s%"-- -username VARCHAR(10) NOT NULL\n-- +username VARCHAR(11) NOT NULL\nALTER TABLE public.users ALTER COLUMN username SET DATA TYPE VARCHAR(11);\n" := by decide +kernel
/- success,SET_DEFAULT_TRUE_FALSE -/
example : diffed
    s%"CREATE TABLE public.passwords ( user_id UUID NOT NULL, password TEXT NOT NULL, is_verified BOOLEAN NOT NULL DEFAULT false, is_expired BOOLEAN NOT NULL DEFAULT true );"
    s%"CREATE TABLE public.passwords ( user_id UUID NOT NULL, password TEXT NOT NULL, is_verified BOOLEAN NOT NULL DEFAULT FALSE, is_expired BOOLEAN NOT NULL DEFAULT TRUE );" =
    .err .noDifference := by decide +kernel

end Ddl.Tests.Crdb
