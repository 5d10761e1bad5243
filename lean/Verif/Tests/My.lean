import Verif.Tests.Support
import Verif.My.Parser
import Verif.My.Diff

/-! Test tables of `pkg/ddl/mysql/*_test.go`. -/

set_option autoImplicit false
set_option maxRecDepth 20000

namespace Ddl.Tests.My

open Ddl.My

/-- `mysql.NewParser(NewLexer(s)).Parse()`, printed. -/
def parsed (s : Str) : Res Str := mapRes (ddlStr (ops lineDiff)) (parse s)

/-- `mysql.Diff` of two parsed texts, printed. -/
def diffed (b a : Str) : Res Str := do
  let b ← parse b
  let a ← parse a
  mapRes (ddlStr (ops lineDiff)) (diff (ops lineDiff) (some b) (some a))

/-- `mysql.DiffCreateTable` of the first tables of two parsed texts (`none` for nil), printed. -/
def tableDiffed (nv : Bool) (b a : Option Str) : Res Str := do
  let first : Option Str → Res (Option CreateTable)
    | none => .ok none
    | some s => mapRes firstTable (parse s)
  let b ← first b
  let a ← first a
  mapRes (ddlStr (ops lineDiff)) (diffCreateTable lineDiff nv b a)

/-! `lexar_test.go`: `Test_lookupIdent` -/
example : ∀ p ∈ ([(s%"EQUAL", .EQUAL),
    (s%"GREATER", .GREATER),
    (s%"LESS", .LESS),
    (s%"CREATE", .CREATE),
    (s%"ALTER", .ALTER),
    (s%"DROP", .DROP),
    (s%"RENAME", .RENAME),
    (s%"CREATE", .CREATE),
    (s%"ALTER", .ALTER),
    (s%"DROP", .DROP),
    (s%"RENAME", .RENAME),
    (s%"TRUNCATE", .TRUNCATE),
    (s%"TABLE", .TABLE),
    (s%"INDEX", .INDEX),
    (s%"VIEW", .VIEW),
    (s%"IF", .IF),
    (s%"EXISTS", .EXISTS),
    (s%"ON", .ON),
    (s%"UPDATE", .UPDATE),
    (s%"DELETE", .DELETE),
    (s%"CASCADE", .CASCADE),
    (s%"RESTRICT", .RESTRICT),
    (s%"TO", .TO),
    (s%"BOOLEAN", .BOOLEAN),
    (s%"BIT", .BIT),
    (s%"TINYINT", .TINYINT),
    (s%"SMALLINT", .SMALLINT),
    (s%"MEDIUMINT", .MEDIUMINT),
    (s%"INTEGER", .INTEGER),
    (s%"INT", .INTEGER),
    (s%"BIGINT", .BIGINT),
    (s%"DECIMAL", .DECIMAL),
    (s%"NUMERIC", .NUMERIC),
    (s%"REAL", .REAL),
    (s%"DOUBLE", .DOUBLE),
    (s%"PRECISION", .PRECISION),
    (s%"SMALLSERIAL", .SMALLSERIAL),
    (s%"SERIAL", .SERIAL),
    (s%"BIGSERIAL", .BIGSERIAL),
    (s%"JSON", .JSON),
    (s%"CHARACTER", .CHARACTER),
    (s%"VARYING", .VARYING),
    (s%"VARCHAR", .VARCHAR),
    (s%"TEXT", .TEXT),
    (s%"MEDIUMTEXT", .MEDIUMTEXT),
    (s%"LONGTEXT", .LONGTEXT),
    (s%"TIMESTAMP", .TIMESTAMP),
    (s%"DATETIME", .DATETIME),
    (s%"DATE", .DATE),
    (s%"TIME", .TIME),
    (s%"DEFAULT", .DEFAULT),
    (s%"NOT", .NOT),
    (s%"NULL", .NULL),
    (s%"ASC", .ASC),
    (s%"DESC", .DESC),
    (s%"CONSTRAINT", .CONSTRAINT),
    (s%"PRIMARY", .PRIMARY),
    (s%"KEY", .KEY),
    (s%"FOREIGN", .FOREIGN),
    (s%"REFERENCES", .REFERENCES),
    (s%"UNIQUE", .UNIQUE),
    (s%"CHECK", .CHECK),
    (s%"NULLIF", .NULLIF),
    (s%"users", .IDENT)] : List (Str × TokType)), lookupIdent .mysql p.1 = p.2 := by decide +kernel

/-! `lexar_test.go`: `TestLex`, `TestLexer_NextToken` -/
example : (lex .mysql s%"CREATE TABLE IF NOT EXISTS \"users\" (\n    \"user_id\"    VARCHAR(36)  NOT NULL,\n    \"name\"       VARCHAR(255) NOT NULL,\n    \"email\"      VARCHAR(255) NOT NULL,\n    \"password\"   VARCHAR(255) NOT NULL,\n    \"created_at\" DATETIME     NOT NULL,\n    \"updated_at\" DATETIME     NOT NULL,\n    PRIMARY KEY (\"user_id\"),\n    UNIQUE (\"email\")\n);").take 61 = [⟨.CREATE, s%"CREATE"⟩, ⟨.TABLE, s%"TABLE"⟩, ⟨.IF, s%"IF"⟩, ⟨.NOT, s%"NOT"⟩, ⟨.EXISTS, s%"EXISTS"⟩, ⟨.IDENT, s%"\"users\""⟩, ⟨.OPEN_PAREN, s%"("⟩, ⟨.IDENT, s%"\"user_id\""⟩, ⟨.VARCHAR, s%"VARCHAR"⟩, ⟨.OPEN_PAREN, s%"("⟩, ⟨.IDENT, s%"36"⟩, ⟨.CLOSE_PAREN, s%")"⟩, ⟨.NOT, s%"NOT"⟩, ⟨.NULL, s%"NULL"⟩, ⟨.COMMA, s%","⟩, ⟨.IDENT, s%"\"name\""⟩, ⟨.VARCHAR, s%"VARCHAR"⟩, ⟨.OPEN_PAREN, s%"("⟩, ⟨.IDENT, s%"255"⟩, ⟨.CLOSE_PAREN, s%")"⟩, ⟨.NOT, s%"NOT"⟩, ⟨.NULL, s%"NULL"⟩, ⟨.COMMA, s%","⟩, ⟨.IDENT, s%"\"email\""⟩, ⟨.VARCHAR, s%"VARCHAR"⟩, ⟨.OPEN_PAREN, s%"("⟩, ⟨.IDENT, s%"255"⟩, ⟨.CLOSE_PAREN, s%")"⟩, ⟨.NOT, s%"NOT"⟩, ⟨.NULL, s%"NULL"⟩, ⟨.COMMA, s%","⟩, ⟨.IDENT, s%"\"password\""⟩, ⟨.VARCHAR, s%"VARCHAR"⟩, ⟨.OPEN_PAREN, s%"("⟩, ⟨.IDENT, s%"255"⟩, ⟨.CLOSE_PAREN, s%")"⟩, ⟨.NOT, s%"NOT"⟩, ⟨.NULL, s%"NULL"⟩, ⟨.COMMA, s%","⟩, ⟨.IDENT, s%"\"created_at\""⟩, ⟨.DATETIME, s%"DATETIME"⟩, ⟨.NOT, s%"NOT"⟩, ⟨.NULL, s%"NULL"⟩, ⟨.COMMA, s%","⟩, ⟨.IDENT, s%"\"updated_at\""⟩, ⟨.DATETIME, s%"DATETIME"⟩, ⟨.NOT, s%"NOT"⟩, ⟨.NULL, s%"NULL"⟩, ⟨.COMMA, s%","⟩, ⟨.PRIMARY, s%"PRIMARY"⟩, ⟨.KEY, s%"KEY"⟩, ⟨.OPEN_PAREN, s%"("⟩, ⟨.IDENT, s%"\"user_id\""⟩, ⟨.CLOSE_PAREN, s%")"⟩, ⟨.COMMA, s%","⟩, ⟨.UNIQUE, s%"UNIQUE"⟩, ⟨.OPEN_PAREN, s%"("⟩, ⟨.IDENT, s%"\"email\""⟩, ⟨.CLOSE_PAREN, s%")"⟩, ⟨.CLOSE_PAREN, s%")"⟩, ⟨.SEMICOLON, s%";"⟩] := by decide +kernel
example : (lex .mysql s%"-").take 1 = [⟨.MINUS, s%"-"⟩] := by decide +kernel
example : (lex .mysql s%"|").take 1 = [⟨.ILLEGAL, s%"|"⟩] := by decide +kernel
example : (lex .mysql s%":").take 1 = [⟨.ILLEGAL, s%":"⟩] := by decide +kernel
example : (lex .mysql s%"!").take 1 = [⟨.ILLEGAL, s%"!"⟩] := by decide +kernel

/-! `parser_test.go`: `TestParser_Parse` -/
/- success,CREATE_TABLE -/
example : parsed s%"CREATE TABLE `groups` (`group_id` VARCHAR(36) NOT NULL PRIMARY KEY, description TEXT CHARACTER SET utf8mbb4 COMMENT '\xe5\x82\x99\xe8\x80\x83') ENGINE=InnoDB DEFAULT CHARSET=utf8mb4 COLLATE=utf8mb4_0900_ai_ci; CREATE TABLE `users` (user_id VARCHAR(36) NOT NULL, group_id VARCHAR(36) NOT NULL REFERENCES `groups` (`group_id`), `name` VARCHAR(255) COLLATE utf8mb4_bin NOT NULL UNIQUE, `age` INT DEFAULT 0 CHECK (`age` >= 0), birthdate DATE, country char(3), description LONGTEXT CHARACTER SET utf8mbb4 COMMENT '\xe5\x82\x99\xe8\x80\x83', created_at DATETIME NOT NULL DEFAULT CURRENT_TIMESTAMP, updated_at DATETIME NOT NULL DEFAULT CURRENT_TIMESTAMP ON UPDATE CURRENT_TIMESTAMP, PRIMARY KEY (`user_id`)) ENGINE=InnoDB AUTO_INCREMENT=2 DEFAULT CHARSET=utf8mb4 COLLATE=utf8mb4_0900_ai_ci COMMENT='user \xf0\x9f\x99\x86\xe2\x80\x8d';" =
    .ok s%"CREATE TABLE `groups` (\n    `group_id` VARCHAR(36) NOT NULL,\n    description TEXT CHARACTER SET utf8mbb4 NULL COMMENT '\xe5\x82\x99\xe8\x80\x83',\n    PRIMARY KEY (`group_id`)\n) ENGINE=InnoDB DEFAULT CHARSET=utf8mb4 COLLATE=utf8mb4_0900_ai_ci;\nCREATE TABLE `users` (\n    user_id VARCHAR(36) NOT NULL,\n    group_id VARCHAR(36) NOT NULL,\n    `name` VARCHAR(255) COLLATE utf8mb4_bin NOT NULL,\n    `age` INT NULL DEFAULT 0,\n    birthdate DATE NULL,\n    country char(3) NULL,\n    description LONGTEXT CHARACTER SET utf8mbb4 NULL COMMENT '\xe5\x82\x99\xe8\x80\x83',\n    created_at DATETIME NOT NULL DEFAULT CURRENT_TIMESTAMP,\n    updated_at DATETIME NOT NULL DEFAULT CURRENT_TIMESTAMP ON UPDATE CURRENT_TIMESTAMP,\n    PRIMARY KEY (`user_id`),\n    CONSTRAINT users_group_id_fkey FOREIGN KEY (group_id) REFERENCES `groups` (`group_id`),\n    UNIQUE KEY users_unique_name (`name`),\n    CONSTRAINT users_age_check CHECK (`age` >= 0)\n) ENGINE=InnoDB AUTO_INCREMENT=2 DEFAULT CHARSET=utf8mb4 COLLATE=utf8mb4_0900_ai_ci COMMENT='user \xf0\x9f\x99\x86\xe2\x80\x8d';\n" := by decide +kernel
/- success,complex_defaults -/
example : parsed s%"-- table: complex_defaults\nCREATE TABLE IF NOT EXISTS complex_defaults (\n    -- id is the primary key.\n    id INT NOT NULL PRIMARY KEY,\n    name VARCHAR(255) NOT NULL,\n    age INT DEFAULT 25,\n    created_at TIMESTAMP DEFAULT CURRENT_TIMESTAMP,\n    status ENUM('Active', 'Inactive') DEFAULT 'Active',\n    salary DECIMAL(10, 2) DEFAULT (10000+1),\n    random_number INTEGER DEFAULT (FLOOR(RAND() * 100)),\n    notes VARCHAR(1024) DEFAULT 'This is a note for ',\n    is_admin BOOLEAN DEFAULT false,\n    KEY complex_defaults_idx_on_name (name),\n\tCONSTRAINT users_age_check CHECK ((age >= 0))\n);\n" =
    .ok s%"CREATE TABLE IF NOT EXISTS complex_defaults (\n    id INT NOT NULL,\n    name VARCHAR(255) NOT NULL,\n    age INT NULL DEFAULT 25,\n    created_at TIMESTAMP NULL DEFAULT CURRENT_TIMESTAMP,\n    status ENUM('Active', 'Inactive') NULL DEFAULT 'Active',\n    salary DECIMAL(10, 2) NULL DEFAULT (10000 + 1),\n    random_number INTEGER NULL DEFAULT (FLOOR(RAND() * 100)),\n    notes VARCHAR(1024) NULL DEFAULT 'This is a note for ',\n    is_admin TINYINT(1) NULL DEFAULT false,\n    PRIMARY KEY (id),\n    KEY complex_defaults_idx_on_name (name),\n    CONSTRAINT users_age_check CHECK ((age >= 0))\n);\n" := by decide +kernel
/- success,CREATE_TABLE_TYPE_ANNOTATION -/
example : parsed s%"CREATE TABLE IF NOT EXISTS public.users (\n    user_id VARCHAR(36) NOT NULL,\n    username VARCHAR(256) NOT NULL,\n    is_verified BOOLEAN NOT NULL DEFAULT false,\n    created_at DATETIME NOT NULL DEFAULT CURRENT_TIMESTAMP,\n    updated_at DATETIME NOT NULL DEFAULT CURRENT_TIMESTAMP,\n    CONSTRAINT users_pkey PRIMARY KEY (user_id),\n    INDEX users_idx_by_username (username DESC)\n);\n" =
    .ok s%"CREATE TABLE IF NOT EXISTS public.users (\n    user_id VARCHAR(36) NOT NULL,\n    username VARCHAR(256) NOT NULL,\n    is_verified TINYINT(1) NOT NULL DEFAULT false,\n    created_at DATETIME NOT NULL DEFAULT CURRENT_TIMESTAMP,\n    updated_at DATETIME NOT NULL DEFAULT CURRENT_TIMESTAMP,\n    PRIMARY KEY (user_id),\n    KEY users_idx_by_username (username DESC)\n);\n" := by decide +kernel
/- success,SEMICOLON -/
example : parsed s%";" =
    .ok s%"" := by decide +kernel

/-! `parser_test.go`: `failureTests` -/
example : allFail parse [(s%")invalid", .unexpectedCurrentToken),
    (s%"CREATE INVALID;", .unexpectedCurrentToken),
    (s%"CREATE TABLE;", .unexpectedCurrentToken),
    (s%"CREATE TABLE IF;", .unexpectedPeekToken),
    (s%"CREATE TABLE IF NOT;", .unexpectedPeekToken),
    (s%"CREATE TABLE \"users\";", .unexpectedCurrentToken),
    (s%"CREATE TABLE \"users\" (\"id\";", .unexpectedCurrentToken),
    (s%"CREATE TABLE \"users\" (\"id\" VARCHAR(36);", .unexpectedCurrentToken),
    (s%"CREATE TABLE \"users\" (\"id\" VARCHAR(36) CHARACTER", .unexpectedCurrentToken),
    (s%"CREATE TABLE \"users\" (\"id\" VARCHAR(36) CHARACTER SET", .unexpectedCurrentToken),
    (s%"CREATE TABLE \"users\" (\"id\" VARCHAR(36), CONSTRAINT \"invalid\" NOT;", .unexpectedCurrentToken),
    (s%"CREATE TABLE \"users\" (\"id\" VARCHAR(36))(;", .unexpectedCurrentToken),
    (s%"CREATE TABLE \"users\" (\"id\" TIMESTAMP CREATE", .unexpectedCurrentToken),
    (s%"CREATE TABLE \"users\" (\"id\" VARYING();", .unexpectedCurrentToken),
    (s%"CREATE TABLE \"users\" (\"id\" VARCHAR(36) NULL NOT;", .unexpectedPeekToken),
    (s%"CREATE TABLE \"users\" (\"id\" VARCHAR(36), ts DATETIME ON", .unexpectedCurrentToken),
    (s%"CREATE TABLE \"users\" (\"id\" VARCHAR(36), ts DATETIME ON UPDATE", .unexpectedCurrentToken),
    (s%"CREATE TABLE \"users\" (\"id\" VARCHAR(36) DEFAULT (\"id\")", .unexpectedCurrentToken),
    (s%"CREATE TABLE \"users\" (\"id\" VARCHAR(36) DEFAULT (\"id\",", .unexpectedCurrentToken),
    (s%"CREATE TABLE \"users\" (\"id\" VARCHAR(36) PRIMARY NOT", .unexpectedPeekToken),
    (s%"CREATE TABLE \"users\" (\"id\" VARCHAR(36) REFERENCES NOT", .unexpectedPeekToken),
    (s%"CREATE TABLE \"users\" (\"id\" VARCHAR(36) REFERENCES \"groups\" (NOT", .unexpectedCurrentToken),
    (s%"CREATE TABLE \"users\" (\"id\" VARCHAR(36) REFERENCES \"groups\" (id) ON", .unexpectedCurrentToken),
    (s%"CREATE TABLE \"users\" (\"id\" VARCHAR(36) REFERENCES \"groups\" (id) ON UPDATE NO", .unexpectedPeekToken),
    (s%"CREATE TABLE \"users\" (\"id\" VARCHAR(36) REFERENCES \"groups\" (id) ON UPDATE NO ACTION ON", .unexpectedCurrentToken),
    (s%"CREATE TABLE \"users\" (\"id\" VARCHAR(36) REFERENCES \"groups\" (id) ON UPDATE NO ACTION ON DELETE", .unexpectedPeekToken),
    (s%"CREATE TABLE \"users\" (\"id\" VARCHAR(36) REFERENCES \"groups\" (id) ON UPDATE NO ACTION ON DELETE NO ACTION", .unexpectedCurrentToken),
    (s%"CREATE TABLE \"users\" (\"id\" VARCHAR(36) REFERENCES \"groups\" (id) ON UPDATE NO ACTION ON DELETE NO", .unexpectedPeekToken),
    (s%"CREATE TABLE \"users\" (\"id\" VARCHAR(36) CHECK NOT", .unexpectedPeekToken),
    (s%"CREATE TABLE \"users\" (\"id\" VARCHAR(36) CHECK (NOT", .unexpectedCurrentToken),
    (s%"CREATE TABLE \"users\" (\"id\" VARCHAR(36), CONSTRAINT NOT", .unexpectedCurrentToken),
    (s%"CREATE TABLE \"users\" (\"id\" VARCHAR(36), PRIMARY NOT", .unexpectedPeekToken),
    (s%"CREATE TABLE \"users\" (\"id\" VARCHAR(36), PRIMARY KEY NOT", .unexpectedPeekToken),
    (s%"CREATE TABLE \"users\" (\"id\" VARCHAR(36), PRIMARY KEY (NOT", .unexpectedCurrentToken),
    (s%"CREATE TABLE \"users\" (\"id\" VARCHAR(36), FOREIGN NOT", .unexpectedPeekToken),
    (s%"CREATE TABLE \"users\" (\"id\" VARCHAR(36), FOREIGN KEY NOT", .unexpectedPeekToken),
    (s%"CREATE TABLE \"users\" (\"id\" VARCHAR(36), FOREIGN KEY (NOT", .unexpectedCurrentToken),
    (s%"CREATE TABLE \"users\" (\"id\" VARCHAR(36), FOREIGN KEY (\"group_id\") NOT", .unexpectedCurrentToken),
    (s%"CREATE TABLE \"users\" (\"id\" VARCHAR(36), FOREIGN KEY (\"group_id\") REFERENCES ", .unexpectedCurrentToken),
    (s%"CREATE TABLE \"users\" (\"id\" VARCHAR(36), FOREIGN KEY (\"group_id\") REFERENCES \"groups\" NOT", .unexpectedCurrentToken),
    (s%"CREATE TABLE \"users\" (\"id\" VARCHAR(36), FOREIGN KEY (\"group_id\") REFERENCES \"groups\" (\"id\")", .unexpectedCurrentToken),
    (s%"CREATE TABLE \"users\" (\"id\" VARCHAR(36), FOREIGN KEY (\"group_id\") REFERENCES \"groups\" (\"id\") ON", .unexpectedCurrentToken),
    (s%"CREATE TABLE \"users\" (\"id\" VARCHAR(36), FOREIGN KEY (\"group_id\") REFERENCES \"groups\" (\"id\") ON DELETE NO ACTION", .unexpectedCurrentToken),
    (s%"CREATE TABLE \"users\" (\"id\" VARCHAR(36), FOREIGN KEY (\"group_id\") REFERENCES \"groups\" (\"id\") ON DELETE NO ACTION ON UPDATE", .unexpectedPeekToken),
    (s%"CREATE TABLE \"users\" (\"id\" VARCHAR(36), FOREIGN KEY (\"group_id\") REFERENCES \"groups\" (\"id\") ON DELETE NO ACTION ON UPDATE NO ACTION", .unexpectedCurrentToken),
    (s%"CREATE TABLE \"users\" (\"id\" VARCHAR(36), UNIQUE NOT", .unexpectedCurrentToken),
    (s%"CREATE TABLE \"users\" (\"id\" VARCHAR(36), UNIQUE INDEX users_idx_name NOT", .unexpectedPeekToken),
    (s%"CREATE TABLE \"users\" (\"id\" VARCHAR(36), UNIQUE INDEX users_idx_name (NOT", .unexpectedCurrentToken),
    (s%"CREATE TABLE \"users\" (\"id\" VARCHAR(36), UNIQUE INDEX NOT", .unexpectedCurrentToken),
    (s%"CREATE TABLE \"users\" (\"id\" VARCHAR(36), name TEXT, UNIQUE (\"id\", name)", .unexpectedCurrentToken),
    (s%"CREATE TABLE \"users\" (\"id\" VARCHAR(36), name TEXT, CHECK INVALID", .unexpectedPeekToken),
    (s%"CREATE TABLE \"users\" (\"id\" VARCHAR(36), name TEXT, CHECK (INVALID", .unexpectedCurrentToken),
    (s%"CREATE TABLE \"users\" (\"id\" VARCHAR(36), name TEXT, CHECK (\"id\" NOT NULL)", .unexpectedCurrentToken),
    (s%"CREATE TABLE \"users\" (\"id\" VARCHAR(36), name TEXT, UNIQUE KEY users_idx_on_id_name (\"id\", name)) ENGINE", .unexpectedCurrentToken),
    (s%"CREATE TABLE \"users\" (\"id\" VARCHAR(36), name TEXT, UNIQUE KEY users_idx_on_id_name (\"id\", name)) ENGINE=", .unexpectedCurrentToken),
    (s%"CREATE TABLE \"users\" (\"id\" VARCHAR(36), name TEXT, UNIQUE KEY users_idx_on_id_name (\"id\", name)) AUTO_INCREMENT", .unexpectedCurrentToken),
    (s%"CREATE TABLE \"users\" (\"id\" VARCHAR(36), name TEXT, UNIQUE KEY users_idx_on_id_name (\"id\", name)) AUTO_INCREMENT=", .unexpectedCurrentToken),
    (s%"CREATE TABLE \"users\" (\"id\" VARCHAR(36), name TEXT, UNIQUE KEY users_idx_on_id_name (\"id\", name)) DEFAULT=", .unexpectedPeekToken),
    (s%"CREATE TABLE \"users\" (\"id\" VARCHAR(36), name TEXT, UNIQUE KEY users_idx_on_id_name (\"id\", name)) DEFAULT CHARSET", .unexpectedCurrentToken),
    (s%"CREATE TABLE \"users\" (\"id\" VARCHAR(36), name TEXT, UNIQUE KEY users_idx_on_id_name (\"id\", name)) DEFAULT CHARSET=", .unexpectedCurrentToken),
    (s%"CREATE TABLE \"users\" (\"id\" VARCHAR(36), name TEXT, UNIQUE KEY users_idx_on_id_name (\"id\", name)) COLLATE", .unexpectedCurrentToken),
    (s%"CREATE TABLE \"users\" (\"id\" VARCHAR(36), name TEXT, UNIQUE KEY users_idx_on_id_name (\"id\", name)) COLLATE=", .unexpectedCurrentToken),
    (s%"CREATE TABLE \"users\" (\"id\" VARCHAR(36), name TEXT, UNIQUE KEY users_idx_on_id_name (\"id\", name)) COMMENT", .unexpectedCurrentToken),
    (s%"CREATE TABLE \"users\" (\"id\" VARCHAR(36), name TEXT, UNIQUE KEY users_idx_on_id_name (\"id\", name)) COMMENT=", .unexpectedCurrentToken),
    (s%"CREATE INDEX NOT", .unexpectedCurrentToken),
    (s%"CREATE INDEX IF;", .unexpectedPeekToken),
    (s%"CREATE INDEX IF NOT;", .unexpectedPeekToken),
    (s%"CREATE INDEX IF NOT EXISTS;", .unexpectedCurrentToken),
    (s%"CREATE INDEX users_idx_username NOT", .unexpectedCurrentToken),
    (s%"CREATE INDEX users_idx_username ON NOT", .unexpectedCurrentToken),
    (s%"CREATE INDEX users_idx_username ON users NOT", .unexpectedCurrentToken),
    (s%"CREATE INDEX users_idx_username ON users USING NOT", .unexpectedCurrentToken),
    (s%"CREATE INDEX users_idx_username ON users USING btree NOT", .unexpectedCurrentToken),
    (s%"CREATE INDEX users_idx_username ON users USING btree (NOT)", .unexpectedCurrentToken)] = true := by decide +kernel

/-! `diff_create_table_test.go` -/
/- success,ddl.ErrNoDifference -/
example : tableDiffed false
    (some s%"CREATE TABLE \"users\" (id VARCHAR(36) NOT NULL, group_id VARCHAR(36) NOT NULL REFERENCES \"groups\" (\"id\"), \"name\" VARCHAR(255) NOT NULL UNIQUE, description TEXT, PRIMARY KEY (\"id\")) ENGINE=InnoDB DEFAULT CHARSET=utf8mb4 COLLATE=utf8mb4_0900_ai_ci COMMENT='user \xf0\x9f\x99\x86\xe2\x80\x8d';")
    (some s%"CREATE TABLE \"users\" (id VARCHAR(36) NOT NULL, group_id VARCHAR(36) NOT NULL REFERENCES \"groups\" (\"id\"), \"name\" VARCHAR(255) NOT NULL UNIQUE, description TEXT, PRIMARY KEY (\"id\")) ENGINE=InnoDB AUTO_INCREMENT=2 DEFAULT CHARSET=utf8mb4 COLLATE=utf8mb4_0900_ai_ci COMMENT='user \xf0\x9f\x99\x86\xe2\x80\x8d';") =
    .err .noDifference := by decide +kernel
/- success,Options -/
example : tableDiffed false
    (some s%"CREATE TABLE \"users\" (id VARCHAR(36) NOT NULL, group_id VARCHAR(36) NOT NULL REFERENCES \"groups\" (\"id\"), \"name\" VARCHAR(255) NOT NULL UNIQUE, description TEXT, PRIMARY KEY (\"id\")) ENGINE=InnoDB AUTO_INCREMENT=2 COLLATE=utf8mb4_0900_ai_ci COMMENT='user \xf0\x9f\x99\x86\xe2\x80\x8d';")
    (some s%"CREATE TABLE \"users\" (id VARCHAR(36) NOT NULL, group_id VARCHAR(36) NOT NULL REFERENCES \"groups\" (\"id\"), \"name\" VARCHAR(255) NOT NULL UNIQUE, description TEXT, PRIMARY KEY (\"id\")) ENGINE=InnoDB AUTO_INCREMENT=2 DEFAULT CHARSET=utf8mb4 COMMENT='user \xf0\x9f\x99\x8c';") =
    .ok s%"-- -COMMENT='user \xf0\x9f\x99\x86\xe2\x80\x8d'\n-- +COMMENT='user \xf0\x9f\x99\x8c'\nALTER TABLE \"users\" COMMENT='user \xf0\x9f\x99\x8c';\n-- -\n-- +DEFAULT CHARSET=utf8mb4\nALTER TABLE \"users\" DEFAULT CHARSET=utf8mb4;\n" := by decide +kernel
/- success,ADD_COLUMN -/
example : tableDiffed false
    (some s%"CREATE TABLE \"users\" (id VARCHAR(36) NOT NULL, group_id VARCHAR(36) NOT NULL REFERENCES \"groups\" (\"id\"), \"name\" VARCHAR(255) NOT NULL UNIQUE, description TEXT, PRIMARY KEY (\"id\"));")
    (some s%"CREATE TABLE \"users\" (id VARCHAR(36) NOT NULL, group_id VARCHAR(36) NOT NULL REFERENCES \"groups\" (\"id\"), \"name\" VARCHAR(255) NOT NULL UNIQUE, \"age\" INTEGER DEFAULT 0 NOT NULL CHECK (\"age\" >= 0), description TEXT, PRIMARY KEY (\"id\"));") =
    .ok s%"-- -\n-- +\"age\" INTEGER NOT NULL DEFAULT 0\nALTER TABLE \"users\" ADD COLUMN \"age\" INTEGER NOT NULL DEFAULT 0;\n-- -\n-- +CONSTRAINT users_age_check CHECK (\"age\" >= 0)\nALTER TABLE \"users\" ADD CONSTRAINT users_age_check CHECK (\"age\" >= 0);\n" := by decide +kernel
/- success,DROP_COLUMN -/
example : tableDiffed false
    (some s%"CREATE TABLE \"users\" (id VARCHAR(36) NOT NULL, group_id VARCHAR(36) NOT NULL REFERENCES \"groups\" (\"id\"), \"name\" VARCHAR(255) NOT NULL UNIQUE, \"age\" INTEGER DEFAULT 0 NOT NULL CHECK (\"age\" >= 0), description TEXT, PRIMARY KEY (\"id\"));")
    (some s%"CREATE TABLE \"users\" (id VARCHAR(36) NOT NULL, group_id VARCHAR(36) NOT NULL REFERENCES \"groups\" (\"id\"), \"name\" VARCHAR(255) NOT NULL, description TEXT, PRIMARY KEY (\"id\"));") =
    .ok s%"-- -UNIQUE KEY users_unique_name (name)\n-- +\nDROP INDEX users_unique_name;\n-- -CONSTRAINT users_age_check CHECK (\"age\" >= 0)\n-- +\nALTER TABLE \"users\" DROP CONSTRAINT users_age_check;\n-- -\"age\" INTEGER NOT NULL DEFAULT 0\n-- +\nALTER TABLE \"users\" DROP COLUMN \"age\";\n" := by decide +kernel
/- success,ALTER_COLUMN_SET_DATA_TYPE -/
example : tableDiffed false
    (some s%"CREATE TABLE \"users\" (id VARCHAR(36) NOT NULL, group_id VARCHAR(36) NOT NULL REFERENCES \"groups\" (\"id\"), \"name\" VARCHAR(255) NOT NULL, \"age\" INT DEFAULT 0 CHECK (\"age\" >= 0), description TEXT, PRIMARY KEY (\"id\"));")
    (some s%"CREATE TABLE \"users\" (id VARCHAR(36) NOT NULL, group_id VARCHAR(36) NOT NULL REFERENCES \"groups\" (\"id\"), \"name\" TEXT NOT NULL UNIQUE, \"age\" BIGINT DEFAULT 0 CHECK (\"age\" >= 0), description TEXT, PRIMARY KEY (\"id\"));") =
    .ok s%"-- -\"name\" VARCHAR(255) NOT NULL\n-- +\"name\" TEXT NOT NULL\nALTER TABLE \"users\" MODIFY \"name\" TEXT NOT NULL;\n-- -\"age\" INT NULL DEFAULT 0\n-- +\"age\" BIGINT NULL DEFAULT 0\nALTER TABLE \"users\" MODIFY \"age\" BIGINT NULL DEFAULT 0;\n-- -\n-- +UNIQUE KEY users_unique_name (name)\nCREATE UNIQUE INDEX users_unique_name ON \"users\" (\"name\");\n" := by decide +kernel
/- success,ALTER_COLUMN_DROP_DEFAULT -/
example : tableDiffed false
    (some s%"CREATE TABLE \"users\" (id VARCHAR(36) NOT NULL, group_id VARCHAR(36) NOT NULL REFERENCES \"groups\" (\"id\"), \"name\" VARCHAR(255) NOT NULL UNIQUE, \"age\" INT DEFAULT 0 CHECK (\"age\" >= 0), description TEXT, PRIMARY KEY (\"id\"));")
    (some s%"CREATE TABLE \"users\" (id VARCHAR(36) NOT NULL, group_id VARCHAR(36) NOT NULL REFERENCES \"groups\" (\"id\"), \"name\" VARCHAR(255) NOT NULL UNIQUE, \"age\" INT CHECK (\"age\" >= 0), description TEXT, PRIMARY KEY (\"id\"));") =
    .ok s%"-- -\"age\" INT NULL DEFAULT 0\n-- +\"age\" INT NULL\nALTER TABLE \"users\" ALTER \"age\" DROP DEFAULT;\n" := by decide +kernel
/- success,ALTER_COLUMN_SET_DEFAULT -/
example : tableDiffed false
    (some s%"CREATE TABLE \"users\" (id VARCHAR(36) NOT NULL, group_id VARCHAR(36) NOT NULL REFERENCES \"groups\" (\"id\"), \"name\" VARCHAR(255) NOT NULL UNIQUE, \"age\" INT CHECK (\"age\" >= 0), description TEXT, PRIMARY KEY (\"id\"));")
    (some s%"CREATE TABLE \"users\" (id VARCHAR(36) NOT NULL, group_id VARCHAR(36) NOT NULL REFERENCES \"groups\" (\"id\"), \"name\" VARCHAR(255) NOT NULL UNIQUE, \"age\" INT DEFAULT 0 CHECK (\"age\" <> 0), description TEXT, PRIMARY KEY (id));") =
    .ok s%"-- -\"age\" INT NULL\n-- +\"age\" INT NULL DEFAULT 0\nALTER TABLE \"users\" MODIFY \"age\" INT NULL DEFAULT 0;\n-- -CONSTRAINT users_age_check CHECK (\"age\" >= 0)\n-- +\nALTER TABLE \"users\" DROP CONSTRAINT users_age_check;\n-- -\n-- +CONSTRAINT users_age_check CHECK (\"age\" <> 0)\nALTER TABLE \"users\" ADD CONSTRAINT users_age_check CHECK (\"age\" <> 0);\n" := by decide +kernel
/- success,ALTER_TABLE_RENAME_TO -/
example : tableDiffed false
    (some s%"CREATE TABLE \"public.users\" (id VARCHAR(36) NOT NULL, group_id VARCHAR(36) NOT NULL REFERENCES \"groups\" (\"id\"), \"name\" VARCHAR(255) NOT NULL UNIQUE, \"age\" INT DEFAULT 0 CHECK (\"age\" >= 0), description TEXT, PRIMARY KEY (\"id\"));")
    (some s%"CREATE TABLE \"app_users\" (id VARCHAR(36) NOT NULL, group_id VARCHAR(36) NOT NULL REFERENCES \"groups\" (\"id\"), \"name\" VARCHAR(255) NOT NULL UNIQUE, \"age\" INT DEFAULT 0 CHECK (\"age\" >= 0), description TEXT, PRIMARY KEY (\"id\"));") =
    .ok s%"-- -public.users\n-- +public.app_users\nALTER TABLE \"public.users\" RENAME TO \"public.app_users\";\n-- -CONSTRAINT users_group_id_fkey FOREIGN KEY (group_id) REFERENCES \"groups\" (\"id\")\n-- +\nALTER TABLE \"public.app_users\" DROP CONSTRAINT users_group_id_fkey;\n-- -UNIQUE KEY users_unique_name (name)\n-- +\nDROP INDEX public.users_unique_name;\n-- -CONSTRAINT users_age_check CHECK (\"age\" >= 0)\n-- +\nALTER TABLE \"public.app_users\" DROP CONSTRAINT users_age_check;\n-- -\n-- +CONSTRAINT app_users_group_id_fkey FOREIGN KEY (group_id) REFERENCES \"groups\" (\"id\")\nALTER TABLE \"public.app_users\" ADD CONSTRAINT app_users_group_id_fkey FOREIGN KEY (group_id) REFERENCES \"groups\" (\"id\");\n-- -\n-- +UNIQUE KEY app_users_unique_name (name)\nCREATE UNIQUE INDEX public.app_users_unique_name ON \"public.app_users\" (\"name\");\n-- -\n-- +CONSTRAINT app_users_age_check CHECK (\"age\" >= 0)\nALTER TABLE \"public.app_users\" ADD CONSTRAINT app_users_age_check CHECK (\"age\" >= 0);\n" := by decide +kernel
/- success,SET_NOT_NULL -/
example : tableDiffed false
    (some s%"CREATE TABLE \"users\" (id VARCHAR(36) NOT NULL, group_id VARCHAR(36) NOT NULL REFERENCES \"groups\" (\"id\"), \"name\" VARCHAR(255) NOT NULL UNIQUE, \"age\" INT DEFAULT 0 CHECK (\"age\" >= 0), description TEXT, PRIMARY KEY (\"id\"));")
    (some s%"CREATE TABLE \"users\" (id VARCHAR(36) NOT NULL, group_id VARCHAR(36) NOT NULL REFERENCES \"groups\" (\"id\"), \"name\" VARCHAR(255) NOT NULL UNIQUE, \"age\" INTEGER DEFAULT 0 NOT NULL CHECK (\"age\" >= 0), description TEXT, PRIMARY KEY (\"id\"));") =
    .ok s%"-- -\"age\" INT NULL DEFAULT 0\n-- +\"age\" INTEGER NOT NULL DEFAULT 0\nALTER TABLE \"users\" MODIFY \"age\" INTEGER NOT NULL DEFAULT 0;\n" := by decide +kernel
/- success,DROP_NOT_NULL -/
example : tableDiffed false
    (some s%"CREATE TABLE \"users\" (id VARCHAR(36) NOT NULL, group_id VARCHAR(36) NOT NULL REFERENCES \"groups\" (\"id\"), \"name\" VARCHAR(255) NOT NULL UNIQUE, \"age\" INT DEFAULT 0 NOT NULL CHECK (\"age\" >= 0), description TEXT, PRIMARY KEY (\"id\"));")
    (some s%"CREATE TABLE \"users\" (id VARCHAR(36) NOT NULL, group_id VARCHAR(36) NOT NULL REFERENCES \"groups\" (\"id\"), \"name\" VARCHAR(255) NOT NULL UNIQUE, \"age\" INT DEFAULT 0 CHECK (\"age\" >= 0), description TEXT, PRIMARY KEY (\"id\"));") =
    .ok s%"-- -\"age\" INT NOT NULL DEFAULT 0\n-- +\"age\" INT NULL DEFAULT 0\nALTER TABLE \"users\" MODIFY \"age\" INT NULL DEFAULT 0;\n" := by decide +kernel
/- success,DROP_ADD_PRIMARY_KEY -/
example : tableDiffed false
    (some s%"CREATE TABLE \"users\" (id VARCHAR(36) NOT NULL, group_id VARCHAR(36) NOT NULL REFERENCES \"groups\" (\"id\"), \"name\" VARCHAR(255) NOT NULL UNIQUE, \"age\" INT DEFAULT 0 NOT NULL CHECK (\"age\" >= 0), description TEXT, PRIMARY KEY (\"id\"));")
    (some s%"CREATE TABLE \"users\" (id VARCHAR(36) NOT NULL, group_id VARCHAR(36) NOT NULL REFERENCES \"groups\" (\"id\"), \"name\" VARCHAR(255) NOT NULL UNIQUE, \"age\" INT DEFAULT 0 NOT NULL CHECK (\"age\" >= 0), description TEXT, PRIMARY KEY (\"id\", name));") =
    .ok s%"-- -PRIMARY KEY (\"id\")\n-- +\nALTER TABLE \"users\" DROP PRIMARY KEY;\n-- -\n-- +PRIMARY KEY (\"id\", name)\nALTER TABLE \"users\" ADD PRIMARY KEY (\"id\", name);\n" := by decide +kernel
/- success,DROP_ADD_FOREIGN_KEY -/
example : tableDiffed false
    (some s%"CREATE TABLE \"users\" (id VARCHAR(36) NOT NULL, group_id VARCHAR(36) NOT NULL, \"name\" VARCHAR(255) NOT NULL UNIQUE, \"age\" INT DEFAULT 0 NOT NULL CHECK (\"age\" >= 0), description TEXT, PRIMARY KEY (\"id\"), CONSTRAINT users_group_id_fkey FOREIGN KEY (group_id) REFERENCES \"groups\" (\"id\"));")
    (some s%"CREATE TABLE \"users\" (id VARCHAR(36) NOT NULL, group_id VARCHAR(36) NOT NULL, \"name\" VARCHAR(255) NOT NULL UNIQUE, \"age\" INT DEFAULT 0 NOT NULL CHECK (\"age\" >= 0), description TEXT, PRIMARY KEY (\"id\"), CONSTRAINT users_group_id_fkey FOREIGN KEY (group_id, name) REFERENCES \"groups\" (\"id\", name));") =
    .ok s%"-- -CONSTRAINT users_group_id_fkey FOREIGN KEY (group_id) REFERENCES \"groups\" (\"id\")\n-- +\nALTER TABLE \"users\" DROP CONSTRAINT users_group_id_fkey;\n-- -\n-- +CONSTRAINT users_group_id_fkey FOREIGN KEY (group_id, name) REFERENCES \"groups\" (\"id\", name)\nALTER TABLE \"users\" ADD CONSTRAINT users_group_id_fkey FOREIGN KEY (group_id, name) REFERENCES \"groups\" (\"id\", name);\n" := by decide +kernel
/- success,DROP_ADD_UNIQUE -/
example : tableDiffed false
    (some s%"CREATE TABLE \"users\" (id VARCHAR(36) NOT NULL, group_id VARCHAR(36) NOT NULL, \"name\" VARCHAR(255) NOT NULL UNIQUE, \"age\" INT DEFAULT 0 NOT NULL CHECK (\"age\" >= 0), description TEXT, PRIMARY KEY (\"id\"));")
    (some s%"CREATE TABLE \"users\" (id VARCHAR(36) NOT NULL, group_id VARCHAR(36) NOT NULL, \"name\" VARCHAR(255) NOT NULL UNIQUE, \"age\" INT DEFAULT 0 NOT NULL CHECK (\"age\" >= 0), description TEXT, PRIMARY KEY (\"id\"), UNIQUE KEY users_unique_name (\"id\", name));") =
    .ok s%"DROP INDEX users_unique_name;\nCREATE UNIQUE INDEX users_unique_name ON \"users\" (\"id\", name);\n" := by decide +kernel
/- success,ALTER_COLUMN_SET_DEFAULT_OVERWRITE -/
example : tableDiffed false
    (some s%"CREATE TABLE \"users\" (id VARCHAR(36) NOT NULL, group_id VARCHAR(36) NOT NULL, \"name\" VARCHAR(255) NOT NULL UNIQUE, \"age\" INT DEFAULT 0 NOT NULL CHECK (\"age\" >= 0), description TEXT, PRIMARY KEY (\"id\"));")
    (some s%"CREATE TABLE \"users\" (id VARCHAR(36) NOT NULL, group_id VARCHAR(36) NOT NULL, \"name\" VARCHAR(255) NOT NULL UNIQUE, \"age\" INT DEFAULT ( (0 + 3) - 1 * 4 / 2 ) NOT NULL CHECK (\"age\" >= 0), description TEXT, PRIMARY KEY (\"id\"));") =
    .ok s%"-- -\"age\" INT NOT NULL DEFAULT 0\n-- +\"age\" INT NOT NULL DEFAULT ((0 + 3) - 1 * 4 / 2)\nALTER TABLE \"users\" MODIFY \"age\" INT NOT NULL DEFAULT ((0 + 3) - 1 * 4 / 2);\n" := by decide +kernel
/- success,DiffCreateTableUseAlterTableAddConstraintNotValid -/
example : tableDiffed true
    (some s%"CREATE TABLE \"users\" (id VARCHAR(36) NOT NULL, group_id VARCHAR(36) NOT NULL REFERENCES \"groups\" (\"id\"), \"name\" VARCHAR(255) NOT NULL UNIQUE, \"age\" INT DEFAULT 0, description TEXT, PRIMARY KEY (\"id\"));")
    (some s%"CREATE TABLE \"users\" (id VARCHAR(36) NOT NULL, group_id VARCHAR(36) NOT NULL REFERENCES \"groups\" (\"id\"), \"name\" VARCHAR(255) NOT NULL UNIQUE, \"age\" INT DEFAULT 0 CHECK (\"age\" >= 0), description TEXT, PRIMARY KEY (\"id\"));") =
    .ok s%"-- -\n-- +CONSTRAINT users_age_check CHECK (\"age\" >= 0)\nALTER TABLE \"users\" ADD CONSTRAINT users_age_check CHECK (\"age\" >= 0) NOT VALID;\n" := by decide +kernel
/- success,CREATE_TABLE -/
example : tableDiffed true
    none
    (some s%"CREATE TABLE \"users\" (id VARCHAR(36) NOT NULL, group_id VARCHAR(36) NOT NULL REFERENCES \"groups\" (\"id\"), \"name\" VARCHAR(255) NOT NULL UNIQUE, \"age\" INT NULL DEFAULT 0 CHECK (\"age\" >= 0), description TEXT NULL, PRIMARY KEY (\"id\"));") =
    .ok s%"CREATE TABLE \"users\" (\n    id VARCHAR(36) NOT NULL,\n    group_id VARCHAR(36) NOT NULL,\n    \"name\" VARCHAR(255) NOT NULL,\n    \"age\" INT NULL DEFAULT 0,\n    description TEXT NULL,\n    PRIMARY KEY (\"id\"),\n    CONSTRAINT users_group_id_fkey FOREIGN KEY (group_id) REFERENCES \"groups\" (\"id\"),\n    UNIQUE KEY users_unique_name (\"name\"),\n    CONSTRAINT users_age_check CHECK (\"age\" >= 0)\n);\n" := by decide +kernel
/- success,DROP_TABLE -/
example : tableDiffed true
    (some s%"CREATE TABLE \"users\" (id VARCHAR(36) NOT NULL, group_id VARCHAR(36) NOT NULL REFERENCES \"groups\" (\"id\"), \"name\" VARCHAR(255) NOT NULL UNIQUE, \"age\" INT DEFAULT 0 CHECK (\"age\" >= 0), description TEXT, PRIMARY KEY (\"id\"));")
    none =
    .ok s%"DROP TABLE \"users\";\n" := by decide +kernel
/- success,NoAsc -/
example : tableDiffed false
    (some s%"CREATE TABLE \"users\" (id VARCHAR(36) NOT NULL, PRIMARY KEY (\"id\"));")
    (some s%"CREATE TABLE \"users\" (id VARCHAR(36) NOT NULL, PRIMARY KEY (\"id\"));") =
    .err .noDifference := by decide +kernel

/-! `diff_test.go` -/
/- success,before,after,Table -/
example : diffed
    s%"CREATE TABLE public.users (\n    user_id VARCHAR(36) NOT NULL,\n    username VARCHAR(256) NOT NULL,\n    is_verified BOOLEAN NOT NULL DEFAULT false,\n    created_at DATETIME NOT NULL DEFAULT CURRENT_TIMESTAMP,\n    CONSTRAINT users_pkey PRIMARY KEY (user_id ASC),\n    INDEX users_idx_by_username (username DESC)\n);\n"
    s%"CREATE TABLE public.users (\n    user_id VARCHAR(36) NOT NULL,\n    username VARCHAR(256) NOT NULL,\n    is_verified BOOLEAN NOT NULL DEFAULT false,\n    created_at DATETIME NOT NULL DEFAULT CURRENT_TIMESTAMP,\n    updated_at DATETIME NOT NULL DEFAULT CURRENT_TIMESTAMP,\n    CONSTRAINT users_pkey PRIMARY KEY (user_id ASC),\n    INDEX users_idx_by_username (username DESC)\n);\n" =
    .ok s%"-- -\n-- +updated_at DATETIME NOT NULL DEFAULT CURRENT_TIMESTAMP\nALTER TABLE public.users ADD COLUMN updated_at DATETIME NOT NULL DEFAULT CURRENT_TIMESTAMP;\n" := by decide +kernel
/- success,before,after,Table,Asc -/
example : diffed
    s%"CREATE TABLE public.users (\n    user_id VARCHAR(36) NOT NULL,\n    username VARCHAR(256) NOT NULL,\n    is_verified BOOLEAN NOT NULL DEFAULT false,\n    created_at DATETIME NOT NULL DEFAULT CURRENT_TIMESTAMP,\n    updated_at DATETIME NOT NULL DEFAULT CURRENT_TIMESTAMP,\n    CONSTRAINT users_pkey PRIMARY KEY (user_id ASC),\n    INDEX users_idx_by_username (username ASC)\n);\n"
    s%"CREATE TABLE public.users (\n    user_id VARCHAR(36) NOT NULL,\n    username VARCHAR(256) NOT NULL,\n    is_verified BOOLEAN NOT NULL DEFAULT false,\n    created_at DATETIME NOT NULL DEFAULT CURRENT_TIMESTAMP,\n    updated_at DATETIME NOT NULL DEFAULT CURRENT_TIMESTAMP,\n    CONSTRAINT users_pkey PRIMARY KEY (user_id ASC),\n    INDEX users_idx_by_username (username DESC)\n);\n" =
    .ok s%"DROP INDEX public.users_idx_by_username;\nCREATE INDEX public.users_idx_by_username ON public.users (username DESC);\n" := by decide +kernel
/- success,before,after,Index -/
example : diffed
    s%"CREATE UNIQUE INDEX IF NOT EXISTS public.users_idx_by_username ON public.users (username DESC);"
    s%"CREATE UNIQUE INDEX IF NOT EXISTS public.users_idx_by_username ON public.users (username ASC, age ASC);" =
    .ok s%"-- -CREATE UNIQUE INDEX public.users_idx_by_username ON public.users (username DESC);\n-- +CREATE UNIQUE INDEX public.users_idx_by_username ON public.users (username, age);\n--  \nDROP INDEX public.users_idx_by_username;\nCREATE UNIQUE INDEX IF NOT EXISTS public.users_idx_by_username ON public.users (username, age);\n" := by decide +kernel
/- success,VARCHAR(10)->VARCHAR(11) -/
example : diffed
    s%"CREATE TABLE public.users ( username VARCHAR(10) NOT NULL );"
    s%"CREATE TABLE public.users ( username VARCHAR(11) NOT NULL );" =
    .ok s%"-- -username VARCHAR(10) NOT NULL\n-- +username VARCHAR(11) NOT NULL\nALTER TABLE public.users MODIFY username VARCHAR(11) NOT NULL;\n" := by decide +kernel
/- success,SET_DEFAULT_TRUE_FALSE -/
example : diffed
    s%"CREATE TABLE public.passwords ( user_id VARCHAR(36) NOT NULL, password TEXT NOT NULL, is_verified BOOLEAN NOT NULL DEFAULT false, is_expired BOOLEAN NOT NULL DEFAULT true );"
    s%"CREATE TABLE public.passwords ( user_id VARCHAR(36) NOT NULL, password TEXT NOT NULL, is_verified BOOLEAN NOT NULL DEFAULT FALSE, is_expired BOOLEAN NOT NULL DEFAULT TRUE );" =
    .err .noDifference := by decide +kernel
/- success,AUTO_INCREMENT -/
example : diffed
    s%"CREATE TABLE users ( user_id BIGINT(36) NOT NULL, PRIMARY KEY (user_id) );"
    s%"CREATE TABLE users ( user_id BIGINT(36) NOT NULL AUTO_INCREMENT, PRIMARY KEY (user_id) );" =
    .ok s%"-- -user_id BIGINT(36) NOT NULL\n-- +user_id BIGINT(36) NOT NULL AUTO_INCREMENT\nALTER TABLE users MODIFY user_id BIGINT(36) NOT NULL AUTO_INCREMENT;\n" := by decide +kernel

end Ddl.Tests.My
