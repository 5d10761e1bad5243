import Verif.Basic

/-!
# Tokens and keyword tables

`TokType` is the union of the `TokenType` constants of the four dialects
(`pkg/ddl/{postgres,cockroachdb,mysql,spanner}/lexar.go`, `const` block).
`PANIC` is not a Go token: it marks the place where `readQuotedLiteral` panics.
-/

namespace Ddl

/-- The four supported dialects, each with its own lexer and parser package under `pkg/ddl`.
The names: `pkg/ddl/postgres/ddl.go:10`, `pkg/ddl/cockroachdb/ddl.go:10`, `pkg/ddl/mysql/ddl.go:10`,
`pkg/ddl/spanner/ddl.go:10`. -/
inductive Dialect where
  | postgres | cockroachdb | mysql | spanner
deriving DecidableEq, Repr

/-- `TokenType` constants: `pkg/ddl/postgres/lexar.go:35-130`, `pkg/ddl/cockroachdb/lexar.go:35-137`,
`pkg/ddl/mysql/lexar.go:35-146`, `pkg/ddl/spanner/lexar.go:35-130`. -/
inductive TokType where
  | ILLEGAL | EOF | OPEN_PAREN | CLOSE_PAREN | COMMA | SEMICOLON | EQUAL | GREATER
  | LESS | PLUS | MINUS | ASTERISK | SLASH | STRING_CONCAT | TYPECAST | CREATE
  | ALTER | DROP | RENAME | TRUNCATE | DELETE | UPDATE | TABLE | INDEX
  | VIEW | IF | EXISTS | USING | ON | TO | BOOLEAN | SMALLINT
  | INTEGER | BIGINT | DECIMAL | NUMERIC | REAL | DOUBLE | PRECISION | DOUBLE_PRECISION
  | SMALLSERIAL | SERIAL | BIGSERIAL | UUID | JSONB | CHARACTER_VARYING | CHARACTER | VARYING
  | TEXT | TIMESTAMPTZ | TIMESTAMP_WITH_TIME_ZONE | TIMESTAMP | WITH | TIME | ZONE | DEFAULT
  | NOT | ASC | DESC | CASCADE | NO | ACTION | CONSTRAINT | PRIMARY
  | KEY | FOREIGN | REFERENCES | UNIQUE | CHECK | NULLIF | NULL | TRUE
  | FALSE | IDENT | TYPE_ANNOTATION | BOOL | INT2 | INT4 | INT8 | FLOAT4
  | FLOAT8 | VARCHAR | STRING | VISIBLE | AS | STORED | VIRTUAL | RESTRICT
  | SET | BIT | TINYINT | MEDIUMINT | JSON | CHAR | MEDIUMTEXT | LONGTEXT
  | DATETIME | DATE | ENUM | COMMENT | ENGINE | CHARSET | COLLATE | AUTO_INCREMENT
  | CURRENT_TIMESTAMP | INT64 | FLOAT64 | BYTES | ARRAY | STRUCT | OPTIONS | INTERLEAVE
  | IN | PARENT | ROW | DELETION | POLICY | OLDER_THAN | INTERVAL | DAY
  | PANIC
deriving DecidableEq, Repr

namespace TokType

/-- The string value of a `TokenType` constant (it is printed for data types). The lines are those of
`TokType`; `String`: `pkg/ddl/postgres/lexar.go:29-31`. -/
def str : TokType → Str
  | ILLEGAL => s%"ILLEGAL"
  | EOF => s%"EOF"
  | OPEN_PAREN => s%"OPEN_PAREN"
  | CLOSE_PAREN => s%"CLOSE_PAREN"
  | COMMA => s%"COMMA"
  | SEMICOLON => s%"SEMICOLON"
  | EQUAL => s%"EQUAL"
  | GREATER => s%"GREATER"
  | LESS => s%"LESS"
  | PLUS => s%"PLUS"
  | MINUS => s%"MINUS"
  | ASTERISK => s%"ASTERISK"
  | SLASH => s%"SLASH"
  | STRING_CONCAT => s%"STRING_CONCAT"
  | TYPECAST => s%"TYPECAST"
  | CREATE => s%"CREATE"
  | ALTER => s%"ALTER"
  | DROP => s%"DROP"
  | RENAME => s%"RENAME"
  | TRUNCATE => s%"TRUNCATE"
  | DELETE => s%"DELETE"
  | UPDATE => s%"UPDATE"
  | TABLE => s%"TABLE"
  | INDEX => s%"INDEX"
  | VIEW => s%"VIEW"
  | IF => s%"IF"
  | EXISTS => s%"EXISTS"
  | USING => s%"USING"
  | ON => s%"ON"
  | TO => s%"TO"
  | BOOLEAN => s%"BOOLEAN"
  | SMALLINT => s%"SMALLINT"
  | INTEGER => s%"INTEGER"
  | BIGINT => s%"BIGINT"
  | DECIMAL => s%"DECIMAL"
  | NUMERIC => s%"NUMERIC"
  | REAL => s%"REAL"
  | DOUBLE => s%"DOUBLE"
  | PRECISION => s%"PRECISION"
  | DOUBLE_PRECISION => s%"DOUBLE PRECISION"
  | SMALLSERIAL => s%"SMALLSERIAL"
  | SERIAL => s%"SERIAL"
  | BIGSERIAL => s%"BIGSERIAL"
  | UUID => s%"UUID"
  | JSONB => s%"JSONB"
  | CHARACTER_VARYING => s%"CHARACTER VARYING"
  | CHARACTER => s%"CHARACTER"
  | VARYING => s%"VARYING"
  | TEXT => s%"TEXT"
  | TIMESTAMPTZ => s%"TIMESTAMPTZ"
  | TIMESTAMP_WITH_TIME_ZONE => s%"TIMESTAMP WITH TIME ZONE"
  | TIMESTAMP => s%"TIMESTAMP"
  | WITH => s%"WITH"
  | TIME => s%"TIME"
  | ZONE => s%"ZONE"
  | DEFAULT => s%"DEFAULT"
  | NOT => s%"NOT"
  | ASC => s%"ASC"
  | DESC => s%"DESC"
  | CASCADE => s%"CASCADE"
  | NO => s%"NO"
  | ACTION => s%"ACTION"
  | CONSTRAINT => s%"CONSTRAINT"
  | PRIMARY => s%"PRIMARY"
  | KEY => s%"KEY"
  | FOREIGN => s%"FOREIGN"
  | REFERENCES => s%"REFERENCES"
  | UNIQUE => s%"UNIQUE"
  | CHECK => s%"CHECK"
  | NULLIF => s%"NULLIF"
  | NULL => s%"NULL"
  | TRUE => s%"TRUE"
  | FALSE => s%"FALSE"
  | IDENT => s%"IDENT"
  | TYPE_ANNOTATION => s%"TYPE_ANNOTATION"
  | BOOL => s%"BOOL"
  | INT2 => s%"INT2"
  | INT4 => s%"INT4"
  | INT8 => s%"INT8"
  | FLOAT4 => s%"FLOAT4"
  | FLOAT8 => s%"FLOAT8"
  | VARCHAR => s%"VARCHAR"
  | STRING => s%"STRING"
  | VISIBLE => s%"VISIBLE"
  | AS => s%"AS"
  | STORED => s%"STORED"
  | VIRTUAL => s%"VIRTUAL"
  | RESTRICT => s%"RESTRICT"
  | SET => s%"SET"
  | BIT => s%"BIT"
  | TINYINT => s%"TINYINT"
  | MEDIUMINT => s%"MEDIUMINT"
  | JSON => s%"JSON"
  | CHAR => s%"CHAR"
  | MEDIUMTEXT => s%"MEDIUMTEXT"
  | LONGTEXT => s%"LONGTEXT"
  | DATETIME => s%"DATETIME"
  | DATE => s%"DATE"
  | ENUM => s%"ENUM"
  | COMMENT => s%"COMMENT"
  | ENGINE => s%"ENGINE"
  | CHARSET => s%"CHARSET"
  | COLLATE => s%"COLLATE"
  | AUTO_INCREMENT => s%"AUTO_INCREMENT"
  | CURRENT_TIMESTAMP => s%"CURRENT_TIMESTAMP"
  | INT64 => s%"INT64"
  | FLOAT64 => s%"FLOAT64"
  | BYTES => s%"BYTES"
  | ARRAY => s%"ARRAY"
  | STRUCT => s%"STRUCT"
  | OPTIONS => s%"OPTIONS"
  | INTERLEAVE => s%"INTERLEAVE"
  | IN => s%"IN"
  | PARENT => s%"PARENT"
  | ROW => s%"ROW"
  | DELETION => s%"DELETION"
  | POLICY => s%"POLICY"
  | OLDER_THAN => s%"OLDER_THAN"
  | INTERVAL => s%"INTERVAL"
  | DAY => s%"DAY"
  | PANIC => s%"PANIC"

end TokType

/-- `Token` (`lexar.go`): a type and the literal text. `pkg/ddl/postgres/lexar.go:10-17`. -/
structure Token where
  type : TokType
  lit : Str
deriving DecidableEq, Repr

/-- The cases of `lookupIdent`: `pkg/ddl/postgres/lexar.go:133-258`. -/
def pgKeywords : List (Str × TokType) := [
  (s%"EQUAL", .EQUAL),
  (s%"GREATER", .GREATER),
  (s%"LESS", .LESS),
  (s%"CREATE", .CREATE),
  (s%"ALTER", .ALTER),
  (s%"DROP", .DROP),
  (s%"RENAME", .RENAME),
  (s%"TRUNCATE", .TRUNCATE),
  (s%"DELETE", .DELETE),
  (s%"UPDATE", .UPDATE),
  (s%"TABLE", .TABLE),
  (s%"INDEX", .INDEX),
  (s%"VIEW", .VIEW),
  (s%"IF", .IF),
  (s%"EXISTS", .EXISTS),
  (s%"USING", .USING),
  (s%"ON", .ON),
  (s%"TO", .TO),
  (s%"BOOLEAN", .BOOLEAN),
  (s%"SMALLINT", .SMALLINT),
  (s%"INTEGER", .INTEGER),
  (s%"INT", .INTEGER),
  (s%"BIGINT", .BIGINT),
  (s%"DECIMAL", .DECIMAL),
  (s%"NUMERIC", .NUMERIC),
  (s%"REAL", .REAL),
  (s%"DOUBLE", .DOUBLE),
  (s%"PRECISION", .PRECISION),
  (s%"SMALLSERIAL", .SMALLSERIAL),
  (s%"SERIAL", .SERIAL),
  (s%"BIGSERIAL", .BIGSERIAL),
  (s%"UUID", .UUID),
  (s%"JSONB", .JSONB),
  (s%"CHARACTER", .CHARACTER),
  (s%"VARYING", .VARYING),
  (s%"VARCHAR", .VARYING),
  (s%"TEXT", .TEXT),
  (s%"TIMESTAMP", .TIMESTAMP),
  (s%"TIMESTAMPTZ", .TIMESTAMPTZ),
  (s%"WITH", .WITH),
  (s%"TIME", .TIME),
  (s%"ZONE", .ZONE),
  (s%"DEFAULT", .DEFAULT),
  (s%"NOT", .NOT),
  (s%"ASC", .ASC),
  (s%"DESC", .DESC),
  (s%"CASCADE", .CASCADE),
  (s%"NO", .NO),
  (s%"ACTION", .ACTION),
  (s%"CONSTRAINT", .CONSTRAINT),
  (s%"PRIMARY", .PRIMARY),
  (s%"KEY", .KEY),
  (s%"FOREIGN", .FOREIGN),
  (s%"REFERENCES", .REFERENCES),
  (s%"UNIQUE", .UNIQUE),
  (s%"CHECK", .CHECK),
  (s%"NULLIF", .NULLIF),
  (s%"NULL", .NULL),
  (s%"TRUE", .TRUE),
  (s%"FALSE", .FALSE)]

/-- The cases of `lookupIdent`: `pkg/ddl/cockroachdb/lexar.go:140-279`. -/
def crdbKeywords : List (Str × TokType) := [
  (s%"EQUAL", .EQUAL),
  (s%"GREATER", .GREATER),
  (s%"LESS", .LESS),
  (s%"CREATE", .CREATE),
  (s%"ALTER", .ALTER),
  (s%"DROP", .DROP),
  (s%"RENAME", .RENAME),
  (s%"TRUNCATE", .TRUNCATE),
  (s%"DELETE", .DELETE),
  (s%"UPDATE", .UPDATE),
  (s%"TABLE", .TABLE),
  (s%"INDEX", .INDEX),
  (s%"VIEW", .VIEW),
  (s%"IF", .IF),
  (s%"EXISTS", .EXISTS),
  (s%"USING", .USING),
  (s%"ON", .ON),
  (s%"TO", .TO),
  (s%"BOOLEAN", .BOOL),
  (s%"BOOL", .BOOL),
  (s%"INT2", .INT2),
  (s%"SMALLINT", .INT2),
  (s%"INT4", .INT4),
  (s%"INTEGER", .INT4),
  (s%"INT", .INT4),
  (s%"INT8", .INT8),
  (s%"BIGINT", .INT8),
  (s%"DECIMAL", .DECIMAL),
  (s%"NUMERIC", .NUMERIC),
  (s%"REAL", .REAL),
  (s%"DOUBLE", .DOUBLE),
  (s%"PRECISION", .PRECISION),
  (s%"FLOAT4", .FLOAT4),
  (s%"FLOAT8", .FLOAT8),
  (s%"SMALLSERIAL", .SMALLSERIAL),
  (s%"SERIAL", .SERIAL),
  (s%"BIGSERIAL", .BIGSERIAL),
  (s%"UUID", .UUID),
  (s%"JSONB", .JSONB),
  (s%"CHARACTER", .CHARACTER),
  (s%"VARYING", .VARYING),
  (s%"VARCHAR", .VARCHAR),
  (s%"TEXT", .STRING),
  (s%"STRING", .STRING),
  (s%"TIMESTAMP", .TIMESTAMP),
  (s%"TIMESTAMPTZ", .TIMESTAMPTZ),
  (s%"WITH", .WITH),
  (s%"TIME", .TIME),
  (s%"ZONE", .ZONE),
  (s%"DEFAULT", .DEFAULT),
  (s%"NOT", .NOT),
  (s%"VISIBLE", .VISIBLE),
  (s%"AS", .AS),
  (s%"ASC", .ASC),
  (s%"DESC", .DESC),
  (s%"CASCADE", .CASCADE),
  (s%"NO", .NO),
  (s%"ACTION", .ACTION),
  (s%"STORED", .STORED),
  (s%"VIRTUAL", .VIRTUAL),
  (s%"CONSTRAINT", .CONSTRAINT),
  (s%"PRIMARY", .PRIMARY),
  (s%"KEY", .KEY),
  (s%"FOREIGN", .FOREIGN),
  (s%"REFERENCES", .REFERENCES),
  (s%"UNIQUE", .UNIQUE),
  (s%"CHECK", .CHECK),
  (s%"NULLIF", .NULLIF),
  (s%"NULL", .NULL),
  (s%"TRUE", .TRUE),
  (s%"FALSE", .FALSE)]

/-- The cases of `lookupIdent`: `pkg/ddl/mysql/lexar.go:149-302`. -/
def myKeywords : List (Str × TokType) := [
  (s%"EQUAL", .EQUAL),
  (s%"GREATER", .GREATER),
  (s%"LESS", .LESS),
  (s%"CREATE", .CREATE),
  (s%"ALTER", .ALTER),
  (s%"DROP", .DROP),
  (s%"RENAME", .RENAME),
  (s%"TRUNCATE", .TRUNCATE),
  (s%"TABLE", .TABLE),
  (s%"INDEX", .INDEX),
  (s%"VIEW", .VIEW),
  (s%"IF", .IF),
  (s%"EXISTS", .EXISTS),
  (s%"USING", .USING),
  (s%"ON", .ON),
  (s%"UPDATE", .UPDATE),
  (s%"DELETE", .DELETE),
  (s%"CASCADE", .CASCADE),
  (s%"RESTRICT", .RESTRICT),
  (s%"NO", .NO),
  (s%"ACTION", .ACTION),
  (s%"TO", .TO),
  (s%"SET", .SET),
  (s%"BOOLEAN", .BOOLEAN),
  (s%"BIT", .BIT),
  (s%"TINYINT", .TINYINT),
  (s%"SMALLINT", .SMALLINT),
  (s%"MEDIUMINT", .MEDIUMINT),
  (s%"INTEGER", .INTEGER),
  (s%"INT", .INTEGER),
  (s%"BIGINT", .BIGINT),
  (s%"DECIMAL", .DECIMAL),
  (s%"NUMERIC", .NUMERIC),
  (s%"REAL", .REAL),
  (s%"DOUBLE", .DOUBLE),
  (s%"PRECISION", .PRECISION),
  (s%"SMALLSERIAL", .SMALLSERIAL),
  (s%"SERIAL", .SERIAL),
  (s%"BIGSERIAL", .BIGSERIAL),
  (s%"JSON", .JSON),
  (s%"CHAR", .CHAR),
  (s%"CHARACTER", .CHARACTER),
  (s%"VARYING", .VARYING),
  (s%"VARCHAR", .VARCHAR),
  (s%"TEXT", .TEXT),
  (s%"MEDIUMTEXT", .MEDIUMTEXT),
  (s%"LONGTEXT", .LONGTEXT),
  (s%"TIMESTAMP", .TIMESTAMP),
  (s%"DATETIME", .DATETIME),
  (s%"DATE", .DATE),
  (s%"TIME", .TIME),
  (s%"ENUM", .ENUM),
  (s%"DEFAULT", .DEFAULT),
  (s%"NOT", .NOT),
  (s%"ASC", .ASC),
  (s%"DESC", .DESC),
  (s%"COMMENT", .COMMENT),
  (s%"CONSTRAINT", .CONSTRAINT),
  (s%"PRIMARY", .PRIMARY),
  (s%"KEY", .KEY),
  (s%"FOREIGN", .FOREIGN),
  (s%"REFERENCES", .REFERENCES),
  (s%"UNIQUE", .UNIQUE),
  (s%"CHECK", .CHECK),
  (s%"ENGINE", .ENGINE),
  (s%"CHARSET", .CHARSET),
  (s%"COLLATE", .COLLATE),
  (s%"AUTO_INCREMENT", .AUTO_INCREMENT),
  (s%"CURRENT_TIMESTAMP", .CURRENT_TIMESTAMP),
  (s%"NULLIF", .NULLIF),
  (s%"NULL", .NULL),
  (s%"TRUE", .TRUE),
  (s%"FALSE", .FALSE)]

/-- The cases of `lookupIdent`: `pkg/ddl/spanner/lexar.go:133-258`. -/
def spKeywords : List (Str × TokType) := [
  (s%"EQUAL", .EQUAL),
  (s%"GREATER", .GREATER),
  (s%"LESS", .LESS),
  (s%"CREATE", .CREATE),
  (s%"ALTER", .ALTER),
  (s%"DROP", .DROP),
  (s%"RENAME", .RENAME),
  (s%"TRUNCATE", .TRUNCATE),
  (s%"DELETE", .DELETE),
  (s%"UPDATE", .UPDATE),
  (s%"TABLE", .TABLE),
  (s%"INDEX", .INDEX),
  (s%"VIEW", .VIEW),
  (s%"IF", .IF),
  (s%"EXISTS", .EXISTS),
  (s%"USING", .USING),
  (s%"ON", .ON),
  (s%"TO", .TO),
  (s%"WITH", .WITH),
  (s%"BOOL", .BOOL),
  (s%"INT64", .INT64),
  (s%"FLOAT64", .FLOAT64),
  (s%"NUMERIC", .NUMERIC),
  (s%"JSON", .JSON),
  (s%"STRING", .STRING),
  (s%"BYTES", .BYTES),
  (s%"TIMESTAMP", .TIMESTAMP),
  (s%"DATE", .DATE),
  (s%"ARRAY", .ARRAY),
  (s%"STRUCT", .STRUCT),
  (s%"DEFAULT", .DEFAULT),
  (s%"NOT", .NOT),
  (s%"ASC", .ASC),
  (s%"DESC", .DESC),
  (s%"OPTIONS", .OPTIONS),
  (s%"INTERLEAVE", .INTERLEAVE),
  (s%"IN", .IN),
  (s%"PARENT", .PARENT),
  (s%"CASCADE", .CASCADE),
  (s%"NO", .NO),
  (s%"ACTION", .ACTION),
  (s%"CONSTRAINT", .CONSTRAINT),
  (s%"PRIMARY", .PRIMARY),
  (s%"KEY", .KEY),
  (s%"FOREIGN", .FOREIGN),
  (s%"REFERENCES", .REFERENCES),
  (s%"UNIQUE", .UNIQUE),
  (s%"CHECK", .CHECK),
  (s%"NULLIF", .NULLIF),
  (s%"NULL", .NULL),
  (s%"TRUE", .TRUE),
  (s%"FALSE", .FALSE),
  (s%"ROW", .ROW),
  (s%"DELETION", .DELETION),
  (s%"POLICY", .POLICY),
  (s%"OLDER_THAN", .OLDER_THAN),
  (s%"INTERVAL", .INTERVAL),
  (s%"DAY", .DAY)]

/-- The keyword table of each dialect. `pkg/ddl/postgres/lexar.go:133`, `pkg/ddl/cockroachdb/lexar.go:140`,
`pkg/ddl/mysql/lexar.go:149`, `pkg/ddl/spanner/lexar.go:133`. -/
def keywords : Dialect → List (Str × TokType)
  | .postgres => pgKeywords
  | .cockroachdb => crdbKeywords
  | .mysql => myKeywords
  | .spanner => spKeywords

/-- `switch token { case k: return t ... default: return TOKEN_IDENT }`. `pkg/ddl/postgres/lexar.go:137-256`. -/
def lookupKw (w : Str) : List (Str × TokType) → TokType
  | [] => .IDENT
  | (k, t) :: r => if w = k then t else lookupKw w r

/-- `lookupIdent` (`pkg/ddl/*/lexar.go`, see the tables above): upper-case, then table lookup.
`pkg/ddl/postgres/lexar.go:133-134`. -/
def lookupIdent (d : Dialect) (ident : Str) : TokType := lookupKw (upper ident) (keywords d)

end Ddl
