import Mathlib.Data.List.Nodup
import Verif.Token

/-! # The texts of token types determine them -/

namespace Ddl

/-- All token types. -/
def TokType.all : List TokType := [
    .ILLEGAL, .EOF, .OPEN_PAREN, .CLOSE_PAREN, .COMMA, .SEMICOLON, .EQUAL, .GREATER, .LESS, .PLUS, .MINUS, .ASTERISK, .SLASH,
    .STRING_CONCAT, .TYPECAST, .CREATE, .ALTER, .DROP, .RENAME, .TRUNCATE, .DELETE, .UPDATE, .TABLE, .INDEX, .VIEW, .IF,
    .EXISTS, .USING, .ON, .TO, .BOOLEAN, .SMALLINT, .INTEGER, .BIGINT, .DECIMAL, .NUMERIC, .REAL, .DOUBLE, .PRECISION,
    .DOUBLE_PRECISION, .SMALLSERIAL, .SERIAL, .BIGSERIAL, .UUID, .JSONB, .CHARACTER_VARYING, .CHARACTER, .VARYING, .TEXT,
    .TIMESTAMPTZ, .TIMESTAMP_WITH_TIME_ZONE, .TIMESTAMP, .WITH, .TIME, .ZONE, .DEFAULT, .NOT, .ASC, .DESC, .CASCADE, .NO,
    .ACTION, .CONSTRAINT, .PRIMARY, .KEY, .FOREIGN, .REFERENCES, .UNIQUE, .CHECK, .NULLIF, .NULL, .TRUE, .FALSE, .IDENT,
    .TYPE_ANNOTATION, .BOOL, .INT2, .INT4, .INT8, .FLOAT4, .FLOAT8, .VARCHAR, .STRING, .VISIBLE, .AS, .STORED, .VIRTUAL,
    .RESTRICT, .SET, .BIT, .TINYINT, .MEDIUMINT, .JSON, .CHAR, .MEDIUMTEXT, .LONGTEXT, .DATETIME, .DATE, .ENUM, .COMMENT,
    .ENGINE, .CHARSET, .COLLATE, .AUTO_INCREMENT, .CURRENT_TIMESTAMP, .INT64, .FLOAT64, .BYTES, .ARRAY, .STRUCT, .OPTIONS,
    .INTERLEAVE, .IN, .PARENT, .ROW, .DELETION, .POLICY, .OLDER_THAN, .INTERVAL, .DAY, .PANIC]

theorem TokType.mem_all (t : TokType) : t ∈ TokType.all := by cases t <;> decide

theorem TokType.all_nodup : (TokType.all.map TokType.str).Nodup := by decide +kernel

theorem TokType.str_inj {a b : TokType} (h : a.str = b.str) : a = b :=
  List.inj_on_of_nodup_map TokType.all_nodup (TokType.mem_all a) (TokType.mem_all b) h

theorem TokType.str_paren (t : TokType) : '(' ∉ t.str := by
  have : ∀ t ∈ TokType.all, '(' ∉ t.str := by decide +kernel
  exact this t (TokType.mem_all t)

end Ddl
