import Verif.Token
import Verif.Spec.Lex
import Verif.Spec.Blur
/-! # Words that spell a type -/
set_option autoImplicit false
namespace Ddl.Spec

/-- The tokens are the given words (in upper case), each written in any letter case. -/
def SpelledAs (d : Dialect) (ws : List Str) (ts : List Token) : Prop :=
  Pointwise (fun w (t : Token) => t.lit.map Char.toUpper = w ∧ WordType d t.lit t.type) ws ts

/-- Classes of spellings that the databases document as the same type.
The classes the code does not treat as one type are missing; see the theorems `C36_…_fails`. -/
def synonyms : Dialect → List (List (List Str))
  | .postgres =>
    [[[s%"INT"], [s%"INTEGER"]],
     [[s%"TIMESTAMPTZ"], [s%"TIMESTAMP", s%"WITH", s%"TIME", s%"ZONE"]]]
  | .cockroachdb =>
    [[[s%"BOOL"], [s%"BOOLEAN"]],
     [[s%"INT2"], [s%"SMALLINT"]],
     [[s%"INTEGER"], [s%"INT"]],
     [[s%"INT8"], [s%"BIGINT"]],
     [[s%"FLOAT8"], [s%"DOUBLE", s%"PRECISION"]],
     [[s%"VARCHAR"], [s%"CHARACTER", s%"VARYING"]],
     [[s%"TEXT"], [s%"STRING"]],
     [[s%"TIMESTAMPTZ"], [s%"TIMESTAMP", s%"WITH", s%"TIME", s%"ZONE"]]]
  | .mysql =>
    [[[s%"INT"], [s%"INTEGER"]],
     [[s%"VARCHAR"], [s%"CHARACTER", s%"VARYING"]]]
  | .spanner => []

end Ddl.Spec
