import Verif.Token

/-!
# The lexers

`pkg/ddl/postgres/lexar.go:260-418`; the other dialects have the same functions
(`cockroachdb/lexar.go:281-444`, `mysql/lexar.go:304-468`, `spanner/lexar.go:260-424`) up to the differences noted at
`lexHead`.

The Go state (`input`, `position`, `readPosition`, `ch`) is represented by the input that remains to be read, starting at
`ch`; `ch == 0` at the end of the input corresponds to the empty list.  A NUL byte inside the input is the head
`NUL`, which Go cannot distinguish from the end of the input when it looks at `ch` only: it yields an EOF token and
lexing continues behind it.
-/

namespace Ddl

/-- The byte 0. -/
def NUL : Char := Char.ofNat 0

/-- `isLiteral`: `pkg/ddl/postgres/lexar.go:398-404`. -/
def isLit (c : Char) : Bool :=
  ('A' ≤ c && c ≤ 'Z') || ('a' ≤ c && c ≤ 'z') || ('0' ≤ c && c ≤ '9') || c == '_' || c == '.'

/-- The loop condition of `skipWhitespace`: `pkg/ddl/postgres/lexar.go:407`. -/
def isWs (c : Char) : Bool := c == ' ' || c == '\t' || c == '\n' || c == '\r'

/-- `skipWhitespace`: `pkg/ddl/postgres/lexar.go:406-412`. -/
def skipWhitespace (s : Str) : Str := s.dropWhile isWs

/-- `skipComment`: `pkg/ddl/postgres/lexar.go:414-418`. -/
def skipComment (s : Str) : Str := s.dropWhile (fun c => c != '\n' && c != NUL)

/-- `readIdentifier`: `pkg/ddl/postgres/lexar.go:388-396`. Returns the identifier and the remaining input. -/
def readIdentifier (s : Str) : Str × Str := (s.takeWhile isLit, s.dropWhile isLit)

/-- `readQuotedLiteral`, started behind the opening quote: `pkg/ddl/postgres/lexar.go:364-374`.
Returns the text up to and including the closing quote (or NUL) and the input behind it; `none` when the input ends first:
the slice expression `l.input[position : l.position+1]` then panics. -/
def readQuoted (q : Char) : Str → Option (Str × Str)
  | [] => none
  | c :: r =>
    if c = q ∨ c = NUL then some ([c], r)
    else match readQuoted q r with
      | none => none
      | some (body, rest) => some (c :: body, rest)

/-- `string(ch)` for a byte: a byte >= 0x80 is converted to the UTF-8 encoding (two bytes) of the code point of that
number. Used by `newToken` (`pkg/ddl/postgres/lexar.go:384-386`). -/
def byteStr (c : Char) : Str :=
  if c.toNat < 128 then [c]
  else [Char.ofNat (192 + c.toNat / 64), Char.ofNat (128 + c.toNat % 64)]

/-- `newToken`: `pkg/ddl/postgres/lexar.go:384-386`. -/
def newToken (t : TokType) (c : Char) : Token := ⟨t, byteStr c⟩

/-- The quote characters recognised by the lexer: `case '"', '\''` (`postgres/lexar.go:304`, `cockroachdb/lexar.go:325`),
``case '"', '\'', '`'`` (`mysql/lexar.go:348`, `spanner/lexar.go:304`). -/
def isQuote (d : Dialect) (c : Char) : Bool :=
  match d with
  | .postgres | .cockroachdb => c == '"' || c == '\''
  | .mysql | .spanner => c == '"' || c == '\'' || c == '`'

/-- The single-character cases of the switch: `pkg/ddl/postgres/lexar.go:323-344`. -/
def symbol (c : Char) : Option TokType :=
  if c = '(' then some .OPEN_PAREN
  else if c = ')' then some .CLOSE_PAREN
  else if c = ',' then some .COMMA
  else if c = ';' then some .SEMICOLON
  else if c = '=' then some .EQUAL
  else if c = '>' then some .GREATER
  else if c = '<' then some .LESS
  else if c = '+' then some .PLUS
  else if c = '-' then some .MINUS
  else if c = '*' then some .ASTERISK
  else if c = '/' then some .SLASH
  else none

/-- The cases `|` and `:` of the switch.  `postgres/lexar.go:307-322`: `||` and `::`.
`cockroachdb/lexar.go:328-348`: additionally `:::`.  Commented out in `mysql/lexar.go:351-372` and
`spanner/lexar.go:307-328`.  Returns the token and the remaining input, `none` if the case does not apply. -/
def lexOp (d : Dialect) (c : Char) (r : Str) : Option (Token × Str) :=
  match d with
  | .mysql | .spanner => none
  | _ =>
    if c = '|' then
      match r with
      | '|' :: r' => some (⟨.STRING_CONCAT, s%"||"⟩, r')
      | _ => some (newToken .ILLEGAL c, r)
    else if c = ':' then
      match d, r with
      | .cockroachdb, ':' :: ':' :: r' => some (⟨.TYPE_ANNOTATION, s%":::"⟩, r')
      | _, ':' :: r' => some (⟨.TYPECAST, s%"::"⟩, r')
      | _, _ => some (newToken .ILLEGAL c, r)
    else none

/-- The switch of `NextToken` (`pkg/ddl/postgres/lexar.go:303-361`) on the current character `c` with `r` behind it, after
whitespace and comments were skipped.  Returns the token and the remaining input. An unterminated quote yields the
`PANIC` marker. -/
def lexHead (d : Dialect) (c : Char) (r : Str) : Token × Str :=
  if isQuote d c then
    match readQuoted c r with
    | none => (⟨.PANIC, []⟩, [])
    | some (body, rest) => (⟨.IDENT, c :: body⟩, rest)
  else match lexOp d c r with
    | some x => x
    | none =>
      match symbol c with
      | some t => (newToken t c, r)
      | none =>
        if c = NUL then (⟨.EOF, []⟩, r)
        else if isLit c then
          let (w, rest) := readIdentifier (c :: r)
          (⟨lookupIdent d w, w⟩, rest)
        else (newToken .ILLEGAL c, r)

/-- Iterated `NextToken` (`pkg/ddl/postgres/lexar.go:294-361`): skip whitespace; at `--` skip the comment and start over;
otherwise emit a token.  Each round consumes at least one character, so `s.length + 1` rounds suffice
(`lexLoop_fuel`). -/
def lexLoop (d : Dialect) : Nat → Str → List Token
  | 0, _ => []
  | n + 1, s =>
    match skipWhitespace s with
    | [] => []
    | c :: r =>
      if c = '-' ∧ r.head? = some '-' then lexLoop d n (skipComment (c :: r))
      else
        let (t, rest) := lexHead d c r
        t :: lexLoop d n rest

/-- All tokens of an input, without the EOF tokens that Go returns forever at its end. `NextToken` called until the end:
`postgres/lexar.go:294`, `cockroachdb/lexar.go:315`, `mysql/lexar.go:338`, `spanner/lexar.go:294`. -/
def lex (d : Dialect) (s : Str) : List Token := lexLoop d (s.length + 1) s

end Ddl
