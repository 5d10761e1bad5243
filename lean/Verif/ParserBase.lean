import Verif.Stmt

/-!
# Parser state and the parts of the parsers that all dialects share

Line numbers are those of `pkg/ddl/postgres/parser.go`; the code is repeated in the other dialect packages.

The Go parser holds the current and the next token and pulls further ones from the lexer.  Here the state is the list of tokens
from the current one on.  Behind the end of the list there are only EOF tokens, as in Go.  The `PANIC` marker stands for the place
where pulling a token makes the lexer panic (unterminated quote).

Loops take fuel.  Each is started with one more than the number of remaining tokens, and `Verif/Props` shows that
the fuel is never exhausted.
Loops that append to a slice are written as recursions that return the elements appended by the remaining rounds.
-/

namespace Ddl

/-- What the lexer returns at the end of the input: `pkg/ddl/postgres/lexar.go:345-347`. -/
def eofToken : Token := ⟨.EOF, []⟩

/-- `p.currentToken`. `pkg/ddl/postgres/parser.go:50-54`. -/
def cur (ts : List Token) : Token := ts.headD eofToken

/-- `p.currentToken.Type`. `pkg/ddl/postgres/parser.go:50-54`. -/
def curT (ts : List Token) : TokType := (cur ts).type

/-- `p.currentToken.Literal.Str`. `pkg/ddl/postgres/parser.go:50-54`. -/
def curL (ts : List Token) : Str := (cur ts).lit

/-- `p.peekToken.Type`. `pkg/ddl/postgres/parser.go:50-54`. -/
def peekT (ts : List Token) : TokType := curT ts.tail

/-- `p.peekToken.Literal.Str`. `pkg/ddl/postgres/parser.go:50-54`. -/
def peekL (ts : List Token) : Str := curL ts.tail

/-- `nextToken`: `parser.go:66-72`. -/
def next (ts : List Token) : Res (List Token) :=
  if peekT ts.tail = .PANIC then .panic .sliceBounds else .ok ts.tail

/-- The two calls of `nextToken` at the start of `Parse`: `parser.go:76-77`. -/
def start (ts : List Token) : Res (List Token) :=
  if curT ts = .PANIC ∨ peekT ts = .PANIC then .panic .sliceBounds else .ok ts

/-- `checkCurrentToken`: `parser.go:798-805`. -/
def checkCur (l : List TokType) (ts : List Token) : Res Unit :=
  if curT ts ∈ l then .ok () else .err .unexpectedCurrentToken

/-- `checkPeekToken`: `parser.go:816-823`. -/
def checkPeek (l : List TokType) (ts : List Token) : Res Unit :=
  if peekT ts ∈ l then .ok () else .err .unexpectedPeekToken

/-- `isReservedValue`: `parser.go:750-757`. -/
def isReservedValue (t : TokType) : Bool := t ∈ [.NULL, .TRUE, .FALSE]

/-- `IF NOT EXISTS`: `parser.go:132-143` and `208-219`. -/
def parseIfNotExists (ts : List Token) : Res (Bool × List Token) :=
  if peekT ts = .IF then do
    let ts ← next ts -- current = IF
    checkPeek [.NOT] ts
    let ts ← next ts -- current = NOT
    checkPeek [.EXISTS] ts
    let ts ← next ts -- current = EXISTS
    .ok (true, ts)
  else .ok (false, ts)

/-- The loop of `Parse`: `parser.go:81-101`; `create` is the dialect's `parseCreateStatement`. -/
def parseLoop {S : Type} (create : List Token → Res (S × List Token)) : Nat → List Token → Res (List S)
  | 0, _ => .outOfFuel
  | n + 1, ts =>
    if curT ts = .CREATE then do
      let (stmt, ts) ← create ts
      let ts ← next ts
      let stmts ← parseLoop create n ts
      .ok (stmt :: stmts)
    else if curT ts = .CLOSE_PAREN ∨ curT ts = .SEMICOLON then do
      let ts ← next ts
      parseLoop create n ts
    else if curT ts = .EOF then .ok []
    else .err .unexpectedCurrentToken

/-- `Parse`: `parser.go:75-103`, on the tokens of the input. -/
def parseTokens {S : Type} (create : List Token → Res (S × List Token)) (ts : List Token) : Res (List S) := do
  let ts ← start ts
  parseLoop create (ts.length + 1) ts

end Ddl
