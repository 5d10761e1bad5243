import Verif.ParserBase
import Verif.Sp.Ast

/-! # Spanner: the parser (`pkg/ddl/spanner/parser.go`) -/

namespace Ddl.Sp

/-- `NewRawIdent`: `parser.go:22-38`. -/
def rawIdent (s : Str) : Ident := newRawIdent .spanner s

/-- `isDataType`: `parser.go:796-809`. -/
def isDataType (t : TokType) : Bool := t ∈ [.BOOL, .INT64, .NUMERIC, .FLOAT64, .JSON, .STRING, .TIMESTAMP]

/-- `isConstraint`: `parser.go:811-823`. -/
def isConstraint (t : TokType) : Bool :=
  t ∈ [.CONSTRAINT, .INDEX, .PRIMARY, .KEY, .FOREIGN, .REFERENCES, .UNIQUE, .CHECK]

/-- The order behind a column name: `parser.go:729-736`. -/
def parseOrder (ts : List Token) : Res (Option Bool × List Token) :=
  if peekT ts = .ASC then do
    let ts ← next ts -- current = ASC
    .ok (some false, ts)
  else if peekT ts = .DESC then do
    let ts ← next ts -- current = DESC
    .ok (some true, ts)
  else .ok (none, ts)

/-- `parseColumnIdents`: `parser.go:719-750`. -/
def columnIdentsLoop : Nat → List Token → Res (List ColumnIdent × List Token)
  | 0, _ => .outOfFuel
  | n + 1, ts =>
    if curT ts = .OPEN_PAREN ∨ curT ts = .COMMA then do
      let ts ← next ts
      columnIdentsLoop n ts
    else if curT ts = .IDENT then do
      let i := rawIdent (curL ts)
      let (ord, ts) ← parseOrder ts
      let ts ← next ts
      let (r, ts) ← columnIdentsLoop n ts
      .ok (⟨i, ord⟩ :: r, ts)
    else if curT ts = .CLOSE_PAREN then do
      let ts ← next ts
      .ok ([], ts)
    else .err .unexpectedCurrentToken

/-- `parseColumnIdents`: `parser.go:719-750`, with fuel for all tokens. -/
def parseColumnIdents (ts : List Token) : Res (List ColumnIdent × List Token) := columnIdentsLoop (ts.length + 1) ts

/-- `parseIdents`: `parser.go:752-771`; the closing parenthesis stays current. -/
def identsLoop : Nat → List Token → Res (List Ident × List Token)
  | 0, _ => .outOfFuel
  | n + 1, ts =>
    if curT ts = .OPEN_PAREN then do
      let ts ← next ts
      identsLoop n ts
    else if curT ts = .CLOSE_PAREN then .ok ([], ts)
    else if curT ts = .EOF ∨ curT ts = .ILLEGAL then .err .unexpectedCurrentToken
    else do
      let i := rawIdent (curL ts)
      let ts ← next ts
      let (r, ts) ← identsLoop n ts
      .ok (i :: r, ts)

/-- `parseIdents`: `parser.go:752-771`, with fuel for all tokens. -/
def parseIdents (ts : List Token) : Res (List Ident × List Token) := identsLoop (ts.length + 1) ts

/-- `parseDataType`: `parser.go:699-717`. -/
def parseDataType (ts : List Token) : Res (DataType × List Token) :=
  let name := curL ts
  let type := curT ts
  if peekT ts = .OPEN_PAREN then do
    let ts ← next ts -- current = (
    let (ids, ts) ← parseIdents ts
    .ok (⟨name, type, ids⟩, ts)
  else .ok (⟨name, type, []⟩, ts)

/-- The loop of `parseExpr` together with its recursive calls: `parser.go:536-569`.
At an opening parenthesis (539-545) the recursive call of `parseExpr` contributes the parenthesis, and its own loop. -/
def exprLoop : Nat → List Token → Res (List Ident × List Token)
  | 0, _ => .outOfFuel
  | n + 1, ts =>
    if curT ts = .OPEN_PAREN then do
      let i := rawIdent (curL ts)
      let ts ← next ts
      let (ids, ts) ← exprLoop n ts
      let (r, ts) ← exprLoop n ts
      .ok (i :: ids ++ r, ts)
    else if curT ts = .CLOSE_PAREN then do
      let i := rawIdent (curL ts)
      let ts ← next ts
      .ok ([i], ts)
    else if curT ts = .EQUAL ∨ curT ts = .GREATER ∨ curT ts = .LESS then do
      let value := curL ts
      let (value, ts) ←
        if peekT ts = .EQUAL ∨ peekT ts = .GREATER ∨ peekT ts = .LESS then do
          let value := value ++ peekL ts
          let ts ← next ts
          .ok (value, ts)
        else .ok (value, ts)
      let ts ← next ts
      let (r, ts) ← exprLoop n ts
      .ok (rawIdent value :: r, ts)
    else if curT ts = .EOF then .err .unexpectedCurrentToken
    else do
      let i := if isReservedValue (curT ts) then rawIdent (curT ts).str else rawIdent (curL ts)
      let ts ← next ts
      let (r, ts) ← exprLoop n ts
      .ok (i :: r, ts)

/-- `parseExpr`: `parser.go:527-572`. -/
def parseExpr (ts : List Token) : Res (List Ident × List Token) := do
  checkCur [.OPEN_PAREN] ts
  let i := rawIdent (curL ts)
  let ts ← next ts
  let (r, ts) ← exprLoop (ts.length + 1) ts
  .ok (i :: r, ts)

/-- `Expr.Append`: `ddl_table.go:183-190`; the receiver may be nil. -/
def appendExpr (e : Option Expr) (ids : List Ident) : Option Expr := some (e.getD [] ++ ids)

/-- The loop of `parseColumnDefault`: `parser.go:482-521`; `v` is `def.Value`. -/
def defaultLoop : Nat → Option Expr → List Token → Res (Default × List Token)
  | 0, _, _ => .outOfFuel
  | n + 1, v, ts =>
    if curT ts = .IDENT then do
      let v := appendExpr v [rawIdent (curL ts)]
      let ts ← next ts
      defaultLoop n v ts
    else if curT ts = .OPEN_PAREN then do
      let (ids, ts) ← parseExpr ts
      defaultLoop n (appendExpr v ids) ts
    else if curT ts = .NOT ∨ curT ts = .COMMA ∨ curT ts = .CLOSE_PAREN then .ok (⟨v⟩, ts)
    else if isReservedValue (curT ts) then do
      let v := appendExpr v [newIdent (curT ts).str [] (curL ts)]
      let ts ← next ts
      defaultLoop n v ts
    else if isConstraint (curT ts) then .ok (⟨v⟩, ts)
    else .err .unexpectedCurrentToken

/-- `parseColumnDefault`: `parser.go:479-524`. -/
def parseColumnDefault (ts : List Token) : Res (Default × List Token) := defaultLoop (ts.length + 1) none ts

/-- The loop of `parseColumnConstraints`: `parser.go:578-619`; `cs` is `constraints`. -/
def columnConstraintsLoop (tbl col : Ident) : Nat → List Constraint → List Token → Res (List Constraint × List Token)
  | 0, _, _ => .outOfFuel
  | n + 1, cs, ts =>
    if curT ts = .REFERENCES then do
      checkPeek [.IDENT] ts
      let ts ← next ts -- current = table_name
      let name := rawIdent (tbl.diffStr ++ s%"_" ++ col.diffStr ++ s%"_fkey")
      let ref := rawIdent (curL ts)
      let ts ← next ts -- current = (
      let (ids, ts) ← parseColumnIdents ts
      let cs ← appendConstraint cs (.foreignKey name [⟨col, none⟩] ref ids)
      let ts ← next ts
      columnConstraintsLoop tbl col n cs ts
    else if curT ts = .CHECK then do
      checkPeek [.OPEN_PAREN] ts
      let ts ← next ts -- current = (
      let (ids, ts) ← parseExpr ts
      let cs ← appendConstraint cs (.check (some (rawIdent (tbl.diffStr ++ s%"_" ++ col.diffStr ++ s%"_check"))) ids)
      let ts ← next ts
      columnConstraintsLoop tbl col n cs ts
    else if curT ts = .OPTIONS ∨ curT ts = .IDENT ∨ curT ts = .COMMA ∨ curT ts = .CLOSE_PAREN then .ok (cs, ts)
    else .err .unexpectedCurrentToken

/-- `parseColumnConstraints`: `parser.go:575-622`. -/
def parseColumnConstraints (tbl col : Ident) (ts : List Token) : Res (List Constraint × List Token) :=
  columnConstraintsLoop tbl col (ts.length + 1) [] ts

/-- `LabelDefaultNotNull`: `parser.go:427-451`; `d`, `nn` are `column.Default`, `column.NotNull`. -/
def columnAttrsLoop : Nat → Option Default → Bool → List Token → Res (Option Default × Bool × List Token)
  | 0, _, _, _ => .outOfFuel
  | n + 1, d, nn, ts =>
    if curT ts = .NOT then do
      checkPeek [.NULL] ts
      let ts ← next ts -- current = NULL
      let ts ← next ts
      columnAttrsLoop n d true ts
    else if curT ts = .NULL then do
      let ts ← next ts
      columnAttrsLoop n d false ts
    else if curT ts = .DEFAULT then do
      let ts ← next ts -- current = value
      let (d, ts) ← parseColumnDefault ts
      columnAttrsLoop n (some d) nn ts
    else .ok (d, nn, ts)

/-- The options of a column: `parser.go:463-470`. -/
def parseColumnOptions (ts : List Token) : Res (Option Expr × List Token) :=
  if curT ts = .OPTIONS then do
    let ts ← next ts -- current = (
    let (ids, ts) ← parseExpr ts
    .ok (some ids, ts)
  else .ok (none, ts)

/-- `parseColumn`: `parser.go:405-476`.  The loop at 458-460 appends the constraints one by one, with replacement. -/
def parseColumn (tbl : Ident) (ts : List Token) : Res (Column × List Constraint × List Token) := do
  checkCur [.IDENT] ts
  let name := rawIdent (curL ts)
  let ts ← next ts -- current = DATA_TYPE
  if isDataType (curT ts) then
    let (dt, ts) ← parseDataType ts
    let ts ← next ts
    let (d, nn, ts) ← columnAttrsLoop (ts.length + 1) none false ts
    let (cs, ts) ← parseColumnConstraints tbl name ts
    let cs ← appendAll [] cs
    let (o, ts) ← parseColumnOptions ts
    .ok (⟨name, dt, d, nn, o⟩, cs, ts)
  else .err .unexpectedCurrentToken

/-- `for _, ident := range idents { name += "_" + ident.StringForDiff() }`: `parser.go:666-668`.
`ColumnIdent.StringForDiff` appends the sort order to the name. -/
def underscored (l : List ColumnIdent) : Str := (l.map (fun i => s%"_" ++ i.diffStr)).flatten

/-- The optional `CONSTRAINT name`: `parser.go:626-634`. -/
def parseConstraintName (ts : List Token) : Res (Option Ident × List Token) :=
  if curT ts = .CONSTRAINT then do
    let ts ← next ts -- current = constraint_name
    if curT ts ≠ .IDENT then .err .unexpectedCurrentToken
    else
      let name := rawIdent (curL ts)
      let ts ← next ts -- current = PRIMARY or CHECK
      .ok (some name, ts)
  else .ok (none, ts)

/-- `parseTableConstraint`: `parser.go:625-696`; an unnamed `CHECK` keeps a nil name. -/
def parseTableConstraint (tbl : Ident) (ts : List Token) : Res (Constraint × List Token) := do
  let (cname, ts) ← parseConstraintName ts
  if curT ts = .FOREIGN then
    checkPeek [.KEY] ts
    let ts ← next ts -- current = KEY
    checkPeek [.OPEN_PAREN] ts
    let ts ← next ts -- current = (
    let (ids, ts) ← parseColumnIdents ts
    checkCur [.REFERENCES] ts
    let ts ← next ts -- current = ref_table_name
    checkCur [.IDENT] ts
    let ref := rawIdent (curL ts)
    let ts ← next ts -- current = (
    let (idsRef, ts) ← parseColumnIdents ts
    .ok (.foreignKey (cname.getD (rawIdent (tbl.diffStr ++ underscored ids ++ s%"_fkey"))) ids ref idsRef, ts)
  else if curT ts = .CHECK then
    checkPeek [.OPEN_PAREN] ts
    let ts ← next ts -- current = (
    let (ids, ts) ← parseExpr ts
    .ok (.check cname ids, ts)
  else .err .unexpectedCurrentToken

/-- `LabelColumns`: `parser.go:160-189`; `cols`, `cs` are the columns and constraints so far. -/
def tableLoop (tbl : Ident) : Nat → List Column → List Constraint → List Token →
    Res (List Column × List Constraint × List Token)
  | 0, _, _, _ => .outOfFuel
  | n + 1, cols, cs, ts =>
    if curT ts = .IDENT then do
      let (col, ccs, ts) ← parseColumn tbl ts
      let cs ← appendAll cs ccs
      tableLoop tbl n (cols ++ [col]) cs ts
    else if isConstraint (curT ts) then do
      let (c, ts) ← parseTableConstraint tbl ts
      let cs ← appendConstraint cs c
      tableLoop tbl n cols cs ts
    else if curT ts = .COMMA then do
      let ts ← next ts
      tableLoop tbl n cols cs ts
    else if curT ts = .CLOSE_PAREN then do
      let ts ← next ts
      .ok (cols, cs, ts)
    else .err .unexpectedCurrentToken

/-- `p.nextToken()` followed by `p.checkCurrentToken(t)`; returns the literal of that token.
For instance `parser.go:211-214`. -/
def expect (t : TokType) (ts : List Token) : Res (Str × List Token) := do
  let ts ← next ts
  checkCur [t] ts
  .ok (curL ts, ts)

/-- `ON DELETE` behind `INTERLEAVE IN PARENT t`: `parser.go:225-246`; the texts are constants, not the literals. -/
def parseInterleaveAction (ts : List Token) : Res (Expr × List Token) :=
  if peekT ts = .ON then do
    let ts ← next ts -- current = ON
    let (_, ts) ← expect .DELETE ts
    let ts ← next ts -- current = CASCADE or NO
    if curT ts = .CASCADE then .ok ([rawIdent s%"ON DELETE CASCADE"], ts)
    else if curT ts = .NO then
      let (_, ts) ← expect .ACTION ts
      .ok ([rawIdent s%"ON DELETE NO ACTION"], ts)
    else .err .unexpectedCurrentToken
  else .ok ([], ts)

/-- `INTERLEAVE IN PARENT`: `parser.go:209-247`. -/
def parseInterleave (ts : List Token) : Res (TableOption × List Token) := do
  let (_, ts) ← expect .IN ts
  let (_, ts) ← expect .PARENT ts
  let (t, ts) ← expect .IDENT ts
  let (act, ts) ← parseInterleaveAction ts
  .ok (⟨s%"INTERLEAVE IN PARENT", rawIdent t :: act⟩, ts)

/-- `ROW DELETION POLICY`: `parser.go:248-324`; the last closing parenthesis stays current. -/
def parseRowDeletionPolicy (ts : List Token) : Res (TableOption × List Token) := do
  let (_, ts) ← expect .DELETION ts
  let (_, ts) ← expect .POLICY ts
  let (a, ts) ← expect .OPEN_PAREN ts
  let (b, ts) ← expect .OLDER_THAN ts
  let (c, ts) ← expect .OPEN_PAREN ts
  let (d, ts) ← expect .IDENT ts
  let (e, ts) ← expect .COMMA ts
  let (f, ts) ← expect .INTERVAL ts
  let (g, ts) ← expect .IDENT ts
  let (h, ts) ← expect .DAY ts
  let (i, ts) ← expect .CLOSE_PAREN ts
  let (j, ts) ← expect .CLOSE_PAREN ts
  .ok (⟨s%"ROW DELETION POLICY", [rawIdent a, rawIdent b, rawIdent c, rawIdent d, rawIdent e, rawIdent f, rawIdent g, rawIdent h,
    rawIdent i, rawIdent j]⟩, ts)

/-- `LabelTableOptions`: `parser.go:191-333`; `os`, `rdp` are the options and the row deletion policy so far. -/
def optionsLoop : Nat → List TableOption → Option TableOption → List Token →
    Res (List TableOption × Option TableOption × List Token)
  | 0, _, _, _ => .outOfFuel
  | n + 1, os, rdp, ts =>
    if curT ts = .PRIMARY then do
      let (_, ts) ← expect .KEY ts
      let ts ← next ts -- current = (
      let (ids, ts) ← parseExpr ts
      optionsLoop n (os ++ [⟨s%"PRIMARY KEY", ids⟩]) rdp ts
    else if curT ts = .INTERLEAVE then do
      let (o, ts) ← parseInterleave ts
      let ts ← next ts
      optionsLoop n (os ++ [o]) rdp ts
    else if curT ts = .ROW then do
      let (o, ts) ← parseRowDeletionPolicy ts
      let ts ← next ts
      optionsLoop n os (some o) ts
    else if curT ts = .COMMA then do
      let ts ← next ts
      optionsLoop n os rdp ts
    else if curT ts = .SEMICOLON ∨ curT ts = .EOF then .ok (os, rdp, ts)
    else .err .unexpectedCurrentToken

/-- `parseCreateTableStmt`: `parser.go:126-336`. -/
def parseCreateTable (ts : List Token) : Res (CreateTable × List Token) := do
  let (ine, ts) ← parseIfNotExists ts
  let ts ← next ts -- current = table_name
  checkCur [.IDENT] ts
  let name := newObjectName .spanner (curL ts)
  let ts ← next ts -- current = (
  checkCur [.OPEN_PAREN] ts
  let ts ← next ts -- current = column_name
  let (cols, cs, ts) ← tableLoop name.name (ts.length + 1) [] [] ts
  let (opts, rdp, ts) ← optionsLoop (ts.length + 1) [] none ts
  .ok (⟨[], ine, name, cols, cs, opts, rdp⟩, ts)

/-- The optional `USING` of `parseCreateIndexStmt`: `parser.go:384-388`. -/
def parseUsing (ts : List Token) : Res (List Ident × List Token) :=
  if curT ts = .USING then do
    let ts ← next ts -- current = using_def
    let i := newIdent (curL ts) [] (curL ts)
    let ts ← next ts -- current = (
    .ok ([i], ts)
  else .ok ([], ts)

/-- The optional `UNIQUE` of `parseCreateIndexStmt`: `parser.go:342-345`. -/
def parseUnique (ts : List Token) : Res (Bool × List Token) :=
  if curT ts = .UNIQUE then do
    let ts ← next ts -- current = INDEX
    .ok (true, ts)
  else .ok (false, ts)

/-- `parseCreateIndexStmt`: `parser.go:339-402`. -/
def parseCreateIndex (ts : List Token) : Res (CreateIndex × List Token) := do
  let (uq, ts) ← parseUnique ts
  let (ine, ts) ← parseIfNotExists ts
  let ts ← next ts -- current = index_name
  checkCur [.IDENT] ts
  let name := newObjectName .spanner (curL ts)
  let ts ← next ts -- current = ON
  checkCur [.ON] ts
  let ts ← next ts -- current = table_name
  checkCur [.IDENT] ts
  let tbl := newObjectName .spanner (curL ts)
  let ts ← next ts -- current = USING or (
  let (us, ts) ← parseUsing ts
  checkCur [.OPEN_PAREN] ts
  let (ids, ts) ← parseColumnIdents ts
  .ok (⟨[], uq, ine, name, tbl, us, ids⟩, ts)

/-- `parseCreateStatement`: `parser.go:104-123`. -/
def parseCreate (ts : List Token) : Res (SStmt × List Token) := do
  let ts ← next ts -- current = TABLE or INDEX or ...
  if curT ts = .TABLE then
    let (t, ts) ← parseCreateTable ts
    .ok (.createTable t, ts)
  else if curT ts = .INDEX ∨ curT ts = .UNIQUE then
    let (i, ts) ← parseCreateIndex ts
    .ok (.createIndex i, ts)
  else .err .unexpectedCurrentToken

/-- `NewParser(NewLexer(sql)).Parse()`: `parser.go:56-62`, `74-102`. -/
def parse (s : Str) : Res (List SStmt) := parseTokens parseCreate (lex .spanner s)

end Ddl.Sp
