import Verif.ParserBase
import Verif.Pg.Ast

/-! # PostgreSQL: the parser (`pkg/ddl/postgres/parser.go`) -/

namespace Ddl.Pg

/-- `NewRawIdent`: `parser.go:23-39`. -/
def rawIdent (s : Str) : Ident := newRawIdent .postgres s

/-- `isOperator`: `parser.go:739-748`. -/
def isOperator (t : TokType) : Bool :=
  t ∈ [.EQUAL, .GREATER, .LESS, .PLUS, .MINUS, .ASTERISK, .SLASH, .STRING_CONCAT, .TYPECAST]

/-- `isDataType`: `parser.go:759-774`. -/
def isDataType (t : TokType) : Bool :=
  t ∈ [.BOOLEAN, .SMALLINT, .INTEGER, .BIGINT, .DECIMAL, .NUMERIC, .REAL, .DOUBLE, .SMALLSERIAL, .SERIAL, .BIGSERIAL,
    .UUID, .JSONB, .CHARACTER, .VARYING, .TEXT, .TIMESTAMP, .TIMESTAMPTZ]

/-- `isConstraint`: `parser.go:776-787`. -/
def isConstraint (t : TokType) : Bool :=
  t ∈ [.CONSTRAINT, .PRIMARY, .KEY, .FOREIGN, .REFERENCES, .UNIQUE, .CHECK]

/-- `parseColumnIdents`: `parser.go:691-714`. -/
def columnIdentsLoop : Nat → List Token → Res (List Ident × List Token)
  | 0, _ => .outOfFuel
  | n + 1, ts =>
    if curT ts = .OPEN_PAREN ∨ curT ts = .COMMA then do
      let ts ← next ts
      columnIdentsLoop n ts
    else if curT ts = .IDENT then do
      let i := rawIdent (curL ts)
      let ts ← next ts
      let (r, ts) ← columnIdentsLoop n ts
      .ok (i :: r, ts)
    else if curT ts = .CLOSE_PAREN then do
      let ts ← next ts
      .ok ([], ts)
    else .err .unexpectedCurrentToken

/-- `parseColumnIdents`: `parser.go:691-714`, with fuel for all tokens. -/
def parseColumnIdents (ts : List Token) : Res (List Ident × List Token) := columnIdentsLoop (ts.length + 1) ts

/-- `parseIdents`: `parser.go:716-737`. -/
def identsLoop : Nat → List Token → Res (List Ident × List Token)
  | 0, _ => .outOfFuel
  | n + 1, ts =>
    if curT ts = .OPEN_PAREN then do
      let ts ← next ts
      identsLoop n ts
    else if curT ts = .CLOSE_PAREN then .ok ([], ts)
    else if curT ts = .EOF ∨ curT ts = .ILLEGAL then .err .unexpectedCurrentToken
    else do
      let i := rawIdent (curL ts)
      let ts ← next ts
      let (r, ts) ← identsLoop n ts
      .ok (i :: r, ts)

/-- `parseIdents`: `parser.go:716-737`, with fuel for all tokens. -/
def parseIdents (ts : List Token) : Res (List Ident × List Token) := identsLoop (ts.length + 1) ts

/-- The part of `parseDataType` that reads the name: `parser.go:633-677`; returns the name, the type and the state. -/
def parseTypeName (ts : List Token) : Res (Str × TokType × List Token) :=
  if curT ts = .TIMESTAMPTZ then .ok (curL ts, .TIMESTAMP_WITH_TIME_ZONE, ts)
  else if curT ts = .TIMESTAMP then
    if peekT ts = .WITH then do
      let name := curL ts
      let ts ← next ts -- current = WITH
      let name := name ++ s%" " ++ curL ts
      checkPeek [.TIME] ts
      let ts ← next ts -- current = TIME
      let name := name ++ s%" " ++ curL ts
      checkPeek [.ZONE] ts
      let ts ← next ts -- current = ZONE
      let name := name ++ s%" " ++ curL ts
      .ok (name, .TIMESTAMP_WITH_TIME_ZONE, ts)
    else .ok (curL ts, .TIMESTAMP, ts)
  else if curT ts = .DOUBLE then do
    let name := curL ts
    checkPeek [.PRECISION] ts
    let ts ← next ts -- current = PRECISION
    .ok (name ++ s%" " ++ curL ts, .DOUBLE_PRECISION, ts)
  else if curT ts = .CHARACTER then do
    let name := curL ts
    checkPeek [.VARYING] ts
    let ts ← next ts -- current = VARYING
    .ok (name ++ s%" " ++ curL ts, .CHARACTER_VARYING, ts)
  else .ok (curL ts, curT ts, ts)

/-- `parseDataType`: `parser.go:632-689`. -/
def parseDataType (ts : List Token) : Res (DataType × List Token) := do
  let (name, type, ts) ← parseTypeName ts
  if peekT ts = .OPEN_PAREN then
    let ts ← next ts -- current = (
    let (ids, ts) ← parseIdents ts
    .ok (⟨name, type, ids⟩, ts)
  else .ok (⟨name, type, []⟩, ts)

/-- The loop of `parseExpr` together with its recursive calls: `parser.go:386-419`.
At an opening parenthesis (389-395) the recursive call of `parseExpr` contributes the parenthesis, and its own loop. -/
def exprLoop : Nat → List Token → Res (List Ident × List Token)
  | 0, _ => .outOfFuel
  | n + 1, ts =>
    if curT ts = .OPEN_PAREN then do
      let i := rawIdent (curL ts)
      let ts ← next ts
      let (ids, ts) ← exprLoop n ts
      let (r, ts) ← exprLoop n ts
      .ok (i :: ids ++ r, ts)
    else if curT ts = .CLOSE_PAREN then do
      let i := rawIdent (curL ts)
      let ts ← next ts
      .ok ([i], ts)
    else if curT ts = .EQUAL ∨ curT ts = .GREATER ∨ curT ts = .LESS then do
      let value := curL ts
      let (value, ts) ←
        if peekT ts = .EQUAL ∨ peekT ts = .GREATER ∨ peekT ts = .LESS then do
          let value := value ++ peekL ts
          let ts ← next ts
          .ok (value, ts)
        else .ok (value, ts)
      let ts ← next ts
      let (r, ts) ← exprLoop n ts
      .ok (rawIdent value :: r, ts)
    else if curT ts = .EOF then .err .unexpectedCurrentToken
    else do
      let i := if isReservedValue (curT ts) then rawIdent (curT ts).str else rawIdent (curL ts)
      let ts ← next ts
      let (r, ts) ← exprLoop n ts
      .ok (i :: r, ts)

/-- `parseExpr`: `parser.go:377-422`. -/
def parseExpr (ts : List Token) : Res (List Ident × List Token) := do
  checkCur [.OPEN_PAREN] ts
  let i := rawIdent (curL ts)
  let ts ← next ts
  let (r, ts) ← exprLoop (ts.length + 1) ts
  .ok (i :: r, ts)

/-- `Expr.Append`: `ddl_table.go:256-263`; the receiver may be nil. -/
def appendExpr (e : Option Expr) (ids : List Ident) : Option Expr := some (e.getD [] ++ ids)

/-- The loop of `parseColumnDefault`: `parser.go:334-371`; `v` is `def.Value`.
Line 360 dereferences `def.Value`, which is nil when nothing was appended yet. -/
def defaultLoop : Nat → Option Expr → List Token → Res (Default × List Token)
  | 0, _, _ => .outOfFuel
  | n + 1, v, ts =>
    if curT ts = .IDENT then do
      let v := appendExpr v [rawIdent (curL ts)]
      let ts ← next ts
      defaultLoop n v ts
    else if curT ts = .OPEN_PAREN then do
      let (ids, ts) ← parseExpr ts
      defaultLoop n (appendExpr v ids) ts
    else if curT ts = .NOT ∨ curT ts = .COMMA ∨ curT ts = .CLOSE_PAREN then .ok (⟨v⟩, ts)
    else if isReservedValue (curT ts) then do
      let v := appendExpr v [newIdent (curT ts).str [] (curL ts)]
      let ts ← next ts
      defaultLoop n v ts
    else if isOperator (curT ts) then do
      let v := appendExpr v [rawIdent (curL ts)]
      let ts ← next ts
      defaultLoop n v ts
    else if isDataType (curT ts) then
      match v with
      | none => .panic .nilDeref
      | some e => do
        let v := some (e ++ [rawIdent (curL ts)])
        let ts ← next ts
        defaultLoop n v ts
    else if isConstraint (curT ts) then .ok (⟨v⟩, ts)
    else .err .unexpectedCurrentToken

/-- `parseColumnDefault`: `parser.go:331-374`. -/
def parseColumnDefault (ts : List Token) : Res (Default × List Token) := defaultLoop (ts.length + 1) none ts

/-- `ON DELETE`/`ON UPDATE` of a column-level `REFERENCES`: `parser.go:457-477`. Returns `OnAction`. -/
def parseOnActionColumn (ts : List Token) : Res (Str × List Token) :=
  if curT ts = .ON then do
    let act := curL ts -- current = ON
    let ts ← next ts -- current = DELETE or UPDATE
    checkCur [.DELETE, .UPDATE] ts
    let act := act ++ s%" " ++ curL ts
    checkPeek [.CASCADE, .NO] ts
    let ts ← next ts -- current = CASCADE or NO
    let act := act ++ s%" " ++ curL ts
    if curT ts = .NO then
      checkPeek [.ACTION] ts
      let ts ← next ts -- current = ACTION
      .ok (act ++ s%" " ++ curL ts, ts)
    else .ok (act, ts)
  else .ok ([], ts)

/-- The loop of `parseColumnConstraints`: `parser.go:428-506`; `cs` is `constraints`. -/
def columnConstraintsLoop (tbl col : Ident) : Nat → List Constraint → List Token → Res (List Constraint × List Token)
  | 0, _, _ => .outOfFuel
  | n + 1, cs, ts =>
    if curT ts = .PRIMARY then do
      checkPeek [.KEY] ts
      let ts ← next ts -- current = KEY
      let cs := appendConstraint cs (.primaryKey (rawIdent (tbl.diffStr ++ s%"_pkey")) [col])
      let ts ← next ts
      columnConstraintsLoop tbl col n cs ts
    else if curT ts = .REFERENCES then do
      checkPeek [.IDENT] ts
      let ts ← next ts -- current = table_name
      let name := rawIdent (tbl.diffStr ++ s%"_" ++ col.diffStr ++ s%"_fkey")
      let ref := rawIdent (curL ts)
      let ts ← next ts -- current = (
      let (ids, ts) ← parseColumnIdents ts
      let (act, ts) ← parseOnActionColumn ts
      let cs := appendConstraint cs (.foreignKey name [col] ref ids act)
      let ts ← next ts
      columnConstraintsLoop tbl col n cs ts
    else if curT ts = .UNIQUE then do
      let cs := appendConstraint cs (.unique (rawIdent (tbl.diffStr ++ s%"_unique_" ++ col.diffStr)) [col])
      let ts ← next ts
      columnConstraintsLoop tbl col n cs ts
    else if curT ts = .CHECK then do
      checkPeek [.OPEN_PAREN] ts
      let ts ← next ts -- current = (
      let (ids, ts) ← parseExpr ts
      let cs := appendConstraint cs (.check (rawIdent (tbl.diffStr ++ s%"_" ++ col.diffStr ++ s%"_check")) ids)
      let ts ← next ts
      columnConstraintsLoop tbl col n cs ts
    else if curT ts = .IDENT ∨ curT ts = .COMMA ∨ curT ts = .CLOSE_PAREN then .ok (cs, ts)
    else .err .unexpectedCurrentToken

/-- `parseColumnConstraints`: `parser.go:425-509`. -/
def parseColumnConstraints (tbl col : Ident) (ts : List Token) : Res (List Constraint × List Token) :=
  columnConstraintsLoop tbl col (ts.length + 1) [] ts

/-- `LabelDefaultNotNull`: `parser.go:288-312`; `def_`, `nn` are `column.Default`, `column.NotNull`. -/
def columnAttrsLoop : Nat → Option Default → Bool → List Token → Res (Option Default × Bool × List Token)
  | 0, _, _, _ => .outOfFuel
  | n + 1, def_, nn, ts =>
    if curT ts = .NOT then do
      checkPeek [.NULL] ts
      let ts ← next ts -- current = NULL
      let ts ← next ts
      columnAttrsLoop n def_ true ts
    else if curT ts = .NULL then do
      let ts ← next ts
      columnAttrsLoop n def_ false ts
    else if curT ts = .DEFAULT then do
      let ts ← next ts -- current = behind DEFAULT
      let (d, ts) ← parseColumnDefault ts
      columnAttrsLoop n (some d) nn ts
    else .ok (def_, nn, ts)

/-- `parseColumn`: `parser.go:266-328`.  The loop at 319-321 appends the constraints one by one, with replacement. -/
def parseColumn (tbl : Ident) (ts : List Token) : Res (Column × List Constraint × List Token) := do
  checkCur [.IDENT] ts
  let name := rawIdent (curL ts)
  let ts ← next ts -- current = DATA_TYPE
  if isDataType (curT ts) then
    let (dt, ts) ← parseDataType ts
    let ts ← next ts
    let (def_, nn, ts) ← columnAttrsLoop (ts.length + 1) none false ts
    let (cs, ts) ← parseColumnConstraints tbl name ts
    .ok (⟨name, dt, def_, nn⟩, cs.foldl appendConstraint [], ts)
  else .err .unexpectedCurrentToken

/-- `ON DELETE`/`ON UPDATE` of a table-level `FOREIGN KEY`: `parser.go:572-589`; `NO` need not be followed by `ACTION`. -/
def parseOnActionTable (ts : List Token) : Res (Str × List Token) :=
  if curT ts = .ON then do
    let act := curL ts -- current = ON
    let ts ← next ts -- current = DELETE or UPDATE
    checkCur [.DELETE, .UPDATE] ts
    let act := act ++ s%" " ++ curL ts
    checkPeek [.CASCADE, .NO] ts
    let ts ← next ts -- current = CASCADE or NO
    let act := act ++ s%" " ++ curL ts
    if curT ts = .NO ∧ peekT ts = .ACTION then
      let ts ← next ts -- current = ACTION
      .ok (act ++ s%" " ++ curL ts, ts)
    else .ok (act, ts)
  else .ok ([], ts)

/-- `for _, ident := range idents { name += "_" + ident.StringForDiff() }`: `parser.go:592-594`, `618-620`. -/
def underscored (l : List Ident) : Str := (l.map (fun i => s%"_" ++ i.diffStr)).flatten

/-- The optional `CONSTRAINT name`: `parser.go:513-521`. -/
def parseConstraintName (ts : List Token) : Res (Option Ident × List Token) :=
  if curT ts = .CONSTRAINT then do
    let ts ← next ts -- current = constraint_name
    if curT ts ≠ .IDENT then .err .unexpectedCurrentToken
    else
      let name := rawIdent (curL ts)
      let ts ← next ts -- current = PRIMARY or CHECK or UNIQUE
      .ok (some name, ts)
  else .ok (none, ts)

/-- `parseTableConstraint`: `parser.go:512-629`. -/
def parseTableConstraint (tbl : Ident) (ts : List Token) : Res (Constraint × List Token) := do
  let (cname, ts) ← parseConstraintName ts
  if curT ts = .PRIMARY then
    checkPeek [.KEY] ts
    let ts ← next ts -- current = KEY
    checkPeek [.OPEN_PAREN] ts
    let ts ← next ts -- current = (
    let (ids, ts) ← parseColumnIdents ts
    .ok (.primaryKey (cname.getD (rawIdent (tbl.diffStr ++ s%"_pkey"))) ids, ts)
  else if curT ts = .FOREIGN then
    checkPeek [.KEY] ts
    let ts ← next ts -- current = KEY
    checkPeek [.OPEN_PAREN] ts
    let ts ← next ts -- current = (
    let (ids, ts) ← parseColumnIdents ts
    checkCur [.REFERENCES] ts
    let ts ← next ts -- current = ref_table_name
    checkCur [.IDENT] ts
    let ref := rawIdent (curL ts)
    let ts ← next ts -- current = (
    let (idsRef, ts) ← parseColumnIdents ts
    let (act, ts) ← parseOnActionTable ts
    .ok (.foreignKey (cname.getD (rawIdent (tbl.diffStr ++ underscored ids ++ s%"_fkey"))) ids ref idsRef act, ts)
  else if curT ts = .UNIQUE then
    checkPeek [.OPEN_PAREN] ts
    let ts ← next ts -- current = (
    let (ids, ts) ← parseColumnIdents ts
    .ok (.unique (cname.getD (rawIdent (tbl.diffStr ++ s%"_unique" ++ underscored ids))) ids, ts)
  else .err .unexpectedCurrentToken

/-- `LabelColumns`: `parser.go:161-194`; `cols`, `cs` are the columns and constraints so far. -/
def tableLoop (tbl : Ident) : Nat → List Column → List Constraint → List Token →
    Res (List Column × List Constraint × List Token)
  | 0, _, _, _ => .outOfFuel
  | n + 1, cols, cs, ts =>
    if curT ts = .IDENT then do
      let (col, ccs, ts) ← parseColumn tbl ts
      tableLoop tbl n (cols ++ [col]) (ccs.foldl appendConstraint cs) ts
    else if isConstraint (curT ts) then do
      let (c, ts) ← parseTableConstraint tbl ts
      tableLoop tbl n cols (appendConstraint cs c) ts
    else if curT ts = .COMMA then do
      let ts ← next ts
      tableLoop tbl n cols cs ts
    else if curT ts = .CLOSE_PAREN then
      if peekT ts = .SEMICOLON ∨ peekT ts = .EOF then .ok (cols, cs, ts) else .err .unexpectedPeekToken
    else .err .unexpectedCurrentToken

/-- `parseCreateTableStmt`: `parser.go:127-197`. -/
def parseCreateTable (ts : List Token) : Res (CreateTable × List Token) := do
  let (ine, ts) ← parseIfNotExists ts
  let ts ← next ts -- current = table_name
  checkCur [.IDENT] ts
  let name := newObjectName .postgres (curL ts)
  let ts ← next ts -- current = (
  checkCur [.OPEN_PAREN] ts
  let ts ← next ts -- current = column_name
  let (cols, cs, ts) ← tableLoop name.name (ts.length + 1) [] [] ts
  .ok (⟨[], ine, name, cols, cs, []⟩, ts)

/-- The optional `USING method` of `parseCreateIndexStmt`: `parser.go:245-249`. -/
def parseUsing (ts : List Token) : Res (List Ident × List Token) :=
  if curT ts = .USING then do
    let ts ← next ts -- current = using_def
    let u := newIdent (curL ts) [] (curL ts)
    let ts ← next ts -- current = (
    .ok ([u], ts)
  else .ok ([], ts)

/-- The optional `UNIQUE` of `parseCreateIndexStmt`: `parser.go:203-206`. -/
def parseUnique (ts : List Token) : Res (Bool × List Token) :=
  if curT ts = .UNIQUE then do
    let ts ← next ts -- current = INDEX
    .ok (true, ts)
  else .ok (false, ts)

/-- `parseCreateIndexStmt`: `parser.go:200-263`. -/
def parseCreateIndex (ts : List Token) : Res (CreateIndex × List Token) := do
  let (uq, ts) ← parseUnique ts
  let (ine, ts) ← parseIfNotExists ts
  let ts ← next ts -- current = index_name
  checkCur [.IDENT] ts
  let name := rawIdent (curL ts)
  let ts ← next ts -- current = ON
  checkCur [.ON] ts
  let ts ← next ts -- current = table_name
  checkCur [.IDENT] ts
  let tbl := newObjectName .postgres (curL ts)
  let ts ← next ts -- current = USING or (
  let (us, ts) ← parseUsing ts
  checkCur [.OPEN_PAREN] ts
  let (ids, ts) ← parseColumnIdents ts
  .ok (⟨[], uq, ine, name, tbl, us, ids⟩, ts)

/-- `parseCreateStatement`: `parser.go:105-124`. -/
def parseCreate (ts : List Token) : Res (PStmt × List Token) := do
  let ts ← next ts -- current = TABLE or INDEX or ...
  if curT ts = .TABLE then
    let (t, ts) ← parseCreateTable ts
    .ok (.createTable t, ts)
  else if curT ts = .INDEX ∨ curT ts = .UNIQUE then
    let (i, ts) ← parseCreateIndex ts
    .ok (.createIndex i, ts)
  else .err .unexpectedCurrentToken

/-- `NewParser(NewLexer(sql)).Parse()`: `parser.go:57-63`, `75-103`. -/
def parse (s : Str) : Res (List PStmt) := parseTokens parseCreate (lex .postgres s)

end Ddl.Pg
