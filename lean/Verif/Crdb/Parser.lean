import Verif.ParserBase
import Verif.Crdb.Ast

/-! # CockroachDB: the parser (`pkg/ddl/cockroachdb/parser.go`) -/

namespace Ddl.Crdb

/-- `NewRawIdent`: `parser.go:23-39`. -/
def rawIdent (s : Str) : Ident := newRawIdent .cockroachdb s

/-- `isOperator`: `parser.go:865-875`. -/
def isOperator (t : TokType) : Bool :=
  t ∈ [.EQUAL, .GREATER, .LESS, .PLUS, .MINUS, .ASTERISK, .SLASH, .TYPE_ANNOTATION, .STRING_CONCAT, .TYPECAST]

/-- `isDataType`: `parser.go:886-902`. -/
def isDataType (t : TokType) : Bool :=
  t ∈ [.BOOL, .INT2, .INT4, .INT8, .DECIMAL, .NUMERIC, .REAL, .DOUBLE, .FLOAT4, .FLOAT8, .SMALLSERIAL, .SERIAL, .BIGSERIAL,
    .UUID, .JSONB, .CHARACTER, .VARYING, .VARCHAR, .STRING, .TIMESTAMP, .TIMESTAMPTZ]

/-- `isConstraint`: `parser.go:904-916`. -/
def isConstraint (t : TokType) : Bool :=
  t ∈ [.CONSTRAINT, .INDEX, .PRIMARY, .KEY, .FOREIGN, .REFERENCES, .UNIQUE, .CHECK]

/-- The order behind a column name: `parser.go:819-826`. -/
def parseOrder (ts : List Token) : Res (Option Bool × List Token) :=
  if peekT ts = .ASC then do
    let ts ← next ts -- current = ASC
    .ok (some false, ts)
  else if peekT ts = .DESC then do
    let ts ← next ts -- current = DESC
    .ok (some true, ts)
  else .ok (none, ts)

/-- `parseColumnIdents`: `parser.go:809-840`. -/
def columnIdentsLoop : Nat → List Token → Res (List ColumnIdent × List Token)
  | 0, _ => .outOfFuel
  | n + 1, ts =>
    if curT ts = .OPEN_PAREN ∨ curT ts = .COMMA then do
      let ts ← next ts
      columnIdentsLoop n ts
    else if curT ts = .IDENT then do
      let i := rawIdent (curL ts)
      let (ord, ts) ← parseOrder ts
      let ts ← next ts
      let (r, ts) ← columnIdentsLoop n ts
      .ok (⟨i, ord⟩ :: r, ts)
    else if curT ts = .CLOSE_PAREN then do
      let ts ← next ts
      .ok ([], ts)
    else .err .unexpectedCurrentToken

/-- `parseColumnIdents`: `parser.go:809-840`, with fuel for all tokens. -/
def parseColumnIdents (ts : List Token) : Res (List ColumnIdent × List Token) := columnIdentsLoop (ts.length + 1) ts

/-- `parseIdents`: `parser.go:842-863`. -/
def identsLoop : Nat → List Token → Res (List Ident × List Token)
  | 0, _ => .outOfFuel
  | n + 1, ts =>
    if curT ts = .OPEN_PAREN then do
      let ts ← next ts
      identsLoop n ts
    else if curT ts = .CLOSE_PAREN then .ok ([], ts)
    else if curT ts = .EOF ∨ curT ts = .ILLEGAL then .err .unexpectedCurrentToken
    else do
      let i := rawIdent (curL ts)
      let ts ← next ts
      let (r, ts) ← identsLoop n ts
      .ok (i :: r, ts)

/-- `parseIdents`: `parser.go:842-863`, with fuel for all tokens. -/
def parseIdents (ts : List Token) : Res (List Ident × List Token) := identsLoop (ts.length + 1) ts

/-- The part of `parseDataType` that reads the name: `parser.go:754-795`; returns the name, the type and the state. -/
def parseTypeName (ts : List Token) : Res (Str × TokType × List Token) :=
  if curT ts = .TIMESTAMP then
    if peekT ts = .WITH then do
      let name := curL ts
      let ts ← next ts -- current = WITH
      let name := name ++ s%" " ++ curL ts
      checkPeek [.TIME] ts
      let ts ← next ts -- current = TIME
      let name := name ++ s%" " ++ curL ts
      checkPeek [.ZONE] ts
      let ts ← next ts -- current = ZONE
      let name := name ++ s%" " ++ curL ts
      .ok (name, .TIMESTAMPTZ, ts)
    else .ok (curL ts, .TIMESTAMP, ts)
  else if curT ts = .DOUBLE then do
    let name := curL ts
    checkPeek [.PRECISION] ts
    let ts ← next ts -- current = PRECISION
    .ok (name ++ s%" " ++ curL ts, .FLOAT8, ts)
  else if curT ts = .CHARACTER then do
    let name := curL ts
    checkPeek [.VARYING] ts
    let ts ← next ts -- current = VARYING
    .ok (name ++ s%" " ++ curL ts, .VARCHAR, ts)
  else .ok (curL ts, curT ts, ts)

/-- `parseDataType`: `parser.go:753-807`. -/
def parseDataType (ts : List Token) : Res (DataType × List Token) := do
  let (name, type, ts) ← parseTypeName ts
  if peekT ts = .OPEN_PAREN then
    let ts ← next ts -- current = (
    let (ids, ts) ← parseIdents ts
    .ok (⟨name, type, ids⟩, ts)
  else .ok (⟨name, type, []⟩, ts)

/-- The loop of `parseExpr` together with its recursive calls: `parser.go:493-526`.
At an opening parenthesis (496-502) the recursive call of `parseExpr` contributes the parenthesis, and its own loop. -/
def exprLoop : Nat → List Token → Res (List Ident × List Token)
  | 0, _ => .outOfFuel
  | n + 1, ts =>
    if curT ts = .OPEN_PAREN then do
      let i := rawIdent (curL ts)
      let ts ← next ts
      let (ids, ts) ← exprLoop n ts
      let (r, ts) ← exprLoop n ts
      .ok (i :: ids ++ r, ts)
    else if curT ts = .CLOSE_PAREN then do
      let i := rawIdent (curL ts)
      let ts ← next ts
      .ok ([i], ts)
    else if curT ts = .EQUAL ∨ curT ts = .GREATER ∨ curT ts = .LESS then do
      let value := curL ts
      let (value, ts) ←
        if peekT ts = .EQUAL ∨ peekT ts = .GREATER ∨ peekT ts = .LESS then do
          let value := value ++ peekL ts
          let ts ← next ts
          .ok (value, ts)
        else .ok (value, ts)
      let ts ← next ts
      let (r, ts) ← exprLoop n ts
      .ok (rawIdent value :: r, ts)
    else if curT ts = .EOF then .err .unexpectedCurrentToken
    else do
      let i := if isReservedValue (curT ts) then rawIdent (curT ts).str else rawIdent (curL ts)
      let ts ← next ts
      let (r, ts) ← exprLoop n ts
      .ok (i :: r, ts)

/-- `parseExpr`: `parser.go:484-529`. -/
def parseExpr (ts : List Token) : Res (List Ident × List Token) := do
  checkCur [.OPEN_PAREN] ts
  let i := rawIdent (curL ts)
  let ts ← next ts
  let (r, ts) ← exprLoop (ts.length + 1) ts
  .ok (i :: r, ts)

/-- `Expr.Append`: `ddl_table.go:289-296`; the receiver may be nil. -/
def appendExpr (e : Option Expr) (ids : List Ident) : Option Expr := some (e.getD [] ++ ids)

/-- The loop of `parseColumnDefault`: `parser.go:361-398`; `v` is `def.Value`.
Line 387 dereferences `def.Value`, which is nil when nothing was appended yet. -/
def defaultLoop : Nat → Option Expr → List Token → Res (Default × List Token)
  | 0, _, _ => .outOfFuel
  | n + 1, v, ts =>
    if curT ts = .IDENT then do
      let v := appendExpr v [rawIdent (curL ts)]
      let ts ← next ts
      defaultLoop n v ts
    else if curT ts = .OPEN_PAREN then do
      let (ids, ts) ← parseExpr ts
      defaultLoop n (appendExpr v ids) ts
    else if curT ts = .NOT ∨ curT ts = .COMMA ∨ curT ts = .CLOSE_PAREN then .ok (⟨v⟩, ts)
    else if isReservedValue (curT ts) then do
      let v := appendExpr v [newIdent (curT ts).str [] (curL ts)]
      let ts ← next ts
      defaultLoop n v ts
    else if isOperator (curT ts) then do
      let v := appendExpr v [rawIdent (curL ts)]
      let ts ← next ts
      defaultLoop n v ts
    else if isDataType (curT ts) then
      match v with
      | none => .panic .nilDeref
      | some e => do
        let v := some (e ++ [rawIdent (curL ts)])
        let ts ← next ts
        defaultLoop n v ts
    else if isConstraint (curT ts) then .ok (⟨v⟩, ts)
    else .err .unexpectedCurrentToken

/-- `parseColumnDefault`: `parser.go:358-401`. -/
def parseColumnDefault (ts : List Token) : Res (Default × List Token) := defaultLoop (ts.length + 1) none ts

/-- The loop of `parseColumnAs`: `parser.go:407-446`; `v`, `t` are `as.Value`, `as.Type`.
Line 435 dereferences `as.Value`, which is nil when nothing was appended yet. -/
def asLoop : Nat → Option Expr → Option TokType → List Token → Res (As × List Token)
  | 0, _, _, _ => .outOfFuel
  | n + 1, v, t, ts =>
    if curT ts = .IDENT then do
      let v := appendExpr v [rawIdent (curL ts)]
      let ts ← next ts
      asLoop n v t ts
    else if curT ts = .OPEN_PAREN then do
      let (ids, ts) ← parseExpr ts
      asLoop n (appendExpr v ids) t ts
    else if curT ts = .STORED ∨ curT ts = .VIRTUAL then do
      let t := some (curT ts)
      let ts ← next ts
      asLoop n v t ts
    else if curT ts = .NOT ∨ curT ts = .COMMA ∨ curT ts = .CLOSE_PAREN then .ok (⟨v, t⟩, ts)
    else if isReservedValue (curT ts) then do
      let v := appendExpr v [newIdent (curT ts).str [] (curL ts)]
      let ts ← next ts
      asLoop n v t ts
    else if isOperator (curT ts) then do
      let v := appendExpr v [rawIdent (curL ts)]
      let ts ← next ts
      asLoop n v t ts
    else if isDataType (curT ts) then
      match v with
      | none => .panic .nilDeref
      | some e => do
        let v := some (e ++ [rawIdent (curL ts)])
        let ts ← next ts
        asLoop n v t ts
    else if isConstraint (curT ts) then .ok (⟨v, t⟩, ts)
    else .err .unexpectedCurrentToken

/-- `parseColumnAs`: `parser.go:404-449`. -/
def parseColumnAs (ts : List Token) : Res (As × List Token) := asLoop (ts.length + 1) none none ts

/-- The loop of `parseUsing`: `parser.go:455-478`; `v`, `w` are `using.Value`, `using.With`. -/
def usingLoop : Nat → Option Expr → Option Expr → List Token → Res (Using × List Token)
  | 0, _, _, _ => .outOfFuel
  | n + 1, v, w, ts =>
    if curT ts = .USING then do
      let ts ← next ts -- current = using_def
      usingLoop n v w ts
    else if curT ts = .IDENT then do
      let v := appendExpr v [rawIdent (curL ts)]
      let ts ← next ts
      usingLoop n v w ts
    else if curT ts = .WITH then do
      let ts ← next ts -- current = with_def
      let (ids, ts) ← parseExpr ts
      usingLoop n v (some ids) ts
    else if curT ts = .NOT ∨ curT ts = .COMMA ∨ curT ts = .CLOSE_PAREN ∨ curT ts = .VIRTUAL then .ok (⟨v, w⟩, ts)
    else .err .unexpectedCurrentToken

/-- `parseUsing`: `parser.go:452-481`. -/
def parseUsing (ts : List Token) : Res (Using × List Token) := usingLoop (ts.length + 1) none none ts

/-- `USING` in front of or behind a column list: `parser.go:247-254`, `267-274`, `738-745`; the token behind it is skipped. -/
def parseUsingOpt (ts : List Token) : Res (Option Using × List Token) :=
  if curT ts = .USING then do
    let (u, ts) ← parseUsing ts
    let ts ← next ts
    .ok (some u, ts)
  else .ok (none, ts)

/-- `ON DELETE`/`ON UPDATE` of a column-level `REFERENCES`: `parser.go:564-584`. Returns `OnAction`. -/
def parseOnActionColumn (ts : List Token) : Res (Str × List Token) :=
  if curT ts = .ON then do
    let act := curL ts -- current = ON
    let ts ← next ts -- current = DELETE or UPDATE
    checkCur [.DELETE, .UPDATE] ts
    let act := act ++ s%" " ++ curL ts
    checkPeek [.CASCADE, .NO] ts
    let ts ← next ts -- current = CASCADE or NO
    let act := act ++ s%" " ++ curL ts
    if curT ts = .NO then
      checkPeek [.ACTION] ts
      let ts ← next ts -- current = ACTION
      .ok (act ++ s%" " ++ curL ts, ts)
    else .ok (act, ts)
  else .ok ([], ts)

/-- The loop of `parseColumnConstraints`: `parser.go:535-614`; `cs` is `constraints`. -/
def columnConstraintsLoop (tbl col : Ident) : Nat → List Constraint → List Token → Res (List Constraint × List Token)
  | 0, _, _ => .outOfFuel
  | n + 1, cs, ts =>
    if curT ts = .PRIMARY then do
      checkPeek [.KEY] ts
      let ts ← next ts -- current = KEY
      let cs := appendConstraint cs (.primaryKey (rawIdent (tbl.diffStr ++ s%"_pkey")) [⟨col, none⟩])
      let ts ← next ts
      columnConstraintsLoop tbl col n cs ts
    else if curT ts = .REFERENCES then do
      checkPeek [.IDENT] ts
      let ts ← next ts -- current = table_name
      let name := rawIdent (tbl.diffStr ++ s%"_" ++ col.diffStr ++ s%"_fkey")
      let ref := rawIdent (curL ts)
      let ts ← next ts -- current = (
      let (ids, ts) ← parseColumnIdents ts
      let (act, ts) ← parseOnActionColumn ts
      let cs := appendConstraint cs (.foreignKey name [⟨col, none⟩] ref ids act)
      let ts ← next ts
      columnConstraintsLoop tbl col n cs ts
    else if curT ts = .UNIQUE then do
      let cs := appendConstraint cs (.index (rawIdent (tbl.diffStr ++ s%"_unique_" ++ col.diffStr)) true none [⟨col, none⟩] none)
      let ts ← next ts
      columnConstraintsLoop tbl col n cs ts
    else if curT ts = .CHECK then do
      checkPeek [.OPEN_PAREN] ts
      let ts ← next ts -- current = (
      let (ids, ts) ← parseExpr ts
      let cs := appendConstraint cs (.check (rawIdent (tbl.diffStr ++ s%"_" ++ col.diffStr ++ s%"_check")) ids)
      let ts ← next ts
      columnConstraintsLoop tbl col n cs ts
    else if curT ts = .IDENT ∨ curT ts = .COMMA ∨ curT ts = .CLOSE_PAREN then .ok (cs, ts)
    else .err .unexpectedCurrentToken

/-- `parseColumnConstraints`: `parser.go:532-617`. -/
def parseColumnConstraints (tbl col : Ident) (ts : List Token) : Res (List Constraint × List Token) :=
  columnConstraintsLoop tbl col (ts.length + 1) [] ts

/-- The attributes of a column set by `LabelDefaultNotNull`. `parser.go:302-339`. -/
structure Attrs where
  default : Option Default
  notNull : Bool
  notVisible : Bool
  as_ : Option As

/-- `LabelDefaultNotNull`: `parser.go:302-339`. -/
def columnAttrsLoop : Nat → Attrs → List Token → Res (Attrs × List Token)
  | 0, _, _ => .outOfFuel
  | n + 1, a, ts =>
    if curT ts = .NOT then
      if peekT ts = .NULL then do
        let ts ← next ts -- current = NULL
        let ts ← next ts
        columnAttrsLoop n { a with notNull := true } ts
      else if peekT ts = .VISIBLE then do
        let ts ← next ts -- current = VISIBLE
        let ts ← next ts
        columnAttrsLoop n { a with notVisible := true } ts
      else .err .unexpectedPeekToken
    else if curT ts = .NULL then do
      let ts ← next ts
      columnAttrsLoop n { a with notNull := false } ts
    else if curT ts = .DEFAULT then do
      let ts ← next ts -- current = behind DEFAULT
      let (d, ts) ← parseColumnDefault ts
      columnAttrsLoop n { a with default := some d } ts
    else if curT ts = .AS then do
      let ts ← next ts -- current = behind AS
      let (v, ts) ← parseColumnAs ts
      columnAttrsLoop n { a with as_ := some v } ts
    else .ok (a, ts)

/-- `parseColumn`: `parser.go:280-355`.  The loop at 346-348 appends the constraints one by one, with replacement. -/
def parseColumn (tbl : Ident) (ts : List Token) : Res (Column × List Constraint × List Token) := do
  checkCur [.IDENT] ts
  let name := rawIdent (curL ts)
  let ts ← next ts -- current = DATA_TYPE
  if isDataType (curT ts) then
    let (dt, ts) ← parseDataType ts
    let ts ← next ts
    let (a, ts) ← columnAttrsLoop (ts.length + 1) ⟨none, false, false, none⟩ ts
    let (cs, ts) ← parseColumnConstraints tbl name ts
    .ok (⟨name, dt, a.default, a.notNull, a.notVisible, a.as_⟩, cs.foldl appendConstraint [], ts)
  else .err .unexpectedCurrentToken

/-- `ON DELETE`/`ON UPDATE` of a table-level `FOREIGN KEY`: `parser.go:680-697`; `NO` need not be followed by `ACTION`. -/
def parseOnActionTable (ts : List Token) : Res (Str × List Token) :=
  if curT ts = .ON then do
    let act := curL ts -- current = ON
    let ts ← next ts -- current = DELETE or UPDATE
    checkCur [.DELETE, .UPDATE] ts
    let act := act ++ s%" " ++ curL ts
    checkPeek [.CASCADE, .NO] ts
    let ts ← next ts -- current = CASCADE or NO
    let act := act ++ s%" " ++ curL ts
    if curT ts = .NO ∧ peekT ts = .ACTION then
      let ts ← next ts -- current = ACTION
      .ok (act ++ s%" " ++ curL ts, ts)
    else .ok (act, ts)
  else .ok ([], ts)

/-- `for _, ident := range idents { name += "_" + ident.StringForDiff() }`: `parser.go:700-702`.
`ColumnIdent.StringForDiff` appends the sort order to the name. -/
def underscored (l : List ColumnIdent) : Str := (l.map (fun i => s%"_" ++ i.diffStr)).flatten

/-- The optional `CONSTRAINT name`: `parser.go:621-629`. -/
def parseConstraintName (ts : List Token) : Res (Option Ident × List Token) :=
  if curT ts = .CONSTRAINT then do
    let ts ← next ts -- current = constraint_name
    if curT ts ≠ .IDENT then .err .unexpectedCurrentToken
    else
      let name := rawIdent (curL ts)
      let ts ← next ts -- current = PRIMARY or CHECK or UNIQUE
      .ok (some name, ts)
  else .ok (none, ts)

/-- `parseTableConstraint`: `parser.go:620-750`. -/
def parseTableConstraint (tbl : Ident) (ts : List Token) : Res (Constraint × List Token) := do
  let (cname, ts) ← parseConstraintName ts
  if curT ts = .PRIMARY then
    checkPeek [.KEY] ts
    let ts ← next ts -- current = KEY
    checkPeek [.OPEN_PAREN] ts
    let ts ← next ts -- current = (
    let (ids, ts) ← parseColumnIdents ts
    .ok (.primaryKey (cname.getD (rawIdent (tbl.diffStr ++ s%"_pkey"))) ids, ts)
  else if curT ts = .FOREIGN then
    checkPeek [.KEY] ts
    let ts ← next ts -- current = KEY
    checkPeek [.OPEN_PAREN] ts
    let ts ← next ts -- current = (
    let (ids, ts) ← parseColumnIdents ts
    checkCur [.REFERENCES] ts
    let ts ← next ts -- current = ref_table_name
    checkCur [.IDENT] ts
    let ref := rawIdent (curL ts)
    let ts ← next ts -- current = (
    let (idsRef, ts) ← parseColumnIdents ts
    let (act, ts) ← parseOnActionTable ts
    .ok (.foreignKey (cname.getD (rawIdent (tbl.diffStr ++ underscored ids ++ s%"_fkey"))) ids ref idsRef act, ts)
  else if curT ts = .UNIQUE ∨ curT ts = .INDEX then
    let (uq, ts) ←
      if curT ts = .UNIQUE then do
        checkPeek [.INDEX] ts
        let ts ← next ts -- current = INDEX
        .ok (true, ts)
      else .ok (false, ts)
    let ts ← next ts -- current = index_name
    checkCur [.IDENT] ts
    let name := rawIdent (curL ts)
    checkPeek [.OPEN_PAREN] ts
    let ts ← next ts -- current = (
    let (ids, ts) ← parseColumnIdents ts
    let (us, ts) ← parseUsingOpt ts
    .ok (.index name uq none ids us, ts)
  else .err .unexpectedCurrentToken

/-- `LabelColumns`: `parser.go:161-196`; `cols`, `cs` are the columns and constraints so far. -/
def tableLoop (tbl : Ident) : Nat → List Column → List Constraint → List Token →
    Res (List Column × List Constraint × List Token)
  | 0, _, _, _ => .outOfFuel
  | n + 1, cols, cs, ts =>
    if curT ts = .IDENT then do
      let (col, ccs, ts) ← parseColumn tbl ts
      tableLoop tbl n (cols ++ [col]) (ccs.foldl appendConstraint cs) ts
    else if isConstraint (curT ts) then do
      let (c, ts) ← parseTableConstraint tbl ts
      tableLoop tbl n cols (appendConstraint cs c) ts
    else if curT ts = .COMMA then do
      let ts ← next ts
      tableLoop tbl n cols cs ts
    else if curT ts = .SEMICOLON then .ok (cols, cs, ts)
    else if curT ts = .CLOSE_PAREN then
      if peekT ts = .SEMICOLON ∨ peekT ts = .EOF then .ok (cols, cs, ts) else .err .unexpectedPeekToken
    else .err .unexpectedCurrentToken

/-- `parseCreateTableStmt`: `parser.go:127-199`. -/
def parseCreateTable (ts : List Token) : Res (CreateTable × List Token) := do
  let (ine, ts) ← parseIfNotExists ts
  let ts ← next ts -- current = table_name
  checkCur [.IDENT] ts
  let name := newObjectName .cockroachdb (curL ts)
  let ts ← next ts -- current = (
  checkCur [.OPEN_PAREN] ts
  let ts ← next ts -- current = column_name
  let (cols, cs, ts) ← tableLoop name.name (ts.length + 1) [] [] ts
  .ok (⟨[], ine, name, cols, cs, []⟩, ts)

/-- The optional `UNIQUE` of `parseCreateIndexStmt`: `parser.go:205-208`. -/
def parseUnique (ts : List Token) : Res (Bool × List Token) :=
  if curT ts = .UNIQUE then do
    let ts ← next ts -- current = INDEX
    .ok (true, ts)
  else .ok (false, ts)

/-- `parseCreateIndexStmt`: `parser.go:202-277`. -/
def parseCreateIndex (ts : List Token) : Res (CreateIndex × List Token) := do
  let (uq, ts) ← parseUnique ts
  let (ine, ts) ← parseIfNotExists ts
  let ts ← next ts -- current = index_name
  checkCur [.IDENT] ts
  let name := rawIdent (curL ts)
  let ts ← next ts -- current = ON
  checkCur [.ON] ts
  let ts ← next ts -- current = table_name
  checkCur [.IDENT] ts
  let tbl := newObjectName .cockroachdb (curL ts)
  let ts ← next ts -- current = USING or (
  let (pre, ts) ← parseUsingOpt ts
  checkCur [.OPEN_PAREN] ts
  let (ids, ts) ← parseColumnIdents ts
  let (post, ts) ← parseUsingOpt ts
  .ok (⟨[], uq, ine, name, tbl, pre, ids, post⟩, ts)

/-- `parseCreateStatement`: `parser.go:105-124`. -/
def parseCreate (ts : List Token) : Res (CStmt × List Token) := do
  let ts ← next ts -- current = TABLE or INDEX or ...
  if curT ts = .TABLE then
    let (t, ts) ← parseCreateTable ts
    .ok (.createTable t, ts)
  else if curT ts = .INDEX ∨ curT ts = .UNIQUE then
    let (i, ts) ← parseCreateIndex ts
    .ok (.createIndex i, ts)
  else .err .unexpectedCurrentToken

/-- `NewParser(NewLexer(sql)).Parse()`: `parser.go:57-63`, `75-103`. -/
def parse (s : Str) : Res (List CStmt) := parseTokens parseCreate (lex .cockroachdb s)

end Ddl.Crdb
