import Verif.ParserBase
import Verif.My.Ast

/-! # MySQL: the parser (`pkg/ddl/mysql/parser.go`) -/

namespace Ddl.My

/-- `NewRawIdent`: `parser.go:22-38`. -/
def rawIdent (s : Str) : Ident := newRawIdent .mysql s

/-- `isDataType`: `parser.go:910-930`; `MEDIUMINT` is not in the list. -/
def isDataType (t : TokType) : Bool :=
  t ∈ [.BOOLEAN, .BIT, .TINYINT, .SMALLINT, .INTEGER, .BIGINT, .DECIMAL, .NUMERIC, .REAL, .DOUBLE,
    .SMALLSERIAL, .SERIAL, .BIGSERIAL, .JSON, .CHAR, .CHARACTER, .VARYING, .VARCHAR, .TEXT, .MEDIUMTEXT, .LONGTEXT,
    .TIMESTAMP, .DATE, .TIME, .DATETIME, .ENUM]

/-- `isConstraint`: `parser.go:932-944`. -/
def isConstraint (t : TokType) : Bool :=
  t ∈ [.CONSTRAINT, .INDEX, .PRIMARY, .KEY, .FOREIGN, .REFERENCES, .UNIQUE, .CHECK]

/-- The order behind a column name: `parser.go:811-820`. -/
def parseOrder (ts : List Token) : Res (Option Bool × List Token) :=
  if peekT ts = .ASC then do
    let ts ← next ts -- current = ASC
    .ok (some false, ts)
  else if peekT ts = .DESC then do
    let ts ← next ts -- current = DESC
    .ok (some true, ts)
  else .ok (none, ts)

/-- `parseColumnIdents`: `parser.go:801-834`. -/
def columnIdentsLoop : Nat → List Token → Res (List ColumnIdent × List Token)
  | 0, _ => .outOfFuel
  | n + 1, ts =>
    if curT ts = .OPEN_PAREN ∨ curT ts = .COMMA then do
      let ts ← next ts
      columnIdentsLoop n ts
    else if curT ts = .IDENT then do
      let i := rawIdent (curL ts)
      let (ord, ts) ← parseOrder ts
      let ts ← next ts
      let (r, ts) ← columnIdentsLoop n ts
      .ok (⟨i, ord⟩ :: r, ts)
    else if curT ts = .CLOSE_PAREN then do
      let ts ← next ts
      .ok ([], ts)
    else .err .unexpectedCurrentToken

/-- `parseColumnIdents`: `parser.go:801-834`, with fuel for all tokens. -/
def parseColumnIdents (ts : List Token) : Res (List ColumnIdent × List Token) := columnIdentsLoop (ts.length + 1) ts

/-- `parseIdents`: `parser.go:864-885`; the closing parenthesis stays current. -/
def identsLoop : Nat → List Token → Res (List Ident × List Token)
  | 0, _ => .outOfFuel
  | n + 1, ts =>
    if curT ts = .OPEN_PAREN then do
      let ts ← next ts
      identsLoop n ts
    else if curT ts = .CLOSE_PAREN then .ok ([], ts)
    else if curT ts = .EOF ∨ curT ts = .ILLEGAL then .err .unexpectedCurrentToken
    else do
      let i := rawIdent (curL ts)
      let ts ← next ts
      let (r, ts) ← identsLoop n ts
      .ok (i :: r, ts)

/-- `parseIdents`: `parser.go:864-885`, with fuel for all tokens. -/
def parseIdents (ts : List Token) : Res (List Ident × List Token) := identsLoop (ts.length + 1) ts

/-- The part of `parseDataType` that reads the name: `parser.go:746-787`; returns the name, the type, the parameters so far and
the state.  `BOOLEAN` becomes `TINYINT(1)` with the type `BOOLEAN`. -/
def parseTypeName (ts : List Token) : Res (Str × TokType × Expr × List Token) :=
  if curT ts = .BOOLEAN then .ok (s%"TINYINT", .BOOLEAN, [rawIdent s%"1"], ts)
  else if curT ts = .DOUBLE then
    if peekT ts = .PRECISION then do
      let name := curL ts
      let ts ← next ts -- current = PRECISION
      .ok (name ++ s%" " ++ curL ts, .DOUBLE_PRECISION, [], ts)
    else .ok (curL ts, .DOUBLE, [], ts)
  else if curT ts = .CHARACTER then do
    let name := curL ts
    checkPeek [.VARYING] ts
    let ts ← next ts -- current = VARYING
    .ok (name ++ s%" " ++ curL ts, .VARCHAR, [], ts)
  else .ok (curL ts, curT ts, [], ts)

/-- `parseDataType`: `parser.go:745-799`. -/
def parseDataType (ts : List Token) : Res (DataType × List Token) := do
  let (name, type, e, ts) ← parseTypeName ts
  if peekT ts = .OPEN_PAREN then
    let ts ← next ts -- current = (
    let (ids, ts) ← parseIdents ts
    .ok (⟨name, type, e ++ ids⟩, ts)
  else .ok (⟨name, type, e⟩, ts)

/-- The loop of `parseExpr` together with its recursive calls: `parser.go:487-520`.
At an opening parenthesis (490-496) the recursive call of `parseExpr` contributes the parenthesis, and its own loop. -/
def exprLoop : Nat → List Token → Res (List Ident × List Token)
  | 0, _ => .outOfFuel
  | n + 1, ts =>
    if curT ts = .OPEN_PAREN then do
      let i := rawIdent (curL ts)
      let ts ← next ts
      let (ids, ts) ← exprLoop n ts
      let (r, ts) ← exprLoop n ts
      .ok (i :: ids ++ r, ts)
    else if curT ts = .CLOSE_PAREN then do
      let i := rawIdent (curL ts)
      let ts ← next ts
      .ok ([i], ts)
    else if curT ts = .EQUAL ∨ curT ts = .GREATER ∨ curT ts = .LESS then do
      let value := curL ts
      let (value, ts) ←
        if peekT ts = .EQUAL ∨ peekT ts = .GREATER ∨ peekT ts = .LESS then do
          let value := value ++ peekL ts
          let ts ← next ts
          .ok (value, ts)
        else .ok (value, ts)
      let ts ← next ts
      let (r, ts) ← exprLoop n ts
      .ok (rawIdent value :: r, ts)
    else if curT ts = .EOF then .err .unexpectedCurrentToken
    else do
      let i := if isReservedValue (curT ts) then rawIdent (curT ts).str else rawIdent (curL ts)
      let ts ← next ts
      let (r, ts) ← exprLoop n ts
      .ok (i :: r, ts)

/-- `parseExpr`: `parser.go:478-523`. -/
def parseExpr (ts : List Token) : Res (List Ident × List Token) := do
  checkCur [.OPEN_PAREN] ts
  let i := rawIdent (curL ts)
  let ts ← next ts
  let (r, ts) ← exprLoop (ts.length + 1) ts
  .ok (i :: r, ts)

/-- `Expr.Append`: `ddl_table.go:274-281`; the receiver may be nil. -/
def appendExpr (e : Option Expr) (ids : List Ident) : Option Expr := some (e.getD [] ++ ids)

/-- The loop of `parseColumnDefault`: `parser.go:433-472`; `v` is `def.Value`. -/
def defaultLoop : Nat → Option Expr → List Token → Res (Default × List Token)
  | 0, _, _ => .outOfFuel
  | n + 1, v, ts =>
    if curT ts = .IDENT ∨ curT ts = .CURRENT_TIMESTAMP then do
      let v := appendExpr v [rawIdent (curL ts)]
      let ts ← next ts
      defaultLoop n v ts
    else if curT ts = .OPEN_PAREN then do
      let (ids, ts) ← parseExpr ts
      defaultLoop n (appendExpr v ids) ts
    else if curT ts = .NOT ∨ curT ts = .ON ∨ curT ts = .COMMENT ∨ curT ts = .COMMA ∨ curT ts = .CLOSE_PAREN then .ok (⟨v⟩, ts)
    else if isReservedValue (curT ts) then do
      let v := appendExpr v [newIdent (curT ts).str [] (curL ts)]
      let ts ← next ts
      defaultLoop n v ts
    else if isConstraint (curT ts) then .ok (⟨v⟩, ts)
    else .err .unexpectedCurrentToken

/-- `parseColumnDefault`: `parser.go:430-475`. -/
def parseColumnDefault (ts : List Token) : Res (Default × List Token) := defaultLoop (ts.length + 1) none ts

/-- `parseOnAction`: `parser.go:836-862`; the callers check that `ON` is current. -/
def parseOnAction (ts : List Token) : Res (Str × List Token) := do
  checkCur [.ON] ts
  let act := curL ts -- current = ON
  let ts ← next ts -- current = DELETE or UPDATE
  checkCur [.DELETE, .UPDATE] ts
  let act := act ++ s%" " ++ curL ts
  checkPeek [.CASCADE, .NO] ts
  let ts ← next ts -- current = CASCADE or NO
  let act := act ++ s%" " ++ curL ts
  let (act, ts) ←
    if curT ts = .NO then do
      checkPeek [.ACTION] ts
      let ts ← next ts -- current = ACTION
      .ok (act ++ s%" " ++ curL ts, ts)
    else .ok (act, ts)
  let ts ← next ts -- current = any
  .ok (act, ts)

/-- `if p.isCurrentToken(TOKEN_ON) { ... }`: `parser.go:557-563`, `564-570`, `666-672`, `673-679`. -/
def parseOnActionOpt (ts : List Token) : Res (Option Str × List Token) :=
  if curT ts = .ON then do
    let (act, ts) ← parseOnAction ts
    .ok (some act, ts)
  else .ok (none, ts)

/-- The loop of `parseColumnConstraints`: `parser.go:529-601`; `cs` is `constraints`.
Of two actions behind `REFERENCES` the second overwrites the first (569). -/
def columnConstraintsLoop (tbl col : Ident) : Nat → List Constraint → List Token → Res (List Constraint × List Token)
  | 0, _, _ => .outOfFuel
  | n + 1, cs, ts =>
    if curT ts = .PRIMARY then do
      checkPeek [.KEY] ts
      let ts ← next ts -- current = KEY
      let cs := appendConstraint cs (.primaryKey (rawIdent s%"PRIMARY KEY") [⟨col, none⟩])
      let ts ← next ts
      columnConstraintsLoop tbl col n cs ts
    else if curT ts = .REFERENCES then do
      checkPeek [.IDENT] ts
      let ts ← next ts -- current = table_name
      let name := rawIdent (tbl.diffStr ++ s%"_" ++ col.diffStr ++ s%"_fkey")
      let ref := rawIdent (curL ts)
      let ts ← next ts -- current = (
      let (ids, ts) ← parseColumnIdents ts
      let (act₁, ts) ← parseOnActionOpt ts
      let (act₂, ts) ← parseOnActionOpt ts
      let cs := appendConstraint cs (.foreignKey name [⟨col, none⟩] ref ids (act₂.getD (act₁.getD [])))
      let ts ← next ts
      columnConstraintsLoop tbl col n cs ts
    else if curT ts = .UNIQUE then do
      let cs := appendConstraint cs (.index (rawIdent (tbl.diffStr ++ s%"_unique_" ++ col.diffStr)) true [⟨col, none⟩])
      let ts ← next ts
      columnConstraintsLoop tbl col n cs ts
    else if curT ts = .CHECK then do
      checkPeek [.OPEN_PAREN] ts
      let ts ← next ts -- current = (
      let (ids, ts) ← parseExpr ts
      let cs := appendConstraint cs (.check (rawIdent (tbl.diffStr ++ s%"_" ++ col.diffStr ++ s%"_check")) ids)
      let ts ← next ts
      columnConstraintsLoop tbl col n cs ts
    else if curT ts = .IDENT ∨ curT ts = .COMMA ∨ curT ts = .CLOSE_PAREN ∨ curT ts = .COMMENT then .ok (cs, ts)
    else .err .unexpectedCurrentToken

/-- `parseColumnConstraints`: `parser.go:526-604`. -/
def parseColumnConstraints (tbl col : Ident) (ts : List Token) : Res (List Constraint × List Token) :=
  columnConstraintsLoop tbl col (ts.length + 1) [] ts

/-- The attributes of a column set by `LabelDefaultNotNull`. `parser.go:355-405`. -/
structure Attrs where
  characterSet : Option Ident
  collate : Option Ident
  default : Option Default
  notNull : Bool
  autoIncrement : Bool
  onAction : Str

/-- `LabelDefaultNotNull`: `parser.go:355-405`. -/
def columnAttrsLoop : Nat → Attrs → List Token → Res (Attrs × List Token)
  | 0, _, _ => .outOfFuel
  | n + 1, a, ts =>
    if curT ts = .NOT then do
      checkPeek [.NULL] ts
      let ts ← next ts -- current = NULL
      let ts ← next ts
      columnAttrsLoop n { a with notNull := true } ts
    else if curT ts = .NULL then do
      let ts ← next ts
      columnAttrsLoop n { a with notNull := false } ts
    else if curT ts = .DEFAULT then do
      let ts ← next ts -- current = default_value
      let (d, ts) ← parseColumnDefault ts
      columnAttrsLoop n { a with default := some d } ts
    else if curT ts = .ON then do
      let ts ← next ts -- current = UPDATE or DELETE
      checkCur [.UPDATE, .DELETE] ts
      let act := s%"ON" ++ s%" " ++ curL ts
      let ts ← next ts -- current = CASCADE or RESTRICT or SET or ...
      checkCur [.CASCADE, .RESTRICT, .CURRENT_TIMESTAMP] ts
      let act := act ++ s%" " ++ curL ts
      let ts ← next ts
      columnAttrsLoop n { a with onAction := act } ts
    else if curT ts = .CHARACTER then do
      let ts ← next ts -- current = SET
      checkCur [.SET] ts
      let ts ← next ts -- current = charset_value
      let i := rawIdent (curL ts)
      let ts ← next ts
      columnAttrsLoop n { a with characterSet := some i } ts
    else if curT ts = .COLLATE then do
      let ts ← next ts -- current = collate_value
      let i := rawIdent (curL ts)
      let ts ← next ts
      columnAttrsLoop n { a with collate := some i } ts
    else if curT ts = .AUTO_INCREMENT then do
      let ts ← next ts
      columnAttrsLoop n { a with autoIncrement := true } ts
    else .ok (a, ts)

/-- The comment of a column: `parser.go:417-421`. -/
def parseComment (ts : List Token) : Res (Str × List Token) :=
  if curT ts = .COMMENT then do
    let ts ← next ts -- current = comment_value
    let c := curL ts
    let ts ← next ts -- current = COMMA or CLOSE_PAREN
    .ok (c, ts)
  else .ok ([], ts)

/-- `parseColumn`: `parser.go:333-427`.  The loop at 412-414 appends the constraints one by one, with replacement. -/
def parseColumn (tbl : Ident) (ts : List Token) : Res (Column × List Constraint × List Token) := do
  checkCur [.IDENT] ts
  let name := rawIdent (curL ts)
  let ts ← next ts -- current = DATA_TYPE
  if isDataType (curT ts) then
    let (dt, ts) ← parseDataType ts
    let ts ← next ts
    let (a, ts) ← columnAttrsLoop (ts.length + 1) ⟨none, none, none, false, false, []⟩ ts
    let (cs, ts) ← parseColumnConstraints tbl name ts
    let (cm, ts) ← parseComment ts
    .ok (⟨name, dt, a.characterSet, a.collate, a.default, a.notNull, a.autoIncrement, a.onAction, cm⟩,
      cs.foldl appendConstraint [], ts)
  else .err .unexpectedCurrentToken

/-- `for _, ident := range idents { name += "_" + ident.StringForDiff() }`: `parser.go:683-685`.
`ColumnIdent.StringForDiff` appends the sort order DESC to the name. -/
def underscored (l : List ColumnIdent) : Str := (l.map (fun i => s%"_" ++ i.diffStr)).flatten

/-- The optional `CONSTRAINT name`: `parser.go:608-616`. -/
def parseConstraintName (ts : List Token) : Res (Option Ident × List Token) :=
  if curT ts = .CONSTRAINT then do
    let ts ← next ts -- current = constraint_name
    if curT ts ≠ .IDENT then .err .unexpectedCurrentToken
    else
      let name := rawIdent (curL ts)
      let ts ← next ts -- current = PRIMARY or CHECK
      .ok (some name, ts)
  else .ok (none, ts)

/-- `parseTableConstraint`: `parser.go:607-742`. -/
def parseTableConstraint (tbl : Ident) (ts : List Token) : Res (Constraint × List Token) := do
  let (cname, ts) ← parseConstraintName ts
  if curT ts = .PRIMARY then
    checkPeek [.KEY] ts
    let ts ← next ts -- current = KEY
    checkPeek [.OPEN_PAREN] ts
    let ts ← next ts -- current = (
    let (ids, ts) ← parseColumnIdents ts
    .ok (.primaryKey (rawIdent s%"PRIMARY KEY") ids, ts)
  else if curT ts = .FOREIGN then
    checkPeek [.KEY] ts
    let ts ← next ts -- current = KEY
    checkPeek [.OPEN_PAREN] ts
    let ts ← next ts -- current = (
    let (ids, ts) ← parseColumnIdents ts
    checkCur [.REFERENCES] ts
    let ts ← next ts -- current = ref_table_name
    checkCur [.IDENT] ts
    let ref := rawIdent (curL ts)
    let ts ← next ts -- current = (
    let (idsRef, ts) ← parseColumnIdents ts
    let (act₁, ts) ← parseOnActionOpt ts
    let (act₂, ts) ← parseOnActionOpt ts
    let act := act₁.getD [] ++ (match act₂ with
      | some a => s%" " ++ a
      | none => [])
    .ok (.foreignKey (cname.getD (rawIdent (tbl.diffStr ++ underscored ids ++ s%"_fkey"))) ids ref idsRef act, ts)
  else if curT ts = .UNIQUE ∨ curT ts = .INDEX ∨ curT ts = .KEY then
    let (uq, ts) ←
      if curT ts = .UNIQUE then do
        let ts ← next ts -- current = KEY or INDEX
        .ok (true, ts)
      else .ok (false, ts)
    checkCur [.INDEX, .KEY] ts
    let ts ← next ts -- current = index_name
    checkCur [.IDENT] ts
    let name := rawIdent (curL ts)
    checkPeek [.OPEN_PAREN] ts
    let ts ← next ts -- current = (
    let (ids, ts) ← parseColumnIdents ts
    .ok (.index name uq ids, ts)
  else if curT ts = .CHECK then
    checkPeek [.OPEN_PAREN] ts
    let ts ← next ts -- current = (
    let (ids, ts) ← parseExpr ts
    .ok (.check (cname.getD (rawIdent (tbl.diffStr ++ s%"_chk"))) ids, ts)
  else .err .unexpectedCurrentToken

/-- `LabelColumns`: `parser.go:160-189`; `cols`, `cs` are the columns and constraints so far. -/
def tableLoop (tbl : Ident) : Nat → List Column → List Constraint → List Token →
    Res (List Column × List Constraint × List Token)
  | 0, _, _, _ => .outOfFuel
  | n + 1, cols, cs, ts =>
    if curT ts = .IDENT then do
      let (col, ccs, ts) ← parseColumn tbl ts
      tableLoop tbl n (cols ++ [col]) (ccs.foldl appendConstraint cs) ts
    else if isConstraint (curT ts) then do
      let (c, ts) ← parseTableConstraint tbl ts
      tableLoop tbl n cols (appendConstraint cs c) ts
    else if curT ts = .COMMA then do
      let ts ← next ts
      tableLoop tbl n cols cs ts
    else if curT ts = .CLOSE_PAREN then do
      let ts ← next ts
      .ok (cols, cs, ts)
    else .err .unexpectedCurrentToken

/-- The value of a table option: `=`, then an identifier, e.g. `parser.go:197-205`; the keyword is current.
The same lines are repeated for each option. -/
def parseOptionValue (ts : List Token) : Res (Expr × List Token) := do
  let ts ← next ts -- current = `=`
  checkCur [.EQUAL] ts
  let ts ← next ts -- current = TOKEN_IDENT
  checkCur [.IDENT] ts
  .ok ([rawIdent (curL ts)], ts)

/-- One table option: the cases of `LabelTableOptions` that read one, `parser.go:195-253`. -/
def parseOption (ts : List Token) : Res (TableOption × List Token) :=
  if curT ts = .ENGINE then do
    let (v, ts) ← parseOptionValue ts
    .ok (⟨s%"ENGINE", v⟩, ts)
  else if curT ts = .AUTO_INCREMENT then do
    let (v, ts) ← parseOptionValue ts
    .ok (⟨s%"AUTO_INCREMENT", v⟩, ts)
  else if curT ts = .DEFAULT then do
    checkPeek [.CHARSET] ts
    let ts ← next ts -- current = CHARSET
    let (v, ts) ← parseOptionValue ts
    .ok (⟨s%"DEFAULT CHARSET", v⟩, ts)
  else if curT ts = .COLLATE then do
    let (v, ts) ← parseOptionValue ts
    .ok (⟨s%"COLLATE", v⟩, ts)
  else if curT ts = .COMMENT then do
    let (v, ts) ← parseOptionValue ts
    .ok (⟨s%"COMMENT", v⟩, ts)
  else .err .unexpectedCurrentToken

/-- `LabelTableOptions`: `parser.go:191-261`. -/
def optionsLoop : Nat → List Token → Res (List TableOption × List Token)
  | 0, _ => .outOfFuel
  | n + 1, ts =>
    if curT ts = .SEMICOLON ∨ curT ts = .EOF then .ok ([], ts)
    else do
      let (o, ts) ← parseOption ts
      let ts ← next ts
      let (r, ts) ← optionsLoop n ts
      .ok (o :: r, ts)

/-- `parseCreateTableStmt`: `parser.go:126-264`. -/
def parseCreateTable (ts : List Token) : Res (CreateTable × List Token) := do
  let (ine, ts) ← parseIfNotExists ts
  let ts ← next ts -- current = table_name
  checkCur [.IDENT] ts
  let name := newObjectName .mysql (curL ts)
  let ts ← next ts -- current = (
  checkCur [.OPEN_PAREN] ts
  let ts ← next ts -- current = column_name
  let (cols, cs, ts) ← tableLoop name.name (ts.length + 1) [] [] ts
  let (opts, ts) ← optionsLoop (ts.length + 1) ts
  .ok (⟨[], ine, name, cols, cs, opts⟩, ts)

/-- The optional `USING` of `parseCreateIndexStmt`: `parser.go:312-316`. -/
def parseUsing (ts : List Token) : Res (List Ident × List Token) :=
  if curT ts = .USING then do
    let ts ← next ts -- current = using_def
    let i := newIdent (curL ts) [] (curL ts)
    let ts ← next ts -- current = (
    .ok ([i], ts)
  else .ok ([], ts)

/-- The optional `UNIQUE` of `parseCreateIndexStmt`: `parser.go:270-273`. -/
def parseUnique (ts : List Token) : Res (Bool × List Token) :=
  if curT ts = .UNIQUE then do
    let ts ← next ts -- current = INDEX
    .ok (true, ts)
  else .ok (false, ts)

/-- `parseCreateIndexStmt`: `parser.go:267-330`. -/
def parseCreateIndex (ts : List Token) : Res (CreateIndex × List Token) := do
  let (uq, ts) ← parseUnique ts
  let (ine, ts) ← parseIfNotExists ts
  let ts ← next ts -- current = index_name
  checkCur [.IDENT] ts
  let name := newObjectName .mysql (curL ts)
  let ts ← next ts -- current = ON
  checkCur [.ON] ts
  let ts ← next ts -- current = table_name
  checkCur [.IDENT] ts
  let tbl := newObjectName .mysql (curL ts)
  let ts ← next ts -- current = USING or (
  let (us, ts) ← parseUsing ts
  checkCur [.OPEN_PAREN] ts
  let (ids, ts) ← parseColumnIdents ts
  .ok (⟨[], uq, ine, name, tbl, us, ids⟩, ts)

/-- `parseCreateStatement`: `parser.go:104-123`. -/
def parseCreate (ts : List Token) : Res (MStmt × List Token) := do
  let ts ← next ts -- current = TABLE or INDEX or ...
  if curT ts = .TABLE then
    let (t, ts) ← parseCreateTable ts
    .ok (.createTable t, ts)
  else if curT ts = .INDEX ∨ curT ts = .UNIQUE then
    let (i, ts) ← parseCreateIndex ts
    .ok (.createIndex i, ts)
  else .err .unexpectedCurrentToken

/-- `NewParser(NewLexer(sql)).Parse()`: `parser.go:56-62`, `74-102`. -/
def parse (s : Str) : Res (List MStmt) := parseTokens parseCreate (lex .mysql s)

end Ddl.My
