import Verif.Regex

/-!
# Generating DDL from annotated Go structs

`pkg/internal/generator/**` (the printers) and `pkg/internal/lang/go/parse.go` (struct fields to columns).
-/

namespace Ddl.Gen

/-- `CreateTableColumn`: `pkg/internal/generator/ddl_create_table.go:47-51`. -/
structure Column where
  comments : List Str
  name : Str
  typeConstraint : Str
deriving DecidableEq, Repr

/-- `CreateTableConstraint` and `CreateTableOption`: `pkg/internal/generator/ddl_create_table.go:53-61`; both are a text with
comments. -/
structure Clause where
  comments : List Str
  text : Str
deriving DecidableEq, Repr

/-- `CreateTableStmt`: `pkg/internal/generator/ddl_create_table.go:11-20`. -/
structure Table where
  sourceFile : Str
  sourceLine : Nat
  comments : List Str
  createTable : Str
  columns : List Column
  constraints : List Clause
  options : List Clause
  primaryKey : List Str
deriving DecidableEq, Repr

/-- `CreateIndexStmt`: `pkg/internal/generator/ddl_create_index.go:11-16`. -/
structure Index where
  sourceFile : Str
  sourceLine : Nat
  comments : List Str
  createIndex : Str
deriving DecidableEq, Repr

/-- `Stmt`: `pkg/internal/generator/ddl.go:23-28` and its two implementations.  The default case of the printers' type switch
(`postgres.go:31-33`) is therefore unreachable. -/
inductive Stmt where
  | table (t : Table)
  | index (i : Index)
deriving DecidableEq, Repr

/-- `DDL`: `pkg/internal/generator/ddl.go:7-11`. -/
structure DDL where
  indent : Str
  header : List Str
  stmts : List Stmt
deriving DecidableEq, Repr

/-- `NewDDL`: `pkg/internal/generator/ddl.go:13-21`, with the statements appended later by `walkDirFn`. -/
def newDDL (stmts : List Stmt) : DDL :=
  { indent := s%"    ", header := [s%"Code generated by ddlctl. DO NOT EDIT.", []], stmts := stmts }

/-- The packages `pkg/internal/generator/dialect/{postgres,mysql,spanner}`. `Fprint` of each:
`postgres.go:17-41`, `mysql.go:17-41`, `spanner.go:17-41`. -/
inductive Flavor where
  | postgres
  | mysql
  | spanner
deriving DecidableEq, Repr

/-- `Quotation`: `dialect/postgres/postgres.go:14`, `dialect/mysql/mysql.go:14`, `dialect/spanner/spanner.go:14`. -/
def Flavor.quote : Flavor → Char
  | .postgres => '"'
  | .mysql => '`'
  | .spanner => '`'

/-- `fprintComment`: `dialect/postgres/postgres.go:43-51` (the same text in mysql and spanner). -/
def fprintComment (indent comment : Str) : Str :=
  if comment = [] then indent ++ s%"--" ++ s%"\n"
  else indent ++ s%"--" ++ s%" " ++ comment ++ s%"\n"

/-- A loop of `fprintComment` calls, e.g. `dialect/postgres/create_table.go:21-23`. -/
def fprintComments (indent : Str) (comments : List Str) : Str :=
  (comments.map (fprintComment indent)).flatten

/-- `fmt.Sprintf("source: %s:%d", ...)`: `dialect/postgres/create_table.go:16-18`, `create_index.go:14-16`.
`short` is `filepathz.Short` of github.com/kunitsucom/util.go. -/
def fprintSource (short : Str → Str) (file : Str) (line : Nat) : Str :=
  if file ≠ [] then fprintComment [] (s%"source: " ++ short file ++ s%":" ++ (toString line).toList) else []

/-- Number of code points of a text in UTF-8: the bytes that are not continuation bytes (`fmt` pads by code points). -/
def runeCount (s : Str) : Nat := s.countP (fun c => ¬ (128 ≤ c.toNat ∧ c.toNat < 192))

/-- `fmt.Sprintf("%-<width>s", s)`. `dialect/postgres/create_table.go:86, 93`. -/
def padRight (width : Nat) (s : Str) : Str := s ++ List.replicate (width - runeCount s) ' '

/-- `columnNameMaxLength` (in bytes): `dialect/postgres/create_table.go:79-84`. -/
def maxNameLen (cols : List Column) : Nat := cols.foldl (fun m c => if c.name.length > m then c.name.length else m) 0

/-- `Quotation + name + Quotation`. `dialect/postgres/create_table.go:39, 93`. -/
def quoted (f : Flavor) (name : Str) : Str := [f.quote] ++ name ++ [f.quote]

/-- The loop of `fprintCreateTableColumn`: `dialect/postgres/create_table.go:88-100`; `i == lastColumn` is the test for the end of
the list. -/
def fprintColumnsLoop (f : Flavor) (indent : Str) (width : Nat) (tailComma : Bool) : List Column → Str
  | [] => []
  | c :: r =>
    fprintComments indent c.comments ++
    (indent ++ padRight width (quoted f c.name) ++ s%" " ++ c.typeConstraint) ++
    (if r.isEmpty && !tailComma then s%"\n" else s%",\n") ++
    fprintColumnsLoop f indent width tailComma r

/-- `fprintCreateTableColumn`: `dialect/postgres/create_table.go:78-103`. -/
def fprintColumns (f : Flavor) (indent : Str) (cols : List Column) (tailComma : Bool) : Str :=
  fprintColumnsLoop f indent (2 + maxNameLen cols) tailComma cols

/-- `fprintCreateTableConstraint` and `fprintCreateTableOption`: `dialect/postgres/create_table.go:105-123`. -/
def fprintClause (indent : Str) (c : Clause) : Str := fprintComments indent c.comments ++ (indent ++ c.text)

/-- The loop over constraints: `dialect/postgres/create_table.go:52-58`. -/
def fprintConstraints (indent : Str) : List Clause → Str
  | [] => []
  | c :: r => fprintClause indent c ++ (if r.isEmpty then [] else s%",") ++ s%"\n" ++ fprintConstraints indent r

/-- The loop over key columns: `dialect/postgres/create_table.go:38-43`. -/
def fprintKeyColumns (f : Flavor) : List Str → Str
  | [] => []
  | k :: r => quoted f k ++ (if r.isEmpty then [] else s%", ") ++ fprintKeyColumns f r

/-- The loop over options: `dialect/postgres/create_table.go:64-70`. -/
def fprintOptions : List Clause → Str
  | [] => []
  | o :: r => s%"\n" ++ fprintClause [] o ++ (if r.isEmpty then [] else s%",") ++ fprintOptions r

/-- `fprintCreateTable`: `dialect/postgres/create_table.go:14-76` and `dialect/mysql/create_table.go:14-76` (the same text), and
`dialect/spanner/create_table.go:14-74`. -/
def fprintTable (short : Str → Str) (f : Flavor) (indent : Str) (t : Table) : Str :=
  fprintSource short t.sourceFile t.sourceLine ++ fprintComments [] t.comments ++
  (if t.createTable = [] then []
   else
    match f with
    | .postgres | .mysql =>
      t.createTable ++ s%" (\n" ++
      fprintColumns f indent t.columns (!t.primaryKey.isEmpty || !t.constraints.isEmpty) ++
      (if t.primaryKey.isEmpty then []
       else indent ++ s%"PRIMARY KEY (" ++ fprintKeyColumns f t.primaryKey ++ s%")" ++
        (if t.constraints.isEmpty then [] else s%",") ++ s%"\n") ++
      fprintConstraints indent t.constraints ++
      s%")" ++
      fprintOptions t.options ++
      s%";\n"
    | .spanner =>
      t.createTable ++ s%" (\n" ++
      fprintColumns f indent t.columns (!t.constraints.isEmpty) ++
      fprintConstraints indent t.constraints ++
      s%")" ++
      (if t.primaryKey.isEmpty then []
       else s%" PRIMARY KEY (" ++ fprintKeyColumns f t.primaryKey ++ s%")" ++
        (if t.options.isEmpty then [] else s%",")) ++
      fprintOptions t.options ++
      s%";\n")

/-- `fprintCreateIndex`: `dialect/postgres/create_index.go:12-29`. -/
def fprintIndex (short : Str → Str) (i : Index) : Str :=
  fprintSource short i.sourceFile i.sourceLine ++ fprintComments [] i.comments ++ i.createIndex ++ s%";\n"

/-- One round of the statement loop: `dialect/postgres/postgres.go:24-35`. -/
def fprintStmt (short : Str → Str) (f : Flavor) (indent : Str) : Stmt → Str
  | .table t => s%"\n" ++ fprintTable short f indent t
  | .index i => s%"\n" ++ fprintIndex short i

/-- `Fprint`: `dialect/postgres/postgres.go:17-41`: the text handed to `io.WriteString`. -/
def fprint (short : Str → Str) (f : Flavor) (d : DDL) : Str :=
  fprintComments [] d.header ++ (d.stmts.map (fprintStmt short f d.indent)).flatten

/-! ## Go structs to tables -/

/-- What `parseFile` makes of a comment line (`pkg/internal/lang/go/parse.go:121-144`). -/
inductive CommentKind where
  | index (text : Str)
  | table (text : Str)
  | constraint (text : Str)
  | option (text : Str)
  | plain
deriving DecidableEq, Repr

/-- What the translation takes from its surroundings.
Options: `parse.go:153, 165, 178, 189, 200`; `filepathz.Short`: `parse.go:153`. -/
structure Env where
  /-- `config.ColumnTagGo()`, `config.DDLTagGo()`, `config.PKTagGo()` -/
  columnTag : Str
  ddlTag : Str
  pkTag : Str
  /-- `filepathz.Short` of github.com/kunitsucom/util.go -/
  short : Str → Str
  /-- `strconv.Unquote` of a text in double quotes; `none` is the error -/
  unquote : Str → Option Str

/-- `(//+\s*|/\*\s*)?`, the comment marker in all expressions. `pkg/internal/lang/util/regex.go:13, 17, 21, 25`. -/
def rxMarker : Rx :=
  .opt (.alt (.cat [.chr '/', .plus (.chr '/'), .star .space]) (.cat [.chr '/', .chr '*', .star .space]))

/-- `^\s*(//+\s*|/\*\s*)?\S+\s*:\s*<key>\s*[: ]\s*`: what comes before the last group of the four expressions of
`pkg/internal/lang/util/regex.go:11-28`. -/
def rxKey (key : Rx) : Rx :=
  .cat [.star .space, rxMarker, .plus .nonspace, .star .space, .chr ':', .star .space, key, .star .space,
    .cls (fun c => c == ':' || c == ' '), .star .space]

/-- `\S+.*`. `pkg/internal/lang/util/regex.go:13, 17, 21, 25`. -/
def rxText : Rx := .cat [.plus .nonspace, .star .dot]

/-- `StmtRegexCreateTable`: `regex.go:12-15`; `((CREATE\s+TABLE\s+)?\S+.*)` is its group. -/
def matchTable : Str → Option Str :=
  Rx.group (rxKey (.cat [.lit s%"table", .opt (.chr 's')]))
    (.cat [.opt (.cat [.lit s%"CREATE", .plus .space, .lit s%"TABLE", .plus .space]), rxText])

/-- `StmtRegexCreateTableConstraint`: `regex.go:16-19`. -/
def matchConstraint : Str → Option Str := Rx.group (rxKey (.cat [.lit s%"constraint", .opt (.chr 's')])) rxText

/-- `StmtRegexCreateTableOptions`: `regex.go:20-23`. -/
def matchOption : Str → Option Str := Rx.group (rxKey (.cat [.lit s%"option", .opt (.chr 's')])) rxText

/-- `StmtRegexCreateIndex`: `regex.go:24-27`. -/
def matchIndex : Str → Option Str := Rx.group (rxKey (.cat [.lit s%"index", .opt (.lit s%"es")])) rxText

/-- The order in which the expressions are tried: `parse.go:121-144`. -/
def classify (s : Str) : CommentKind :=
  match matchIndex s with
  | some x => .index x
  | none =>
    match matchTable s with
    | some x => .table x
    | none =>
      match matchConstraint s with
      | some x => .constraint x
      | none =>
        match matchOption s with
        | some x => .option x
        | none => .plain

/-- `stmtRegexCreateTable` and `stmtRegexCreateIndex`, `(?i)\s*CREATE\s+(.*)?<object>\s+(.*)?(\S+)`, match:
`pkg/internal/generator/ddl_create_table.go:33-36`, `ddl_create_index.go:29-32`. -/
def isCreate (object : Str) : Str → Bool :=
  Rx.matchesIn (.cat [.star .space, .litI s%"CREATE", .plus .space, .opt (.star .dot), .litI object, .plus .space,
    .opt (.star .dot), .plus .nonspace])

/-- `_DDLTagGoCommentLineRegexFormat`, `^\s*(//+\s*|/\*\s*)?(%s)\s*:\s*(.*)\s*(\*/)?`, matches:
`pkg/internal/lang/go/extract_source.go:33-46`.  Simplified: the tag is itself an expression in the code; here it stands for
itself, as it does if it has only letters, digits and `_`. -/
def hasTag (tag : Str) : Str → Bool :=
  Rx.matchesAt (.cat [.star .space, rxMarker, .lit tag, .star .space, .chr ':', .star .space, .star .dot, .star .space,
    .opt (.lit s%"*/")])

/-- A struct field (`ast.Field`): its names (none for an embedded field), the text of its tag literal (`field.Tag.Value`, with
its quotes; `none` is the nil `Tag`), and the lines of `strings.Split(strings.Trim(field.Doc.Text(), "\n"), "\n")`.
`parse.go:159-199`. -/
structure Field where
  names : List Str
  tag : Option Str
  doc : List Str
deriving DecidableEq, Repr

/-- The characters of the name of a key: `reflect/type.go`, `StructTag.Lookup`. Used through
`tag.Get` at `parse.go:165, 178, 189`. -/
def isTagKey (c : Char) : Bool := ' ' < c && c != ':' && c != '"' && c.toNat != 127

/-- The value behind an opening quote: what is read up to the closing quote, and the rest; a backslash takes the next
character with it.  `none` if the quote is not closed. Used through `tag.Get` at `parse.go:165, 178, 189`. -/
def scanQuoted : Str → Option (Str × Str)
  | [] => none
  | '"' :: r => some ([], r)
  | '\\' :: c :: r => (scanQuoted r).map (fun p => ('\\' :: c :: p.1, p.2))
  | c :: r => (scanQuoted r).map (fun p => (c :: p.1, p.2))

/-- The loop of `StructTag.Lookup` of Go's `reflect` (a library, not part of /repo); `get` gives "" where `Lookup` fails.
The first argument bounds the number of rounds; each round takes at least one character. Used at
`parse.go:165, 178, 189`. -/
def structTagGet (unquote : Str → Option Str) (key : Str) : Nat → Str → Str
  | 0, _ => []
  | n + 1, tag =>
    let tag := tag.dropWhile (· == ' ')
    let name := tag.takeWhile isTagKey
    match name, tag.dropWhile isTagKey with
    | _ :: _, ':' :: '"' :: r =>
      match scanQuoted r with
      | none => []
      | some (body, rest) =>
        if key = name then (unquote (s%"\"" ++ body ++ s%"\"")).getD []
        else structTagGet unquote key n rest
    | _, _ => []

/-- `reflect.StructTag(strings.Trim(field.Tag.Value, "`")).Get(key)`: `parse.go:162-165`. -/
def tagGet (env : Env) (lit key : Str) : Str :=
  let tag := trimC '`' lit
  structTagGet env.unquote key tag.length tag

/-- `*ast.Comment`: its text with the comment marker, and its line. `parse.go:114-116`. -/
structure CommentLine where
  text : Str
  line : Nat
deriving DecidableEq, Repr

/-- `ddlSource`: `pkg/internal/lang/go/extract_source.go:18-25`; `typeName = none` is the nil `TypeSpec`, `fields = none` the nil
`StructType`.  The extraction sets `StructType` only together with `TypeSpec` (lines 66-71). -/
structure Source where
  file : Str
  line : Nat
  comments : List CommentLine
  typeName : Option Str
  fields : Option (List Field)
deriving DecidableEq, Repr

/-- `fset.Position(r.CommentGroup.Pos()).Line`: the line of the first comment (a group of the Go parser is never empty).
`parse.go:152, 208, 212`. -/
def Source.groupLine (r : Source) : Nat := (r.comments.head?.map (·.line)).getD 0

/-- `SetCreateTable`: `pkg/internal/generator/ddl_create_table.go:38-45`. -/
def setCreateTable (s : Str) : Str := if isCreate s%"TABLE" s then s else s%"CREATE TABLE " ++ s

/-- `SetCreateIndex`: `pkg/internal/generator/ddl_create_index.go:34-41`. -/
def setCreateIndex (s : Str) : Str := if isCreate s%"INDEX" s then s else s%"CREATE INDEX " ++ s

/-- `strings.TrimPrefix`. `parse.go:115`. -/
def trimPrefix (s p : Str) : Str := if p.isPrefixOf s then s.drop p.length else s

/-- The character of Unicode's white space (`unicode.IsSpace`) at the start of a text in UTF-8, by its number of bytes. -/
def spaceWidth : Str → Nat
  | [] => 0
  | a :: r =>
    if (9 ≤ a.toNat && a.toNat ≤ 13) || a == ' ' then 1
    else match a.toNat, r.map Char.toNat with
      | 0xC2, b :: _ => if b = 0x85 || b = 0xA0 then 2 else 0
      | 0xE1, 0x9A :: 0x80 :: _ => 3
      | 0xE2, 0x80 :: b :: _ => if (0x80 ≤ b && b ≤ 0x8A) || b = 0xA8 || b = 0xA9 || b = 0xAF then 3 else 0
      | 0xE2, 0x81 :: 0x9F :: _ => 3
      | 0xE3, 0x80 :: 0x80 :: _ => 3
      | _, _ => 0

/-- `strings.TrimLeftFunc(s, unicode.IsSpace)`; the first argument bounds the number of rounds. `parse.go:115`. -/
def trimSpaces : Nat → Str → Str
  | 0, s => s
  | n + 1, s => if spaceWidth s = 0 then s else trimSpaces n (s.drop (spaceWidth s))

/-- The comment without its markers and leading white space: `parse.go:114-116`. -/
def trimComment (text : Str) : Str :=
  let s := trimPrefix (trimPrefix (trimPrefix text s%"//") s%"/*") s%"*/"
  trimSpaces s.length s

/-- `strings.Contains`. `parse.go:237`. -/
def contains : Str → Str → Bool
  | [], sub => sub.isPrefixOf []
  | c :: r, sub => sub.isPrefixOf (c :: r) || contains r sub

/-- `extractContainingCommentFromCommentGroup` and the line of the comment it gives: `parse.go:123, 235-242`.  Where it gives
nil the code would panic; it does not (`Ddl.commentLine_isSome`), because the comment itself is in the group. -/
def commentLine (group : List CommentLine) (sub : Str) : Option Nat :=
  (group.find? (fun c => contains c.text sub)).map (·.line)

/-- One round of the comment loop: `parse.go:117-147`; the state is the table and the index statements found so far. -/
def commentStep (file : Str) (group : List CommentLine) (st : Table × List Stmt) (comment : Str) : Table × List Stmt :=
  let (t, idx) := st
  match classify comment with
  | .index text =>
    (t, idx ++ [.index ⟨file, (commentLine group comment).getD 0, [comment], setCreateIndex text⟩])
  | .table text => ({ t with createTable := setCreateTable text, comments := t.comments ++ [comment] }, idx)
  | .constraint text => ({ t with constraints := t.constraints ++ [⟨[], text⟩], comments := t.comments ++ [comment] }, idx)
  | .option text => ({ t with options := t.options ++ [⟨[], text⟩], comments := t.comments ++ [comment] }, idx)
  | .plain => ({ t with comments := t.comments ++ [comment] }, idx)

/-- `TrimCommentElementHasPrefix`: `pkg/internal/lang/util/trim.go:9-13`. -/
def trimHasPrefix (l : List Str) (p : Str) : List Str := l.filter (fun s => !hasPrefix s p)

/-- `TrimCommentElementTailEmpty`: `pkg/internal/lang/util/trim.go:15-25`. -/
def trimTailEmpty (l : List Str) : List Str :=
  match l.getLast? with
  | some [] => l.dropLast
  | _ => l

/-- `field.Names[0]`: panics for an embedded field. -/
def firstName (f : Field) : Res Str :=
  match f.names with
  | [] => .panic .indexRange
  | n :: _ => .ok n

/-- One round of the field loop: `parse.go:159-203`. -/
def fieldStep (env : Env) (typeName : Str) (t : Table) (f : Field) : Res Table :=
  match f.tag with
  | none => .panic .nilDeref -- field.Tag.Value, line 162
  | some tag => do
    -- column name, lines 165-175
    let col := tagGet env tag env.columnTag
    if col = s%"-" then do
      let n ← firstName f
      .ok { t with comments := t.comments ++ [s%"NOTE: the \"" ++ typeName ++ s%"\" struct's \"" ++ n ++
        s%"\" field has a tag for column name (`" ++ env.columnTag ++ s%":\"-\"`), so the field is ignored."] }
    else do
      let (name, warn) ← (if col = [] then do
          let n ← firstName f
          .ok (n, [s%"WARN: the \"" ++ typeName ++ s%"\" struct's \"" ++ n ++
            s%"\" field does not have a tag for column name (`" ++ env.columnTag ++
            s%":\"<ColumnName>\"`), so the field name \"" ++ n ++ s%"\" is used as the column name."])
        else .ok (col, []) : Res (Str × List Str))
      -- column type and constraint, lines 178-186
      let ty := tagGet env tag env.ddlTag
      if ty = [] ∨ ty = s%"-" then .ok t
      else do
        -- primary key, lines 189-196
        let pk := tagGet env tag env.pkTag
        let isPk := pk = s%"true" ∨ pk = s%"1"
        let warn2 ← (if isPk ∨ pk = [] ∨ pk = s%"-" then .ok [] else do
            let n ← firstName f
            .ok [s%"WARN: the field \"" ++ n ++ s%"\" does not have valid primary key tag (`" ++ env.pkTag ++
              s%":\"true\"`), so the column is not used as primary key."] : Res (List Str))
        -- comments, lines 199-202
        let doc := trimTailEmpty (trimHasPrefix f.doc env.ddlTag)
        .ok { t with
          primaryKey := if isPk then t.primaryKey ++ [name] else t.primaryKey
          columns := t.columns ++ [{ comments := warn ++ warn2 ++ doc, name := name, typeConstraint := ty }] }

/-- The field loop: `parse.go:159-203`. -/
def fieldLoop (env : Env) (typeName : Str) : Table → List Field → Res Table
  | t, [] => .ok t
  | t, f :: r => do
    let t ← fieldStep env typeName t f
    fieldLoop env typeName t r

/-- `fmt.Sprintf("%s:%d", filepathz.Short(source.Filename), source.Line)` of the messages. `parse.go:153, 209, 213`. -/
def position (env : Env) (r : Source) : Str := env.short r.file ++ s%":" ++ (toString r.groupLine).toList

/-- The struct name as default table name: `parse.go:149-155`. -/
def defaultName (env : Env) (r : Source) (t : Table) : Table :=
  match r.typeName with
  | some name =>
    if t.createTable = [] then
      { t with
        comments := t.comments ++ [s%"WARN: the comment (" ++ position env r ++
          s%") does not have a key for table (" ++ env.ddlTag ++
          s%": table: CREATE TABLE <table>), so the struct name \"" ++ name ++ s%"\" is used as the table name."]
        createTable := setCreateTable name }
    else t
  | none => t

/-- The warnings about missing parts: `parse.go:206-214`. -/
def addWarnings (env : Env) (r : Source) (t : Table) : Table :=
  if t.createTable = [] then
    { t with comments := t.comments ++ [s%"WARN: the comment (" ++ position env r ++
      s%") does not have a key for table (" ++ env.ddlTag ++
      s%": table: CREATE TABLE <table>), or the comment is not associated with struct."] }
  else if t.columns = [] then
    { t with comments := t.comments ++ [s%"ERROR: the comment (" ++ position env r ++
      s%") does not have struct fields for column type and constraint (`" ++ env.ddlTag ++
      s%":\"<TYPE> [CONSTRAINT]\"`), or the comment is not associated with struct."] }
  else t

/-- The columns, if there is a struct: `parse.go:157-204`. -/
def structColumns (env : Env) (r : Source) (t : Table) : Res Table :=
  match r.fields with
  | some fields => fieldLoop env (r.typeName.getD []) t fields
  | none => .ok t

/-- The table made from one annotation: `parse.go:107-214`, with the index statements found in its comments. -/
def translateTable (env : Env) (r : Source) : Res (Table × List Stmt) := do
  let t : Table :=
    { sourceFile := r.file, sourceLine := r.line, comments := [], createTable := [], columns := []
      constraints := [], options := [], primaryKey := [] }
  let st := (r.comments.map (fun c => trimComment c.text)).foldl (commentStep r.file r.comments) (t, [])
  let t := defaultName env r st.1
  let t ← structColumns env r t
  .ok (addWarnings env r t, st.2)

/-- One round of the outer loop: `parse.go:106-222`: the statements it appends. -/
def translateSource (env : Env) (r : Source) : Res (List Stmt) := do
  let (t, idx) ← translateTable env r
  .ok (idx ++ (if t.columns = [] then [] else [.table t]))

/-- The outer loop: `parse.go:105-222`. -/
def translateSources (env : Env) : List Source → Res (List Stmt)
  | [] => .ok []
  | r :: rs => do
    let a ← translateSource env r
    let b ← translateSources env rs
    .ok (a ++ b)

/-- The last `k` decimal digits. Used for `%09d`: `parse.go:225`. -/
def digits : Nat → Nat → Str
  | 0, _ => []
  | k + 1, n => digits k (n / 10) ++ [Char.ofNat (48 + n % 10)]

/-- `%09d`. -/
def pad9 (n : Nat) : Str := if n < 10 ^ 9 then digits 9 n else (toString n).toList

/-- `GetSourceFile`, `GetSourceLine`: `pkg/internal/generator/ddl_create_table.go:22-28`, `ddl_create_index.go:18-24`. -/
def Stmt.file : Stmt → Str
  | .table t => t.sourceFile
  | .index i => i.sourceFile

/-- `GetSourceLine`: `pkg/internal/generator/ddl_create_table.go:26-28`, `ddl_create_index.go:22-24`. -/
def Stmt.line : Stmt → Nat
  | .table t => t.sourceLine
  | .index i => i.sourceLine

/-- The sort key `fmt.Sprintf("%s:%09d", file, line)`: `parse.go:225`. -/
def sortKey (s : Stmt) : Str := s.file ++ s%":" ++ pad9 s.line

/-- A statement put into a sorted list, behind the statements with the same key. Part of `sort.Slice`:
`parse.go:224-226`. -/
def insertStmt (s : Stmt) : List Stmt → List Stmt
  | [] => [s]
  | x :: r => if sortKey s < sortKey x then s :: x :: r else x :: insertStmt s r

/-- `sort.Slice`: `parse.go:224-226`.  It is insertion sort for at most 12 statements; for more, Go's sort is not stable, and
statements with equal keys (same file and line) may come in another order than here. -/
def sortStmts (l : List Stmt) : List Stmt := l.foldl (fun acc s => insertStmt s acc) []

/-! ## Extraction of the annotations, files and directories -/

/-- `apperr.ErrDDLTagGoAnnotationNotFoundInSource`: `pkg/apperr/errors.go:12`. -/
def annotationNotFound : Err := .other s%"go-ddl-tag annotation not found in source"

/-- The errors of the file system and of the Go parser. `parse.go:39-41, 67-69, 94-96`. -/
def ioError : Err := .other s%"io"

/-- A node of the syntax tree with comment groups (an entry of `ast.NewCommentMap`), seen through `ast.Inspect`: the type
specifications in it, in the order of the visit, with the fields of those that are structs. `extract_source.go:53, 64-77`. -/
structure Node where
  groups : List (List CommentLine)
  specs : List (Str × Option (List Field))
deriving DecidableEq, Repr

/-- The `ast.Inspect` call: `extract_source.go:64-77`: the last type specification and the last struct win. -/
def inspect (specs : List (Str × Option (List Field))) : Option Str × Option (List Field) :=
  specs.foldl (fun st p => (some p.1, match p.2 with
    | some fs => some fs
    | none => st.2)) (none, none)

/-- The loop over the lines of a comment group: `extract_source.go:55-82`: the first line with the tag makes a source of the
group. -/
def groupSource (env : Env) (file : Str) (n : Node) (group : List CommentLine) : Option Source :=
  (group.find? (fun c => hasTag env.ddlTag c.text)).map (fun c =>
    { file := file, line := c.line, comments := group, typeName := (inspect n.specs).1, fields := (inspect n.specs).2 })

/-- `extractDDLSourceFromDDLTagGo`: `extract_source.go:50-90`.  Go visits the map of nodes in an arbitrary order: the list
stands for any of these orders. -/
def extract (env : Env) (file : Str) (nodes : List Node) : Res (List Source) :=
  match nodes.flatMap (fun n => n.groups.filterMap (groupSource env file n)) with
  | [] => .err annotationNotFound
  | l => .ok l

/-- A Go file: its path and what `parser.ParseFile` makes of it (`none` is its error). `parse.go:93-96`. -/
structure GoFile where
  path : Str
  nodes : Option (List Node)
deriving DecidableEq, Repr

/-- `parseFile`: `parse.go:91-233`: parsing, extraction, translation, and the final sort. -/
def parseFile (env : Env) (f : GoFile) : Res (List Stmt) := do
  match f.nodes with
  | none => .err ioError
  | some nodes =>
    let rs ← extract env f.path nodes
    let l ← translateSources env rs
    .ok (sortStmts l)

/-- What `filepath.WalkDir` finds, in the order in which it finds it: directories, files, and errors. `parse.go:65-73`. -/
inductive Entry where
  | dir (path : Str)
  | file (f : GoFile)
  | failed
deriving DecidableEq, Repr

/-- `walkDirFn`: `parse.go:65-88`, over the entries of the walk; the value is the statements appended to the DDL. -/
def walk (env : Env) : List Entry → Res (List Stmt)
  | [] => .ok []
  | .failed :: _ => .err ioError
  | .dir _ :: r => walk env r
  | .file f :: r =>
    if !hasSuffix f.path s%".go" || hasSuffix f.path s%"_test.go" then walk env r
    else match parseFile env f with
      | .err e => if e = annotationNotFound then walk env r else .err e
      | .panic p => .panic p
      | .outOfFuel => .outOfFuel
      | .ok l => do
        let l' ← walk env r
        .ok (l ++ l')

/-- What `os.Stat` says of the source path. `parse.go:38-51`. -/
inductive Path where
  | missing
  | file (f : GoFile)
  | dir (entries : List Entry)
deriving DecidableEq, Repr

/-- `Parse`: `parse.go:34-60`. -/
def parse (env : Env) : Path → Res DDL
  | .missing => .err ioError
  | .dir es => do
    let l ← walk env es
    .ok (newDDL l)
  | .file f => do
    let l ← parseFile env f
    .ok (newDDL l)

end Ddl.Gen
