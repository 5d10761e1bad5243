import Verif.Config
import Verif.Generator
import Verif.Pg.Parser
import Verif.Pg.Diff
import Verif.Crdb.Parser
import Verif.Crdb.Diff
import Verif.My.Parser
import Verif.My.Diff
import Verif.Sp.Parser
import Verif.Sp.Diff

/-!
# The commands `generate`, `show` and `diff`

`pkg/ddlctl/{generate,show,diff}`. Everything outside the program (files, Go sources, databases) is a parameter `World`.
-/

namespace Ddl.Cmd

/-- The surroundings of a run. All components are arbitrary. What `pkg/ddlctl/generate/ddlctl_generate.go:20-98`,
`pkg/ddlctl/show/ddlctl_show.go:24-93`, `pkg/ddlctl/diff/ddlctl_diff.go:24-176` use. -/
structure World where
  /-- `osz.IsFile`, `osz.Exists` of github.com/kunitsucom/util.go -/
  isFile : Str → Bool
  exists? : Str → Bool
  /-- `os.Stat(dst)` finds a directory -/
  isDir : Str → Bool
  /-- `filepath.Join` -/
  joinPath : Str → Str → Str
  /-- `os.ReadFile` -/
  readFile : Str → Res Str
  /-- `os.OpenFile(dst, O_WRONLY|O_CREATE|O_TRUNC)` fails -/
  openFile : Str → Option Err
  /-- `ddlctlgo.Parse`: `pkg/internal/lang/go/parse.go:34-60` -/
  parseGo : Str → Res Gen.DDL
  /-- `filepathz.Short` -/
  short : Str → Str
  /-- `sqlz.OpenContext(driver, dsn)` fails -/
  openDb : Str → Str → Option Err
  /-- `ShowCreateAllTables` of `pkg/show/<dialect>`, by dialect and data source -/
  showTables : Str → Str → Res Str
  /-- `db.Close()` fails -/
  closeDb : Str → Option Err
  /-- `io.WriteString(out, text)` fails -/
  write : Str → Option Err
  /-- `simplediff.Diff(a, b).String()` -/
  sd : Str → Str → Str

/-- `postgres.Dialect`: `pkg/ddl/postgres/ddl.go:10`. -/
def pgDialect : Str := s%"postgres"
/-- `cockroachdb.Dialect`: `pkg/ddl/cockroachdb/ddl.go:10`. -/
def crdbDialect : Str := s%"cockroachdb"
/-- `mysql.Dialect`: `pkg/ddl/mysql/ddl.go:10`. -/
def myDialect : Str := s%"mysql"
/-- `spanner.Dialect`: `pkg/ddl/spanner/ddl.go:10`. -/
def spDialect : Str := s%"spanner"

/-- `cockroachdb.DriverName`: `pkg/ddl/cockroachdb/ddl.go:11`. -/
def crdbDriver : Str := s%"postgres"
/-- `mysql.DriverName`: `pkg/ddl/mysql/ddl.go:11`. -/
def myDriver : Str := s%"mysql"
/-- `spanner.DriverName`: `pkg/ddl/spanner/ddl.go:11`. -/
def spDriver : Str := s%"spanner"

/-- `driverName`: `pkg/ddlctl/show/ddlctl_show.go:43-50`, `pkg/ddlctl/apply/ddlctl_apply.go:97-104`. -/
def driverName (dialect : Str) : Str := if dialect = crdbDialect then crdbDriver else dialect

/-- What a function wrote to its writer (the argument of each `io.WriteString`), and its result. The writers:
`pkg/ddlctl/diff/ddlctl_diff.go:76`, `pkg/ddlctl/generate/ddlctl_generate.go:51`. -/
structure Out where
  writes : List Str
  result : Res Unit
deriving DecidableEq, Repr

/-- One `io.WriteString` whose error is returned.
For instance `pkg/internal/generator/dialect/postgres/postgres.go:37-39`. -/
def writeOut (w : World) (text : Str) : Out :=
  ⟨[text], match w.write text with | none => .ok () | some e => .err e⟩

/-- The text-producing part of `generate.Fprint`: `pkg/ddlctl/generate/ddlctl_generate.go:76-98`. -/
def genText (w : World) (dialect : Str) (g : Gen.DDL) : Res Str :=
  if dialect = spDialect then .ok (Gen.fprint w.short .spanner g)
  else if dialect = pgDialect ∨ dialect = crdbDialect then .ok (Gen.fprint w.short .postgres g)
  else if dialect = myDialect then .ok (Gen.fprint w.short .mysql g)
  else if dialect = [] then .err .dialectIsEmpty
  else .err .notSupported

/-- `generate.Parse`: `pkg/ddlctl/generate/ddlctl_generate.go:63-74`; `ddlctlgo.Language = "go"`. -/
def parseLang (w : World) (language src : Str) : Res Gen.DDL :=
  if language = s%"go" then w.parseGo src else .err .notSupported

/-- `generate.Generate`: `pkg/ddlctl/generate/ddlctl_generate.go:51-61`: the text handed to the writer. -/
def generateText (w : World) (src dialect language : Str) : Res Str := do
  let g ← parseLang w language src
  genText w dialect g

/-- The continuation of an operation without output. For instance `pkg/ddlctl/diff/ddlctl_diff.go:77-90`. -/
def Out.after (r : Res Str) (k : Str → Out) : Out :=
  match r with
  | .ok s => k s
  | .err e => ⟨[], .err e⟩
  | .panic p => ⟨[], .panic p⟩
  | .outOfFuel => ⟨[], .outOfFuel⟩

/-- `generate.Generate` with a writer. `pkg/ddlctl/generate/ddlctl_generate.go:51-61`. -/
def generate (w : World) (src dialect language : Str) : Out :=
  Out.after (generateText w src dialect language) (writeOut w)

/-- The outcome of `generate.Command`: the destination that was opened (and thereby emptied), and what was written to it.
`pkg/ddlctl/generate/ddlctl_generate.go:20-49`. -/
structure GenOut where
  emptied : Option Str
  out : Out
deriving DecidableEq, Repr

/-- `generate.Command`: `pkg/ddlctl/generate/ddlctl_generate.go:20-49`; `args[0]`, `args[1]` panic if missing. -/
def generateCommand (w : World) (cfg : Res Conf.Config) (args : List Str) : GenOut :=
  match cfg with
  | .ok c =>
    match args with
    | src :: dst :: _ =>
      let dst := if w.isDir dst then w.joinPath dst s%"ddlctl.gen.sql" else dst
      match w.openFile dst with
      | some e => ⟨none, [], .err e⟩
      | none => ⟨some dst, generate w src c.dialect c.language⟩
    | _ => ⟨none, [], .panic .indexRange⟩
  | .err e => ⟨none, [], .err e⟩
  | .panic p => ⟨none, [], .panic p⟩
  | .outOfFuel => ⟨none, [], .outOfFuel⟩

/-- The switch of `Show`: `pkg/ddlctl/show/ddlctl_show.go:65-92`. -/
def showSwitch (w : World) (dialect dsn : Str) : Res Str :=
  if dialect = myDialect ∨ dialect = pgDialect ∨ dialect = crdbDialect ∨ dialect = spDialect then w.showTables dialect dsn
  else .err .notSupported

/-- `show.Show`: `pkg/ddlctl/show/ddlctl_show.go:42-93`, with the deferred `db.Close` (59-63). -/
def showDb (w : World) (dialect dsn : Str) : Res Str :=
  match w.openDb (driverName dialect) dsn with
  | some e => .err e
  | none =>
    match showSwitch w dialect dsn with
    | .ok t => match w.closeDb dsn with
      | none => .ok t
      | some e => .err e
    | r => r

/-- `show.Command`: `pkg/ddlctl/show/ddlctl_show.go:24-39`; `args[0]` panics if missing. -/
def showCommand (w : World) (cfg : Res Conf.Config) (args : List Str) : Out :=
  match cfg with
  | .ok c =>
    match args with
    | dsn :: _ => Out.after (showDb w c.dialect dsn) (writeOut w)
    | [] => ⟨[], .panic .indexRange⟩
  | .err e => ⟨[], .err e⟩
  | .panic p => ⟨[], .panic p⟩
  | .outOfFuel => ⟨[], .outOfFuel⟩

/-- `resolve`: `pkg/ddlctl/diff/ddlctl_diff.go:50-73`. -/
def resolve (w : World) (language dialect arg : Str) : Res Str :=
  if w.isFile arg then w.readFile arg
  else if w.exists? arg then generateText w arg dialect language
  else showDb w dialect arg

/-- The switch of `diff.Diff`: `pkg/ddlctl/diff/ddlctl_diff.go:90-175`: the text `result.String()`. -/
def diffText (w : World) (dialect src dst : Str) : Res Str :=
  if dialect = myDialect then do
    let l ← My.parse src
    let r ← My.parse dst
    let res ← diff (My.ops w.sd) (some l) (some r)
    .ok (ddlStr (My.ops w.sd) res)
  else if dialect = pgDialect then do
    let l ← Pg.parse src
    let r ← Pg.parse dst
    let res ← diff (Pg.ops w.sd) (some l) (some r)
    .ok (ddlStr (Pg.ops w.sd) res)
  else if dialect = crdbDialect then do
    let l ← Crdb.parse src
    let r ← Crdb.parse dst
    let res ← diff (Crdb.ops w.sd) (some l) (some r)
    .ok (ddlStr (Crdb.ops w.sd) res)
  else if dialect = spDialect then do
    let l ← Sp.parse src
    let r ← Sp.parse dst
    let res ← diff (Sp.ops w.sd) (some l) (some r)
    .ok (ddlStr (Sp.ops w.sd) res)
  else if dialect = [] then .err .dialectIsEmpty
  else .err .notSupported

/-- `diff.Diff`: `pkg/ddlctl/diff/ddlctl_diff.go:76-176`: the text handed to the writer. -/
def diffSources (w : World) (dialect language src dst : Str) : Res Str := do
  let a ← resolve w language dialect src
  let b ← resolve w language dialect dst
  diffText w dialect a b

/-- `diff.Diff` with a writer. `pkg/ddlctl/diff/ddlctl_diff.go:76-176`. -/
def diffRun (w : World) (dialect language src dst : Str) : Out :=
  Out.after (diffSources w dialect language src dst) (writeOut w)

/-- `diff.Command`: `pkg/ddlctl/diff/ddlctl_diff.go:24-47`. -/
def diffCommand (w : World) (cfg : Res Conf.Config) (args : List Str) : Out :=
  match cfg with
  | .ok c =>
    match args with
    | [left, right] =>
      let o := diffRun w c.dialect c.language left right
      match o.result with
      | .err .noDifference => { o with result := .ok () }
      | _ => o
    | _ => ⟨[], .err .twoArgumentsRequired⟩
  | .err e => ⟨[], .err e⟩
  | .panic p => ⟨[], .panic p⟩
  | .outOfFuel => ⟨[], .outOfFuel⟩

end Ddl.Cmd
