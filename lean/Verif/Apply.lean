import Verif.Cmd

/-!
# The command `apply`

`pkg/ddlctl/apply/ddlctl_apply.go` and `pkg/internal/util/remove_comment.go`. The database, the terminal and the libraries are
parameters of the surroundings `Site`.
-/

namespace Ddl.Apply
open Ddl Cmd

/-! ## Lines and pieces of a text -/

/-- `bufio.MaxScanTokenSize` of Go's standard library.
The scanners are made at `pkg/internal/util/remove_comment.go:10` and `pkg/ddlctl/apply/ddlctl_apply.go:182`. -/
def maxLine : Nat := 64 * 1024

/-- `dropCR` of Go's `bufio`. Used through the scanners of `pkg/internal/util/remove_comment.go:10` and
`pkg/ddlctl/apply/ddlctl_apply.go:182`. -/
def dropCR (l : Str) : Str := if l.getLast? = some '\r' then l.dropLast else l

/-- The lines that `bufio.ScanLines` sees, `line` being what was read of the current one (in reverse): split at line feeds, the
last line only if it is not empty. Used through the scanners of
`pkg/internal/util/remove_comment.go:10` and `pkg/ddlctl/apply/ddlctl_apply.go:182`. -/
def rawLines (line : Str) : Str → List Str
  | [] => if line = [] then [] else [line.reverse]
  | c :: r => if c = '\n' then line.reverse :: rawLines [] r else rawLines (c :: line) r

/-- The successive `scanner.Text()` of a `bufio.Scanner` with default settings: a line that does not fit into the buffer
ends the scan (`Scan` returns false, `Err` is not asked). The loops:
`pkg/internal/util/remove_comment.go:10-13`, `pkg/ddlctl/apply/ddlctl_apply.go:182-185`. -/
def scanLines (input : Str) : List Str :=
  ((rawLines [] input).takeWhile (fun l => decide (l.length < maxLine))).map dropCR

/-- The byte sequences that `strings.TrimSpace` removes (`unicode.IsSpace` of the decoded characters): ASCII spaces, and the
UTF-8 encodings of U+0085, U+00A0, U+1680, U+2000-U+200A, U+2028, U+2029, U+202F, U+205F, U+3000. -/
def spaces : List Str :=
  [s%"\t", s%"\n", ['\x0b'], ['\x0c'], s%"\r", s%" ", ['\xc2', '\x85'], ['\xc2', '\xa0'], ['\xe1', '\x9a', '\x80']] ++
  (['\x80', '\x81', '\x82', '\x83', '\x84', '\x85', '\x86', '\x87', '\x88', '\x89', '\x8a', '\xa8', '\xa9', '\xaf'].map
    (fun c => ['\xe2', '\x80', c])) ++
  [['\xe2', '\x81', '\x9f'], ['\xe3', '\x80', '\x80']]

/-- Remove elements of `sp` from the front of a text as long as there are any; each round removes a character, so
`s.length` rounds suffice. Part of `strings.TrimSpace`: `pkg/internal/util/remove_comment.go:14, 23`. -/
def trimFront (sp : List Str) : Nat → Str → Str
  | 0, s => s
  | n + 1, s =>
    match sp.find? (fun p => hasPrefix s p) with
    | some p => trimFront sp n (s.drop p.length)
    | none => s

/-- `strings.TrimSpace` of Go's standard library. Used at `pkg/internal/util/remove_comment.go:14, 23`. -/
def trimSpace (s : Str) : Str :=
  let s' := trimFront spaces s.length s
  (trimFront (spaces.map List.reverse) s'.length s'.reverse).reverse

/-- `strings.Index(line, prefix)`: the text in front of the first occurrence, `none` for -1. -/
def before (prefix_ : Str) : Str → Option Str
  | [] => if prefix_ = [] then some [] else none
  | c :: r =>
    if hasPrefix (c :: r) prefix_ then some []
    else match before prefix_ r with
      | some s => some (c :: s)
      | none => none

/-- The body of the loop of `RemoveCommentsAndEmptyLines`: `pkg/internal/util/remove_comment.go:13-30`: what is written. -/
def keepLine (prefix_ line : Str) : Str :=
  if hasPrefix (trimSpace line) prefix_ then []
  else
    let line := match before prefix_ line with
      | some s => trimSpace s
      | none => line
    if line = [] then [] else line ++ s%"\n"

/-- `RemoveCommentsAndEmptyLines`: `pkg/internal/util/remove_comment.go:8-34`. -/
def removeComments (prefix_ input : Str) : Str := ((scanLines input).map (keepLine prefix_)).flatten

/-- `strings.Split(s, ";\n")`. Used at `pkg/ddlctl/apply/ddlctl_apply.go:156, 202`. -/
def splitStmts : Str → List Str
  | [] => [[]]
  | [c] => [[c]]
  | c :: d :: r =>
    if c = ';' ∧ d = '\n' then [] :: splitStmts r
    else match splitStmts (d :: r) with
      | [] => [[c]]
      | h :: t => (c :: h) :: t

/-! ## Execution -/

/-- The queries sent so far, each with the answer: `none` for success or the text of the error.
The calls of `ExecContext`: `pkg/ddlctl/apply/ddlctl_apply.go:151, 161, 168, 173, 212`. -/
abbrev Hist := List (Str × Option Str)

/-- The surroundings of `apply`. All components are arbitrary. What `pkg/ddlctl/apply/ddlctl_apply.go:32-238` uses. -/
structure Site extends World where
  /-- `db.ExecContext(ctx, q)` after the given queries: the text of the error, if it fails -/
  db : Hist → Str → Option Str
  /-- `db.Conn(ctx)` fails -/
  conn : Option Err
  /-- `retry.Retryer.Do` of github.com/kunitsucom/util.go: how often it calls the function at most, by `WithMaxRetries` -/
  attempts : Nat → Nat
  /-- the context is cancelled when the next attempt is due -/
  cancelled : Hist → Bool
  /-- `stringz.ReadLine(s, "\n", stringz.ReadLineFuncRemoveCommentLine("--"))` of github.com/kunitsucom/util.go -/
  withoutCommentLines : Str → Str
  /-- `os.Stdout.WriteString` fails -/
  stdout : Str → Option Err

/-- `strings.Contains(s, sub)`. Used through `errorz.Contains`: `pkg/ddlctl/apply/ddlctl_apply.go:123, 125`. -/
def contains (sub : Str) : Str → Bool
  | [] => sub = []
  | c :: r => hasPrefix (c :: r) sub || contains sub r

/-- The classifier of the mysql case: `ddlctl_apply.go:122-124`; `errorz.Contains(err, s)` looks for `s` in `err.Error()`. -/
def alreadyApplied (msg : Str) : Bool :=
  contains s%"already exists" msg || contains s%"Duplicate column name" msg

/-- One call of the function given to `retryer.Do`: `ddlctl_apply.go:205-233`; `err` is `outerErr`. The second classifier only
decides about logging. -/
def pass (db : Hist → Str → Option Str) (ignore : Str → Bool) : List Str → Hist → Option Str → Hist × Option Str
  | [], h, err => (h, err)
  | q :: qs, h, err =>
    if q = [] then pass db ignore qs h err
    else match db h q with
      | none => pass db ignore qs (h ++ [(q, none)]) err
      | some m => pass db ignore qs (h ++ [(q, some m)]) (if ignore m then err else some m)

/-- `retryer.Do`: calls the function until it succeeds, the attempts are used up or the context is cancelled.
It is the function of github.com/kunitsucom/util.go called at `pkg/ddlctl/apply/ddlctl_apply.go:205-233`. -/
def retryLoop (w : Site) (ignore : Str → Bool) (qs : List Str) : Nat → Hist → Hist × Res Unit
  | 0, h => (h, .err (.other s%"reached max retries"))
  | n + 1, h =>
    if w.cancelled h then (h, .err (.other s%"context canceled"))
    else match pass w.db ignore qs h none with
      | (h', none) => (h', .ok ())
      | (h', some _) => retryLoop w ignore qs n h'

/-- `splitExec`: `ddlctl_apply.go:193-238`. -/
def splitExec (w : Site) (ignore : Str → Bool) (ddlStr : Str) : Hist × Res Unit :=
  let ddls := splitStmts (removeComments s%"--" ddlStr)
  retryLoop w ignore ddls (w.attempts ddls.length) []

/-- A sequence of `conn.ExecContext` that returns at the first error: `ddlctl_apply.go:149-171`; empty queries are skipped (156-160). -/
def sendAll (db : Hist → Str → Option Str) : List Str → Hist → Hist × Res Unit
  | [], h => (h, .ok ())
  | q :: qs, h =>
    if q = [] then sendAll db qs h
    else match db h q with
      | none => sendAll db qs (h ++ [(q, none)])
      | some m => (h ++ [(q, some m)], .err (.other m))

/-- `Apply`: `ddlctl_apply.go:96-179`. The errors of `db.Close` and `conn.Close` are assigned to variables that nobody reads
(110-114, 144-148). -/
def applyDdl (w : Site) (dialect dsn ddlStr : Str) : Hist × Res Unit :=
  match w.openDb (driverName dialect) dsn with
  | some e => ([], .err e)
  | none =>
    if driverName dialect = myDriver then splitExec w alreadyApplied ddlStr
    else if driverName dialect = crdbDriver then splitExec w (fun _ => false) ddlStr
    else if driverName dialect = spDriver then
      match w.conn with
      | some e => ([], .err e)
      | none => sendAll w.db (s%"START BATCH DDL" :: splitStmts (w.withoutCommentLines ddlStr) ++ [s%"RUN BATCH"]) []
    else match w.db [] ddlStr with
      | none => ([(ddlStr, none)], .ok ())
      | some m => ([(ddlStr, some m)], .err (.other m))

/-- `prompt`: `ddlctl_apply.go:181-191`, with the whole standard input. -/
def prompt (stdin : Str) : Res Unit :=
  if (scanLines stdin).head?.getD [] = s%"yes" then .ok () else .err .canceled

/-- What `apply` does to the outside.
Outputs, the question and the application: `pkg/ddlctl/apply/ddlctl_apply.go:48, 70-90`. -/
inductive Event where
  | print (text : Str)
  | query (q : Str) (answer : Option Str)
deriving DecidableEq, Repr

/-- The message: `ddlctl_apply.go:55-68`. -/
def message (ddlStr : Str) : Str :=
  s%"\nddlctl will exec the following DDL queries:\n\n-- 8< --\n\n" ++ ddlStr ++
  s%"\n\n-- >8 --\n\nDo you want to apply these DDL queries?\n  ddlctl will exec the DDL queries described above.\n  Only 'yes' will be accepted to approve.\n\nEnter a value: "

/-- The end of `Command`: `ddlctl_apply.go:84-92`. -/
def execute (w : Site) (dialect dsn ddlStr : Str) : List Event × Res Unit :=
  match applyDdl w dialect dsn ddlStr with
  | (h, .ok ()) =>
    (.print s%"\nexecuting...\n" :: h.map (fun x => .query x.1 x.2) ++ [.print s%"done\n"], .ok ())
  | (h, r) => (.print s%"\nexecuting...\n" :: h.map (fun x => .query x.1 x.2), r)

/-- `Command` behind the diff: `ddlctl_apply.go:55-92`. -/
def approveAndExecute (w : Site) (c : Conf.Config) (dsn ddlStr stdin : Str) : List Event × Res Unit :=
  match w.stdout (message ddlStr) with
  | some e => ([.print (message ddlStr)], .err e)
  | none =>
    if c.autoApprove then
      match w.stdout s%"yes (via --auto-approve option)\n" with
      | some e => ([.print (message ddlStr), .print s%"yes (via --auto-approve option)\n"], .err e)
      | none =>
        let x := execute w c.dialect dsn ddlStr
        (.print (message ddlStr) :: .print s%"yes (via --auto-approve option)\n" :: x.1, x.2)
    else
      match prompt stdin with
      | .ok () =>
        let x := execute w c.dialect dsn ddlStr
        (.print (message ddlStr) :: x.1, x.2)
      | r => ([.print (message ddlStr)], r)

/-- `Command`: `ddlctl_apply.go:31-93`; the builder that takes the output of `diff.Diff` never fails. -/
def applyCommand (w : Site) (cfg : Res Conf.Config) (args : List Str) (stdin : Str) : List Event × Res Unit :=
  match cfg with
  | .ok c =>
    match args with
    | [left, right] =>
      match diffSources w.toWorld c.dialect c.language left right with
      | .ok ddlStr => approveAndExecute w c left ddlStr stdin
      | .err .noDifference => ([.print s%"no difference\n"], .ok ())
      | .err e => ([], .err e)
      | .panic p => ([], .panic p)
      | .outOfFuel => ([], .outOfFuel)
    | _ => ([], .err .twoArgumentsRequired)
  | .err e => ([], .err e)
  | .panic p => ([], .panic p)
  | .outOfFuel => ([], .outOfFuel)

end Ddl.Apply
