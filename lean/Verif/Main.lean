import Verif.Apply

/-!
# The program

`pkg/ddlctl/ddlctl.go` and `cmd/ddlctl/main.go`. What github.com/kunitsucom/util.go/exp/cli makes of `os.Args` and of the
environment is an input here: an `Invocation`. Its `Run` calls the `RunFunc` of the command that was named and returns an error that
wraps the one of `RunFunc`.
-/

namespace Ddl.Main
open Cmd Apply

/-- What the option parser finds in `os.Args`: the commands of `pkg/ddlctl/ddlctl.go:65-114` with what `config.Load` will find in the
options and the remaining arguments. -/
inductive Invocation where
  /-- help is asked for: `Run` returns an error that wraps `cliz.ErrHelp` -/
  | help
  /-- an unknown option, or a value of the wrong kind: `Run` returns another error -/
  | invalid (e : Err)
  /-- no command (`ddlctl.go:129-137`), with the error of `cliz.FromContext`, if there is one -/
  | none (context : Option Err)
  /-- `ddlctl version` (`ddlctl.go:66-77`), with the values of github.com/kunitsucom/util.go/version -/
  | version (version revision branch timestamp : Str)
  | generate (cfg : Res Conf.Config) (args : List Str)
  | show (cfg : Res Conf.Config) (args : List Str)
  | diff (cfg : Res Conf.Config) (args : List Str)
  | apply (cfg : Res Conf.Config) (args : List Str)
deriving DecidableEq, Repr

/-- The errors of `Run`: `cliz.ErrHelp` or another one. `pkg/ddlctl/ddlctl.go:140-146`. -/
inductive Failure where
  | help
  | app (e : Err)
deriving DecidableEq, Repr

/-- What the program does to the outside. `print` is an output on the standard output, `empty` the opening of a file with `O_TRUNC`.
The operations: `pkg/ddlctl/ddlctl.go:71-74`, `pkg/ddlctl/{generate,show,diff,apply}/*.go`. -/
inductive Effect where
  | print (text : Str)
  | query (q : Str) (answer : Option Str)
  | empty (path : Str)
  | write (path text : Str)
deriving DecidableEq, Repr

/-- How `Run` ends: it returns nil, returns an error or panics; `outOfFuel` as in `Res`. `pkg/ddlctl/ddlctl.go:140`. -/
inductive Ended where
  | ok
  | failed (f : Failure)
  | panic (p : Panic)
  | outOfFuel
deriving DecidableEq, Repr

/-- The result of a `RunFunc` as the result of `Run`. `pkg/ddlctl/ddlctl.go:140`. -/
def ended : Res Unit → Ended
  | .ok () => .ok
  | .err e => .failed (.app e)
  | .panic p => .panic p
  | .outOfFuel => .outOfFuel

/-- The outputs and queries of `apply` (`Verif/Apply.lean`) as effects. The calls: `pkg/ddlctl/apply/ddlctl_apply.go:48, 70-90`. -/
def ofEvent : Event → Effect
  | .print t => .print t
  | .query q a => .query q a

/-- `cmd.Run(ctx, os.Args)`: `pkg/ddlctl/ddlctl.go:140` with the functions of 61-138. What `cmd.ShowUsage` prints is left out. -/
def run (w : Site) (stdin : Str) : Invocation → List Effect × Ended
  | .help => ([], .failed .help)
  | .invalid e => ([], .failed (.app e))
  | .none (some e) => ([], .failed (.app e))
  | .none none => ([], .failed .help)
  | .version v r b t =>
    ([.print (s%"version: " ++ v ++ s%"\n"), .print (s%"revision: " ++ r ++ s%"\n"), .print (s%"build branch: " ++ b ++ s%"\n"),
      .print (s%"build timestamp: " ++ t ++ s%"\n")], .ok)
  | .generate cfg args =>
    let g := generateCommand w.toWorld cfg args
    (match g.emptied with
      | some p => .empty p :: g.out.writes.map (.write p)
      | none => [], ended g.out.result)
  | .show cfg args =>
    let o := showCommand w.toWorld cfg args
    (o.writes.map .print, ended o.result)
  | .diff cfg args =>
    let o := diffCommand w.toWorld cfg args
    (o.writes.map .print, ended o.result)
  | .apply cfg args =>
    let x := applyCommand w cfg args stdin
    (x.1.map ofEvent, ended x.2)

/-- `DDLCtl`: `pkg/ddlctl/ddlctl.go:60-149`. -/
def ddlctl (w : Site) (stdin : Str) (i : Invocation) : List Effect × Res Unit :=
  let x := run w stdin i
  (x.1, match x.2 with
    | .ok => .ok ()
    | .failed .help => .ok ()
    | .failed (.app e) => .err e
    | .panic p => .panic p
    | .outOfFuel => .outOfFuel)

/-- `main`: `cmd/ddlctl/main.go:10-16`: what it does and its exit status. `log.Fatalf` exits with 1, a panic ends the program with 2;
`none` would be a run that does not end. What is written to the standard error is left out. -/
def main (w : Site) (stdin : Str) (i : Invocation) : List Effect × Option Nat :=
  let x := ddlctl w stdin i
  (x.1, match x.2 with
    | .ok () => some 0
    | .err _ => some 1
    | .panic _ => some 2
    | .outOfFuel => none)

end Ddl.Main
