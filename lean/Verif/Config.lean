import Verif.Basic

/-!
# Configuration

`pkg/internal/config/config.go`. Reading the options (`load`, `config.go:70-104`) goes through the option parser
github.com/kunitsucom/util.go/exp/cli and is an input here: a value or an error. The mutex is not modelled: operations are
atomic.
-/

namespace Ddl.Conf

/-- `config`: `config.go:18-29`. -/
structure Config where
  version : Bool
  trace : Bool
  debug : Bool
  language : Str
  dialect : Str
  autoApprove : Bool
  columnTagGo : Str
  ddlTagGo : Str
  pkTagGo : Str
deriving DecidableEq, Repr

/-- The package state: `globalConfig` (`config.go:33`, nil at first) and, for every `rollback` closure handed out so far, the
`backup` it has captured (`config.go:49`). -/
structure State where
  global : Option Config
  backups : List (Option Config)
deriving DecidableEq, Repr

/-- The state at program start. `config.go:31-35`. -/
def init : State := ⟨none, []⟩

/-- `Load`: `config.go:46-65`; the second component is the number of the returned closure, `none` if an error is returned. -/
def load (loaded : Res Config) (s : State) : State × Option Nat :=
  match loaded with
  | .ok cfg => (⟨some cfg, s.backups ++ [s.global]⟩, some s.backups.length)
  | _ => (s, none)

/-- Calling the `rollback` closure number `k`: `config.go:58-62`. -/
def rollback (k : Nat) (s : State) : State :=
  match s.backups[k]? with
  | some b => { s with global := b }
  | none => s

/-- What callers do with the package: loads (with what reading the options gives) and rollbacks.
The functions: `config.go:46-65`. -/
inductive Op where
  | load (loaded : Res Config)
  | rollback (k : Nat)
deriving DecidableEq, Repr

/-- One call: `config.go:46-65`. -/
def step (s : State) : Op → State
  | .load r => (load r s).1
  | .rollback k => rollback k s

/-- Run a sequence of calls. The functions: `config.go:46-65`. -/
def run (s : State) (ops : List Op) : State := ops.foldl step s

end Ddl.Conf
