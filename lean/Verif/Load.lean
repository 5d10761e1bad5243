import Verif.Main

/-!
# The options of the commands

`pkg/ddlctl/ddlctl.go:20-128`, `pkg/internal/consts/cli.go` and the functions `load…` of `pkg/internal/config`. Splitting `os.Args` into
options and arguments is left to github.com/kunitsucom/util.go/exp/cli; what it finds is an input (`Given`). It is trusted to take the value
of an option from the command line, else from the environment, else from `Default`, to refuse options that are not declared by the program or
by the command, and to answer a question for an option that is not declared with the zero value and an error.
-/

namespace Ddl.Load

/-- `cliz.StringOption`, as declared in `pkg/ddlctl/ddlctl.go:22-55`. -/
structure StrOption where
  name : Str
  environment : Str
  default : Str
deriving DecidableEq, Repr

/-- `cliz.BoolOption`, as declared in `pkg/ddlctl/ddlctl.go:105-110, 116-127`. -/
structure BoolOption where
  name : Str
  environment : Str
  default : Bool
deriving DecidableEq, Repr

/-- `optLanguage`: `pkg/ddlctl/ddlctl.go:22-27`, names from `pkg/internal/consts/cli.go:10-11`. -/
def optLanguage : StrOption := ⟨s%"lang", s%"DDLCTL_LANGUAGE", s%"go"⟩

/-- `optDialect`: `pkg/ddlctl/ddlctl.go:28-33`, names from `pkg/internal/consts/cli.go:13-14`. -/
def optDialect : StrOption := ⟨s%"dialect", s%"DDLCTL_DIALECT", []⟩

/-- `opts`: `pkg/ddlctl/ddlctl.go:34-56`, names from `pkg/internal/consts/cli.go:20-27`. -/
def opts : List StrOption :=
  [optLanguage, optDialect, ⟨s%"go-column-tag", s%"DDLCTL_GO_COLUMN_TAG", s%"db"⟩, ⟨s%"go-ddl-tag", s%"DDLCTL_GO_DDL_TAG", s%"ddlctl"⟩,
    ⟨s%"go-pk-tag", s%"DDLCTL_GO_PK_TAG", s%"pk"⟩]

/-- The commands that load the configuration: `pkg/ddlctl/ddlctl.go:78-113`. -/
inductive Command where
  | generate
  | show
  | diff
  | apply
deriving DecidableEq, Repr

/-- The `StringOption`s of a command: `pkg/ddlctl/ddlctl.go:83, 90, 97, 104`. -/
def strOptions : Command → List StrOption
  | .generate => opts
  | .show => [optDialect]
  | .diff => opts
  | .apply => opts

/-- The `BoolOption`s of the program and of a command: `pkg/ddlctl/ddlctl.go:115-128` and `104-111`. -/
def boolOptions (c : Command) : List BoolOption :=
  [⟨s%"trace", s%"DDLCTL_TRACE", false⟩, ⟨s%"debug", s%"DDLCTL_DEBUG", false⟩] ++
  match c with
  | .apply => [⟨s%"auto-approve", s%"DDLCTL_AUTO_APPROVE", false⟩]
  | _ => []

/-- What the option parser finds: the options on the command line by name, and the variables of the environment, as strings and as
booleans. The options: `pkg/ddlctl/ddlctl.go:20-128`. -/
structure Given where
  strArg : Str → Option Str
  strEnv : Str → Option Str
  boolArg : Str → Option Bool
  boolEnv : Str → Option Bool

/-- `v, _ := cmd.GetOptionString(name)`: for instance `pkg/internal/config/dialect.go:12`. -/
def getString (c : Command) (g : Given) (name : Str) : Str :=
  match (strOptions c).find? (fun o => o.name == name) with
  | some o => ((g.strArg o.name).or (g.strEnv o.environment)).getD o.default
  | none => []

/-- `v, _ := cmd.GetOptionBool(name)`: for instance `pkg/internal/config/auto_approve.go:12`. -/
def getBool (c : Command) (g : Given) (name : Str) : Bool :=
  match (boolOptions c).find? (fun o => o.name == name) with
  | some o => ((g.boolArg o.name).or (g.boolEnv o.environment)).getD o.default
  | none => false

/-- `load`: `pkg/internal/config/config.go:70-104` with `loadTrace`, …, `loadPKTagGo` (line 12 of `trace.go`, `debug.go`, `language.go`,
`dialect.go`, `auto_approve.go`, `column_tag_go.go`, `ddl_tag_go.go`, `pk_tag_go.go`). `cliz.FromContext` finds the command, since `Run` has
put it there. `Version` is never set. The loggers (lines 87-101) are left out. -/
def load (c : Command) (g : Given) : Conf.Config where
  version := false
  trace := getBool c g s%"trace"
  debug := getBool c g s%"debug"
  language := getString c g s%"lang"
  dialect := getString c g s%"dialect"
  autoApprove := getBool c g s%"auto-approve"
  columnTagGo := getString c g s%"go-column-tag"
  ddlTagGo := getString c g s%"go-ddl-tag"
  pkTagGo := getString c g s%"go-pk-tag"

/-- The call of a command with its arguments, as in `Verif/Main.lean`. `pkg/ddlctl/ddlctl.go:78-113, 140`. -/
def invoke (c : Command) (g : Given) (args : List Str) : Main.Invocation :=
  match c with
  | .generate => .generate (.ok (load c g)) args
  | .show => .show (.ok (load c g)) args
  | .diff => .diff (.ok (load c g)) args
  | .apply => .apply (.ok (load c g)) args

end Ddl.Load
