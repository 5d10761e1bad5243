import Verif.Load
import Verif.Spec.Cmd
import Verif.Spec.Apply

/-! # Vocabulary for the options of the commands (C70), after the usage texts in `README.md:327-445` -/

namespace Ddl.Spec
open Ddl.Load Ddl.Main

/-- An option has the value of the command line, else the one of the environment, else the default. -/
inductive Takes {α : Type} (arg env : Option α) (dflt : α) : α → Prop
  | arg (v : α) : arg = some v → Takes arg env dflt v
  | env (v : α) : arg = none → env = some v → Takes arg env dflt v
  | dflt : arg = none → env = none → Takes arg env dflt dflt

/-- The configuration is the documented one: `README.md:344-349` (program), `363-374` (generate), `388-391` (show), `405-416` (diff),
`430-443` (apply). -/
structure Documented (c : Command) (g : Given) (k : Conf.Config) : Prop where
  trace : Takes (g.boolArg s%"trace") (g.boolEnv s%"DDLCTL_TRACE") false k.trace
  debug : Takes (g.boolArg s%"debug") (g.boolEnv s%"DDLCTL_DEBUG") false k.debug
  dialect : Takes (g.strArg s%"dialect") (g.strEnv s%"DDLCTL_DIALECT") [] k.dialect
  language : c ≠ .show → Takes (g.strArg s%"lang") (g.strEnv s%"DDLCTL_LANGUAGE") s%"go" k.language
  columnTag : c ≠ .show → Takes (g.strArg s%"go-column-tag") (g.strEnv s%"DDLCTL_GO_COLUMN_TAG") s%"db" k.columnTagGo
  ddlTag : c ≠ .show → Takes (g.strArg s%"go-ddl-tag") (g.strEnv s%"DDLCTL_GO_DDL_TAG") s%"ddlctl" k.ddlTagGo
  pkTag : c ≠ .show → Takes (g.strArg s%"go-pk-tag") (g.strEnv s%"DDLCTL_GO_PK_TAG") s%"pk" k.pkTagGo
  approve : c = .apply → Takes (g.boolArg s%"auto-approve") (g.boolEnv s%"DDLCTL_AUTO_APPROVE") false k.autoApprove
  never : c ≠ .apply → k.autoApprove = false

/-- The user has approved beforehand, on the command line or in the environment. -/
def Approves (g : Given) : Prop :=
  g.boolArg s%"auto-approve" = some true ∨ g.boolArg s%"auto-approve" = none ∧ g.boolEnv s%"DDLCTL_AUTO_APPROVE" = some true

/-- The user has said nowhere which dialect is meant. -/
def NoDialect (g : Given) : Prop := g.strArg s%"dialect" = none ∧ g.strEnv s%"DDLCTL_DIALECT" = none

/-- The options and variables that a command has, by name. -/
def Heard : Command → List (Str × Str)
  | .show => [(s%"trace", s%"DDLCTL_TRACE"), (s%"debug", s%"DDLCTL_DEBUG"), (s%"dialect", s%"DDLCTL_DIALECT")]
  | .apply => [(s%"trace", s%"DDLCTL_TRACE"), (s%"debug", s%"DDLCTL_DEBUG"), (s%"dialect", s%"DDLCTL_DIALECT"), (s%"lang", s%"DDLCTL_LANGUAGE"),
      (s%"go-column-tag", s%"DDLCTL_GO_COLUMN_TAG"), (s%"go-ddl-tag", s%"DDLCTL_GO_DDL_TAG"), (s%"go-pk-tag", s%"DDLCTL_GO_PK_TAG"),
      (s%"auto-approve", s%"DDLCTL_AUTO_APPROVE")]
  | _ => [(s%"trace", s%"DDLCTL_TRACE"), (s%"debug", s%"DDLCTL_DEBUG"), (s%"dialect", s%"DDLCTL_DIALECT"), (s%"lang", s%"DDLCTL_LANGUAGE"),
      (s%"go-column-tag", s%"DDLCTL_GO_COLUMN_TAG"), (s%"go-ddl-tag", s%"DDLCTL_GO_DDL_TAG"), (s%"go-pk-tag", s%"DDLCTL_GO_PK_TAG")]

/-- The user says the same on the command line and in the environment, as far as the command listens. -/
def SameSaid (c : Command) (g g' : Given) : Prop :=
  ∀ x ∈ Heard c, g.strArg x.1 = g'.strArg x.1 ∧ g.strEnv x.2 = g'.strEnv x.2 ∧ g.boolArg x.1 = g'.boolArg x.1 ∧ g.boolEnv x.2 = g'.boolEnv x.2

end Ddl.Spec
