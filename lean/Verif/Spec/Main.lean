import Verif.Main
import Verif.Spec.Answer
import Verif.Spec.Cmd
import Verif.Spec.GenerateRun
import Verif.Spec.ShowRun

/-! # Vocabulary for the exit status (C67) -/

namespace Ddl.Spec
open Ddl.Main

/-- What is outside the program does not keep it waiting for ever. -/
structure OutsideEnds (w : Cmd.World) : Prop where
  readFile : ∀ p, w.readFile p ≠ .outOfFuel
  parseGo : ∀ p, w.parseGo p ≠ .outOfFuel
  showTables : ∀ d dsn, w.showTables d dsn ≠ .outOfFuel

/-- The configuration that a command is given. -/
def configOf : Invocation → Option (Res Conf.Config)
  | .generate c _ | .show c _ | .diff c _ | .apply c _ => some c
  | _ => none

/-- The texts of both sides can be read by the parser of the dialect, and, for Spanner, every CHECK in them has a name. -/
inductive BothRead : Str → Str → Str → Prop
  | pg (s1 s2 : Str) (b a : List Pg.PStmt) : Pg.parse s1 = .ok b → Pg.parse s2 = .ok a → BothRead s%"postgres" s1 s2
  | crdb (s1 s2 : Str) (b a : List Crdb.CStmt) : Crdb.parse s1 = .ok b → Crdb.parse s2 = .ok a → BothRead s%"cockroachdb" s1 s2
  | my (s1 s2 : Str) (b a : List My.MStmt) : My.parse s1 = .ok b → My.parse s2 = .ok a → BothRead s%"mysql" s1 s2
  | sp (s1 s2 : Str) (b a : List Sp.SStmt) : Sp.parse s1 = .ok b → Sp.parse s2 = .ok a → ChecksNamed b → ChecksNamed a →
      BothRead s%"spanner" s1 s2

end Ddl.Spec
