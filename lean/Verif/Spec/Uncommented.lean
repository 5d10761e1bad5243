import Verif.Stmt
import Verif.Pg.Ast
import Verif.Crdb.Ast
import Verif.My.Ast
import Verif.Sp.Ast

/-!
# Specification vocabulary: statements without their comments
-/

namespace Ddl.Spec
set_option autoImplicit false

/-- A statement without its comment; `fi` and `fa` say what that means for `CREATE INDEX` and `ALTER TABLE`. -/
def uncommented {T I A N : Type} (fi : I → I) (fa : A → A) : Stmt T I A N → Stmt T I A N
  | .createTable t => .createTable t
  | .createIndex i => .createIndex (fi i)
  | .alterTable a => .alterTable (fa a)
  | .dropTable _ e n => .dropTable [] e n
  | .dropIndex _ e n => .dropIndex [] e n

/-- Comment lines. -/
def lineComments (ls : List Str) : Str := (ls.map fun l => s%"-- " ++ l ++ s%"\n").flatten

end Ddl.Spec

namespace Ddl
open Spec

/-- An `ALTER TABLE` without its comment. -/
def Pg.uncommentedAlter (a : Pg.AlterTable) : Pg.AlterTable := { a with comment := [] }

/-- A statement without its comment. -/
def Pg.uncommented : Pg.PStmt → Pg.PStmt := Spec.uncommented (fun i => { i with comment := [] }) Pg.uncommentedAlter

/-- An `ALTER TABLE` without its comment. -/
def Crdb.uncommentedAlter (a : Crdb.AlterTable) : Crdb.AlterTable := { a with comment := [] }

/-- A statement without its comment. -/
def Crdb.uncommented : Crdb.CStmt → Crdb.CStmt := Spec.uncommented (fun i => { i with comment := [] }) Crdb.uncommentedAlter

/-- An `ALTER TABLE` without its comment. -/
def My.uncommentedAlter (a : My.AlterTable) : My.AlterTable := { a with comment := [] }

/-- A statement without its comment. -/
def My.uncommented : My.MStmt → My.MStmt := Spec.uncommented (fun i => { i with comment := [] }) My.uncommentedAlter

/-- An `ALTER TABLE` without its comment. -/
def Sp.uncommentedAlter (a : Sp.AlterTable) : Sp.AlterTable := { a with comment := [] }

/-- A statement without its comment. -/
def Sp.uncommented : Sp.SStmt → Sp.SStmt := Spec.uncommented (fun i => { i with comment := [] }) Sp.uncommentedAlter

end Ddl
