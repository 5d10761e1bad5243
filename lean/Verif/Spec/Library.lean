import Verif.Pg.Diff
import Verif.Crdb.Diff
import Verif.My.Diff
import Verif.Sp.Diff

/-! # Specification vocabulary: the comparison of two tables as a function of the library

`DiffCreateTable` is exported.  Called directly it may be given tables of different names, and the option
`UseAlterTableAddConstraintNotValid`; `ddlctl` itself uses neither. -/

namespace Ddl.Spec
set_option autoImplicit false

/-- The name a table is renamed to: without a schema it stays in the schema it is in. -/
def movedName (old new : ObjectName) : ObjectName := ⟨new.schema.or old.schema, new.name⟩

end Ddl.Spec

namespace Ddl
set_option autoImplicit false

/-- The same statement, but if it adds a constraint, it does so with `NOT VALID` or without, as `nv` says. -/
def Pg.notValid (nv : Bool) : Pg.PStmt → Pg.PStmt
  | .alterTable ⟨c, n, .addConstraint k _⟩ => .alterTable ⟨c, n, .addConstraint k nv⟩
  | s => s

/-- The same statement, but if it adds a constraint, it does so with `NOT VALID` or without, as `nv` says. -/
def Crdb.notValid (nv : Bool) : Crdb.CStmt → Crdb.CStmt
  | .alterTable ⟨c, n, .addConstraint k _⟩ => .alterTable ⟨c, n, .addConstraint k nv⟩
  | s => s

/-- The same statement, but if it adds a constraint, it does so with `NOT VALID` or without, as `nv` says. -/
def My.notValid (nv : Bool) : My.MStmt → My.MStmt
  | .alterTable ⟨c, n, .addConstraint k _⟩ => .alterTable ⟨c, n, .addConstraint k nv⟩
  | s => s

/-- The same statement, but if it adds a constraint, it does so with `NOT VALID` or without, as `nv` says. -/
def Sp.notValid (nv : Bool) : Sp.SStmt → Sp.SStmt
  | .alterTable ⟨c, n, .addConstraint k _⟩ => .alterTable ⟨c, n, .addConstraint k nv⟩
  | s => s

end Ddl
