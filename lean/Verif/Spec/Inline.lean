import Verif.Spec.Objects
import Verif.Crdb.Ast
import Verif.My.Ast

/-! # Specification: indexes declared inside CREATE TABLE statements (CockroachDB, MySQL) -/

namespace Ddl

/-- The names of the indexes declared inside a CockroachDB table definition. -/
def Crdb.inlineIndexes (t : Crdb.CreateTable) : List Str :=
  t.constraints.filterMap fun
    | .index n .. => some n.name
    | _ => none

/-- The names of the indexes declared inside a MySQL table definition, in the schema of the table. -/
def My.inlineIndexes (t : My.CreateTable) : List Str :=
  t.constraints.filterMap fun
    | .index n .. => some (ObjectName.mk t.name.schema n).diffStr
    | _ => none

end Ddl
