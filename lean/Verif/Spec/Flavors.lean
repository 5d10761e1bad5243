import Mathlib.Data.List.Forall2
import Verif.Basic
import Verif.Generator

/-! # Specification vocabulary: texts that differ in the quotes only -/

namespace Ddl.Spec
set_option autoImplicit false

/-- The second text is the first one with some of the double quotes replaced by backquotes. -/
def SameButQuotes (x y : Str) : Prop := List.Forall₂ (fun c d => c = d ∨ (c = '"' ∧ d = '`')) x y

/-- Both fail in the same way, or both succeed with related results. -/
def SameTextResult (R : Str → Str → Prop) : Res Str → Res Str → Prop
  | .ok x, .ok y => R x y
  | .ok _, _ => False
  | _, .ok _ => False
  | r, r' => r = r'

/-- No table has a key that was declared with the tag for primary keys. -/
def NoKeys (d : Gen.DDL) : Prop := ∀ t, .table t ∈ d.stmts → t.primaryKey = []

end Ddl.Spec
