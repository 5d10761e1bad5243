import Verif.Spec.Parts

/-! # Specification: schemas with their definitions in another order -/

namespace Ddl.Spec
set_option autoImplicit false

/-- However the definitions of both schemas are ordered, the migration has the same statements. -/
def AnyOrder {T I A N : Type} (o : Ops T I A N) (b b' a a' : List (Stmt T I A N)) : Prop :=
  ∀ m, Changes o b a m → ∃ m', Changes o b' a' m' ∧ m.Perm m'

end Ddl.Spec
