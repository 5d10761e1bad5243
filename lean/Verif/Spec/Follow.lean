import Verif.Basic

/-! # Specification: what reading two texts, one behind the other, gives -/

namespace Ddl.Spec
set_option autoImplicit false

/-- `r'` is the outcome `r`, with the values `A` in front: `r'` fails in the same way if `r` fails. -/
inductive Adds {S : Type} (A : List S) : Res (List S) → Res (List S) → Prop
  | ok (B : List S) : Adds A (.ok B) (.ok (A ++ B))
  | err (e : Err) : Adds A (.err e) (.err e)
  | panic (p : Panic) : Adds A (.panic p) (.panic p)

end Ddl.Spec
