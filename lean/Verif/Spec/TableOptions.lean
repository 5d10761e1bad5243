import Verif.Spec.Steps

/-!
# Specification: options of Spanner tables
-/

namespace Ddl
set_option autoImplicit false

/-- Table options with words in which, without quotes, there is no blank, and a comma only if it is the whole word.  The action behind a
parent counts as one word and is left out. -/
def Sp.ClearOptions (l : List Sp.TableOption) : Prop :=
  ∀ o ∈ l, o.value ≠ [] ∧ ∀ i ∈ (if o.name = s%"INTERLEAVE IN PARENT" then o.value.take 1 else o.value),
    i.name ≠ [] ∧ ' ' ∉ i.name ∧ (',' ∈ i.name → i.name = s%",")

end Ddl
