import Verif.Stmt
import Verif.Sp.Ast

/-! # What counts as an answer of a comparison (C66) -/

namespace Ddl.Spec

/-- An answer: some statements, or "no difference". Any other error, and a crash, is none. -/
inductive Answer {α : Type} : Res (List α) → Prop
  | same : Answer (.err .noDifference)
  | migration (l : List α) : l ≠ [] → Answer (.ok l)

/-- Every CHECK constraint of every table has a name. -/
def ChecksNamed (l : List Sp.SStmt) : Prop :=
  ∀ t, .createTable t ∈ l → ∀ n e, Sp.Constraint.check n e ∈ t.constraints → n ≠ none

/-- Two definitions that are compared part by part (the same options, different texts) and of which one has a CHECK without a
name. -/
def Crashing (b a : Sp.CreateTable) : Prop :=
  Sp.optionsDiffStr b.options = Sp.optionsDiffStr a.options ∧ b.str ≠ a.str ∧
    ∃ e, Sp.Constraint.check none e ∈ b.constraints ∨ Sp.Constraint.check none e ∈ a.constraints

end Ddl.Spec
