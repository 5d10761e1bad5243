import Verif.Spec.Annotation
import Verif.Spec.Gen

/-!
# What the extraction of annotations from Go files should find
-/

namespace Ddl.Spec
open Ddl Gen
set_option autoImplicit false

/-- The comment group has a line with the tag. -/
def Tagged (tag : Str) (g : List CommentLine) : Prop := ∃ c ∈ g, TagLine tag c.text

open scoped Classical in
/-- The comment groups with the tag, each with its node. -/
noncomputable def taggedGroups (tag : Str) (nodes : List Node) : List (Node × List CommentLine) :=
  (nodes.flatMap (fun n => n.groups.map (fun g => (n, g)))).filter (fun p => Tagged tag p.2)

/-- The source for a group: all comments of the group, the line of its first line with the tag, and the last type name and the
last struct of the node. -/
def SourceOf (tag path : Str) (p : Node × List CommentLine) (r : Source) : Prop :=
  r.file = path ∧ r.comments = p.2 ∧
  (∃ pre c post, p.2 = pre ++ c :: post ∧ TagLine tag c.text ∧ (∀ x ∈ pre, ¬ TagLine tag x.text) ∧ r.line = c.line) ∧
  r.typeName = (p.1.specs.map Prod.fst).getLast? ∧ r.fields = (p.1.specs.filterMap Prod.snd).getLast?

/-- No comment of the file has the tag. -/
def Unannotated (tag : Str) (f : GoFile) : Prop :=
  ∃ nodes, f.nodes = some nodes ∧ ∀ n ∈ nodes, ∀ g ∈ n.groups, ¬ Tagged tag g

/-- The files that are read: Go files that are no tests. -/
def Eligible (path : Str) : Prop := s%".go" <:+ path ∧ ¬ s%"_test.go" <:+ path

instance (path : Str) : Decidable (Eligible path) := by unfold Eligible; infer_instance

/-- The statements of a file that can be read. -/
def statementsOf (env : Env) (f : GoFile) : List Gen.Stmt :=
  match parseFile env f with
  | .ok l => l
  | _ => []

/-- What an entry of a directory adds. -/
def contribution (env : Env) : Entry → List Gen.Stmt
  | .file f => if Eligible f.path then statementsOf env f else []
  | _ => []

/-- Is the statement a table? -/
def isTable : Gen.Stmt → Bool
  | .table _ => true
  | .index _ => false

/-- The node has a struct, and its last struct has a field that becomes a column. -/
def HasColumns (tags : Field → List (Str × Str)) (env : Env) (n : Node) : Prop :=
  ∃ fs, (n.specs.filterMap Prod.snd).getLast? = some fs ∧ ∃ f ∈ fs, Included tags env f

instance (tags : Field → List (Str × Str)) (env : Env) (n : Node) : Decidable (HasColumns tags env n) :=
  match h : (n.specs.filterMap Prod.snd).getLast? with
  | none => .isFalse (by rintro ⟨fs, h', -⟩; rw [h] at h'; cases h')
  | some fs =>
    if hf : ∃ f ∈ fs, Included tags env f then .isTrue ⟨fs, h, hf⟩
    else .isFalse (by rintro ⟨fs', h', hx⟩; rw [h] at h'; cases h'; exact hf hx)

end Ddl.Spec
