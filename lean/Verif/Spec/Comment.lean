import Verif.Pg.Diff
import Verif.Crdb.Diff
import Verif.My.Diff
import Verif.Sp.Diff

/-!
# The comment of a statement
-/

namespace Ddl.Spec

/-- Statements that carry a comment. -/
class HasComment (α : Type) where
  comment : α → Str
  /-- the same statement without comment -/
  bare : α → α

instance : HasComment Pg.CreateTable := ⟨(·.comment), fun t => { t with comment := [] }⟩
instance : HasComment Pg.CreateIndex := ⟨(·.comment), fun t => { t with comment := [] }⟩
instance : HasComment Pg.AlterTable := ⟨(·.comment), fun t => { t with comment := [] }⟩
instance : HasComment Crdb.CreateTable := ⟨(·.comment), fun t => { t with comment := [] }⟩
instance : HasComment Crdb.CreateIndex := ⟨(·.comment), fun t => { t with comment := [] }⟩
instance : HasComment Crdb.AlterTable := ⟨(·.comment), fun t => { t with comment := [] }⟩
instance : HasComment My.CreateTable := ⟨(·.comment), fun t => { t with comment := [] }⟩
instance : HasComment My.CreateIndex := ⟨(·.comment), fun t => { t with comment := [] }⟩
instance : HasComment My.AlterTable := ⟨(·.comment), fun t => { t with comment := [] }⟩
instance : HasComment Sp.CreateTable := ⟨(·.comment), fun t => { t with comment := [] }⟩
instance : HasComment Sp.CreateIndex := ⟨(·.comment), fun t => { t with comment := [] }⟩
instance : HasComment Sp.AlterTable := ⟨(·.comment), fun t => { t with comment := [] }⟩

section
variable {T I A N : Type} [HasComment T] [HasComment I] [HasComment A]

/-- The comment of a statement. -/
def commentOf : Stmt T I A N → Str
  | .createTable t => HasComment.comment t
  | .createIndex i => HasComment.comment i
  | .alterTable a => HasComment.comment a
  | .dropTable c _ _ => c
  | .dropIndex c _ _ => c

/-- The statement without its comment. -/
def bare : Stmt T I A N → Stmt T I A N
  | .createTable t => .createTable (HasComment.bare t)
  | .createIndex i => .createIndex (HasComment.bare i)
  | .alterTable a => .alterTable (HasComment.bare a)
  | .dropTable _ ie n => .dropTable [] ie n
  | .dropIndex _ ie n => .dropIndex [] ie n

end

end Ddl.Spec
