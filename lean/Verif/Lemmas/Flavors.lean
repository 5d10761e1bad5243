import Verif.Spec.Flavors
import Verif.Cmd

/-! # The flavors of the generated DDL -/

namespace Ddl.Gen
open Spec
set_option autoImplicit false

theorem sbq_refl (x : Str) : SameButQuotes x x := by
  induction x with
  | nil => exact .nil
  | cons c x ih => exact .cons (.inl rfl) ih

theorem sbq_append {x y x' y' : Str} (h : SameButQuotes x y) (h' : SameButQuotes x' y') : SameButQuotes (x ++ x') (y ++ y') := by
  induction h with
  | nil => exact h'
  | cons hc _ ih => exact .cons hc ih

theorem sbq_flatten {α : Type} {f g : α → Str} {l : List α} (h : ∀ x ∈ l, SameButQuotes (f x) (g x)) :
    SameButQuotes (l.map f).flatten (l.map g).flatten := by
  induction l with
  | nil => exact .nil
  | cons x l ih => exact sbq_append (h x (by simp)) (ih fun y hy => h y (by simp [hy]))

theorem quoted_sbq (n : Str) : SameButQuotes (quoted .postgres n) (quoted .mysql n) :=
  sbq_append (sbq_append (.cons (.inr ⟨rfl, rfl⟩) .nil) (sbq_refl n)) (.cons (.inr ⟨rfl, rfl⟩) .nil)

theorem runeCount_quoted (n : Str) : runeCount (quoted .postgres n) = runeCount (quoted .mysql n) := by
  simp only [runeCount, quoted, List.countP_append]
  rfl

theorem columnsLoop_sbq (indent : Str) (w : Nat) (tc : Bool) (l : List Column) :
    SameButQuotes (fprintColumnsLoop .postgres indent w tc l) (fprintColumnsLoop .mysql indent w tc l) := by
  induction l with
  | nil => exact .nil
  | cons c l ih =>
    unfold fprintColumnsLoop
    refine sbq_append (sbq_append (sbq_append (sbq_refl _) (sbq_append (sbq_append (sbq_append (sbq_refl _) ?_) (sbq_refl _)) (sbq_refl _))) (sbq_refl _)) ih
    unfold padRight
    rw [runeCount_quoted]
    exact sbq_append (quoted_sbq _) (sbq_refl _)

theorem keyColumns_sbq (l : List Str) : SameButQuotes (fprintKeyColumns .postgres l) (fprintKeyColumns .mysql l) := by
  induction l with
  | nil => exact .nil
  | cons k l ih =>
    unfold fprintKeyColumns
    exact sbq_append (sbq_append (quoted_sbq k) (sbq_refl _)) ih

theorem table_sbq (short : Str → Str) (indent : Str) (t : Table) :
    SameButQuotes (fprintTable short .postgres indent t) (fprintTable short .mysql indent t) := by
  unfold fprintTable
  refine sbq_append (sbq_refl _) ?_
  split
  · exact .nil
  · refine sbq_append (sbq_append (sbq_append (sbq_append (sbq_append (sbq_append (sbq_refl _) (columnsLoop_sbq _ _ _ _)) ?_) (sbq_refl _)) (sbq_refl _)) (sbq_refl _)) (sbq_refl _)
    split
    · exact .nil
    · exact sbq_append (sbq_append (sbq_append (sbq_append (sbq_refl _) (keyColumns_sbq _)) (sbq_refl _)) (sbq_refl _)) (sbq_refl _)

theorem fprint_sbq (short : Str → Str) (d : DDL) : SameButQuotes (fprint short .postgres d) (fprint short .mysql d) := by
  refine sbq_append (sbq_refl _) (sbq_flatten fun s _ => ?_)
  cases s with
  | table t => exact sbq_append (sbq_refl _) (table_sbq short d.indent t)
  | index i => exact sbq_refl _

theorem columnsLoop_spanner (indent : Str) (w : Nat) (tc : Bool) (l : List Column) :
    fprintColumnsLoop .spanner indent w tc l = fprintColumnsLoop .mysql indent w tc l := by
  induction l with
  | nil => rfl
  | cons c l ih =>
    unfold fprintColumnsLoop
    rw [ih]
    rfl

theorem fprint_spanner (short : Str → Str) {d : DDL} (h : NoKeys d) : fprint short .spanner d = fprint short .mysql d := by
  unfold fprint
  congr 2
  refine List.map_congr_left fun s hs => ?_
  cases s with
  | table t => simp [fprintStmt, fprintTable, h t hs, fprintColumns, columnsLoop_spanner]
  | index i => rfl

end Ddl.Gen
