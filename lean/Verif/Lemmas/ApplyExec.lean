import Verif.Lemmas.ApplyDb
import Verif.Spec.Db
import Verif.Spec.Schema
import Verif.Spec.SchemaCrdb
import Verif.Spec.SchemaMy

/-!
# Lemmas: executing a statement has one result, which does not depend on the comment
-/

namespace Ddl
open Spec
set_option autoImplicit false

theorem only_one {S X : Type} {exec : S → X → S → Prop} {B A : S} {x : X} {d : Res (List X)}
    (h : (∃ l, d = .ok l ∧ Runs exec B l A) ∨ (d = .err .noDifference ∧ B = A)) (hd : d = .ok [x]) : exec B x A := by
  subst hd
  obtain ⟨l, e, h⟩ | ⟨e, _⟩ := h
  · cases e
    cases h with
    | cons h h' => cases h'; exact h
  · cases e

namespace Pg.Db

theorem exec_bare {d d' : Catalog} {s : PStmt} (h : Exec d s d') : Exec d (bare s) d' := by
  cases h with
  | createTable t h1 h2 h3 => exact Exec.createTable { t with comment := [] } h1 h2 h3
  | createTableExists t h1 h2 => exact Exec.createTableExists { t with comment := [] } h1 h2
  | createIndex i T h1 h2 h3 => exact Exec.createIndex { i with comment := [] } T h1 h2 h3
  | createIndexExists i h1 h2 => exact Exec.createIndexExists { i with comment := [] } h1 h2
  | dropTable cm ie n h1 h2 => exact .dropTable [] ie n h1 h2
  | dropTableMissing cm n h1 => exact .dropTableMissing [] n h1
  | dropIndex cm ie k h1 => exact .dropIndex [] ie k h1
  | dropIndexMissing cm k h1 => exact .dropIndexMissing [] k h1
  | alterTable cm n act T d' h1 h2 => exact .alterTable [] n act T d' h1 h2

theorem alter_functional {d d₁ d₂ : Catalog} {n : Str} {T : Tbl} {act : Action} (h₁ : Alter d n T act d₁) (h₂ : Alter d n T act d₂) : d₁ = d₂ := by
  cases h₁ <;> cases h₂ <;> simp_all

theorem exec_functional : Functional Exec := by
  intro d x d₁ d₂ h₁ h₂
  cases h₁ <;> cases h₂ <;> first
    | rfl
    | (simp_all; done)
    | skip
  rename_i a1 a2 _ b1 b2
  rw [a1] at b1
  cases b1
  exact alter_functional a2 b2

theorem execs_runs {d d' : Catalog} {l : List PStmt} (h : Execs d l d') : Runs Exec d l d' := by
  induction h with
  | nil => exact .nil _
  | cons a _ ih => exact .cons a ih

end Pg.Db

namespace Crdb.Run

theorem exec_bare {d d' : Db} {s : CStmt} (h : Exec d s d') : Exec d (bare s) d' := by
  cases h with
  | createTable t h1 h2 h3 h4 => exact Exec.createTable { t with comment := [] } h1 h2 h3 h4
  | createTableExists t h1 h2 => exact Exec.createTableExists { t with comment := [] } h1 h2
  | createIndex i T h1 h2 h3 => exact Exec.createIndex { i with comment := [] } T h1 h2 h3
  | createIndexExists i T h1 h2 h3 => exact Exec.createIndexExists { i with comment := [] } T h1 h2 h3
  | dropTable cm ie n h1 h2 => exact .dropTable [] ie n h1 h2
  | dropTableMissing cm n h1 => exact .dropTableMissing [] n h1
  | dropIndex cm ie k n T h1 h2 h3 => exact .dropIndex [] ie k n T h1 h2 h3
  | dropIndexMissing cm k h1 => exact .dropIndexMissing [] k h1
  | alterTable cm n act T T' h1 h2 h3 => exact .alterTable [] n act T T' h1 h2 h3

theorem alter_functional {T T₁ T₂ : Tbl} {act : Action} (h₁ : Alter T act T₁) (h₂ : Alter T act T₂) : T₁ = T₂ := by
  cases h₁ <;> cases h₂ <;> simp_all

theorem exec_functional : Functional Exec := by
  intro d x d₁ d₂ h₁ h₂
  cases h₁ with
  | createTable t a => cases h₂ with
    | createTable => rfl
    | createTableExists _ b => rw [a] at b; cases b
  | createTableExists t a => cases h₂ with
    | createTable _ b => rw [b] at a; cases a
    | createTableExists => rfl
  | createIndex i T a b => cases h₂ with
    | createIndex _ T' a' => rw [a] at a'; cases a'; rfl
    | createIndexExists _ T' a' b' =>
      rw [a] at a'
      cases a'
      obtain ⟨_, _, _, _, _, e⟩ := b'
      rw [b] at e
      cases e
  | createIndexExists i T a b => cases h₂ with
    | createIndex _ T' a' b' =>
      rw [a] at a'
      cases a'
      obtain ⟨_, _, _, _, _, e⟩ := b
      rw [b'] at e
      cases e
    | createIndexExists => rfl
  | dropTable cm ie n a => cases h₂ with
    | dropTable => rfl
    | dropTableMissing _ _ b => rw [b] at a; cases a
  | dropTableMissing cm n a => cases h₂ with
    | dropTable _ _ _ b => rw [a] at b; cases b
    | dropTableMissing => rfl
  | dropIndex cm ie k n T a b c => cases h₂ with
    | dropIndex _ _ _ n' T' a' b' c' =>
      cases c' n T a b
      rw [a] at a'
      cases a'
      rfl
    | dropIndexMissing _ _ b' => exact absurd b (b' n T a)
  | dropIndexMissing cm k a => cases h₂ with
    | dropIndex _ _ _ n' T' a' b' => exact absurd b' (a n' T' a')
    | dropIndexMissing => rfl
  | alterTable cm n act T T' a b c => cases h₂ with
    | alterTable _ _ _ T₂ T₂' a' b' c' =>
      rw [a] at a'
      cases a'
      rw [alter_functional c c']

/-- An index cannot be created twice. -/
theorem createIndex_twice {d d' d'' : Db} {i : CreateIndex} (hie : i.ifNotExists = false) (h : Exec d (.createIndex i) d') :
    ¬ Exec d' (.createIndex i) d'' := by
  cases h with
  | createIndex _ T h1 h2 h3 =>
    intro h
    generalize hg : upd d i.tableName.diffStr (some { T with cons := upd T.cons i.name.name (some ⟨indexOf i, true⟩) }) = y at h
    cases h with
    | createIndex _ T' a b =>
      rw [← hg, upd, if_pos rfl] at a
      cases a
      simp [upd] at b
    | createIndexExists _ _ _ _ e => rw [hie] at e; cases e
  | createIndexExists _ _ _ _ e => rw [hie] at e; cases e

/-- A column cannot be added twice, even if an index was created in between. -/
theorem addColumn_twice {d d' d'' d₃ : Db} {i : CreateIndex} {c : Column} {cm cm' : Str} {n : ObjectName} (hie : i.ifNotExists = false)
    (hn : i.tableName.diffStr = n.diffStr) (h : Exec d (.alterTable ⟨cm, n, .addColumn c⟩) d') (h' : Exec d' (.createIndex i) d'') :
    ¬ Exec d'' (.alterTable ⟨cm', n, .addColumn c⟩) d₃ := by
  intro h''
  cases h with
  | alterTable _ _ _ T T₁ a b e =>
    cases e with
    | addColumn _ f =>
      generalize hg : upd d n.diffStr (some { T with cols := upd T.cols c.name.name (some (colOf c)) }) = y at h'
      cases h' with
      | createIndex _ T₂ a₂ b₂ =>
        rw [← hg, hn, upd, if_pos rfl] at a₂
        cases a₂
        generalize hg₂ : upd y i.tableName.diffStr _ = z at h''
        cases h'' with
        | alterTable _ _ _ T₃ T₃' a₃ b₃ e₃ =>
          rw [← hg₂, hn, upd, if_pos rfl] at a₃
          cases a₃
          cases e₃ with
          | addColumn _ f₃ => simp [upd] at f₃
      | createIndexExists _ _ _ _ e => rw [hie] at e; cases e

end Crdb.Run

namespace My.Run

theorem exec_bare {d d' : Db} {s : MStmt} (h : Exec d s d') : Exec d (bare s) d' := by
  cases h with
  | createTable t h1 h2 h3 h4 => exact Exec.createTable { t with comment := [] } h1 h2 h3 h4
  | createTableExists t h1 h2 => exact Exec.createTableExists { t with comment := [] } h1 h2
  | createIndex i T h0 h0' h1 h2 h3 => exact Exec.createIndex { i with comment := [] } T h0 h0' h1 h2 h3
  | dropTable cm ie n h1 h2 => exact .dropTable [] ie n h1 h2
  | dropTableMissing cm n h1 => exact .dropTableMissing [] n h1
  | alterTable cm n act T T' h1 h2 h3 => exact .alterTable [] n act T T' h1 h2 h3

theorem alter_functional {T T₁ T₂ : Tbl} {act : Action} (h₁ : Alter T act T₁) (h₂ : Alter T act T₂) : T₁ = T₂ := by
  cases h₁ <;> cases h₂ <;> simp_all

theorem exec_functional : Functional Exec := by
  intro d x d₁ d₂ h₁ h₂
  cases h₁ with
  | createTable t a => cases h₂ with
    | createTable => rfl
    | createTableExists _ b => rw [a] at b; cases b
  | createTableExists t a => cases h₂ with
    | createTable _ b => rw [b] at a; cases a
    | createTableExists => rfl
  | createIndex i T _ _ a b => cases h₂ with
    | createIndex _ T' _ _ a' => rw [a] at a'; cases a'; rfl
  | dropTable cm ie n a => cases h₂ with
    | dropTable => rfl
    | dropTableMissing _ _ b => rw [b] at a; cases a
  | dropTableMissing cm n a => cases h₂ with
    | dropTable _ _ _ b => rw [a] at b; cases b
    | dropTableMissing => rfl
  | alterTable cm n act T T' a b c => cases h₂ with
    | alterTable _ _ _ T₂ T₂' a' b' c' =>
      rw [a] at a'
      cases a'
      rw [alter_functional c c']

/-- An index cannot be created twice. -/
theorem createIndex_twice {d d' d'' : Db} {i : CreateIndex} (h : Exec d (.createIndex i) d') :
    ¬ Exec d' (.createIndex i) d'' := by
  cases h with
  | createIndex _ T h0 h0' h1 h2 h3 =>
    intro h
    generalize hg : upd d i.tableName.diffStr (some { T with cons := upd T.cons i.name.name.name (some ⟨indexOf i, true⟩) }) = y at h
    cases h with
    | createIndex _ T' _ _ a b =>
      rw [← hg, upd, if_pos rfl] at a
      cases a
      simp [upd] at b

/-- A column cannot be added twice, even if an index was created in between. -/
theorem addColumn_twice {d d' d'' d₃ : Db} {i : CreateIndex} {c : Column} {cm cm' : Str} {n : ObjectName}
    (hn : i.tableName.diffStr = n.diffStr) (h : Exec d (.alterTable ⟨cm, n, .addColumn c⟩) d') (h' : Exec d' (.createIndex i) d'') :
    ¬ Exec d'' (.alterTable ⟨cm', n, .addColumn c⟩) d₃ := by
  intro h''
  cases h with
  | alterTable _ _ _ T T₁ a b e =>
    cases e with
    | addColumn _ f =>
      generalize hg : upd d n.diffStr (some { T with cols := upd T.cols c.name.name (some (colOf c)) }) = y at h'
      cases h' with
      | createIndex _ T₂ _ _ a₂ b₂ =>
        rw [← hg, hn, upd, if_pos rfl] at a₂
        cases a₂
        generalize hg₂ : upd y i.tableName.diffStr _ = z at h''
        cases h'' with
        | alterTable _ _ _ T₃ T₃' a₃ b₃ e₃ =>
          rw [← hg₂, hn, upd, if_pos rfl] at a₃
          cases a₃
          cases e₃ with
          | addColumn _ f₃ => simp [upd] at f₃

end My.Run

namespace Sp.Run

theorem exec_bare {d d' : Db} {s : SStmt} (h : Exec d s d') : Exec d (bare s) d' := by
  cases h with
  | createTable t h1 h2 h3 h4 => exact Exec.createTable { t with comment := [] } h1 h2 h3 h4
  | createTableExists t h1 h2 => exact Exec.createTableExists { t with comment := [] } h1 h2
  | createIndex i T h1 h2 h3 => exact Exec.createIndex { i with comment := [] } T h1 h2 h3
  | createIndexExists i h1 h2 => exact Exec.createIndexExists { i with comment := [] } h1 h2
  | dropTable cm ie n h1 h2 h3 => exact .dropTable [] ie n h1 h2 h3
  | dropTableMissing cm n h1 => exact .dropTableMissing [] n h1
  | dropIndex cm ie k h1 => exact .dropIndex [] ie k h1
  | dropIndexMissing cm k h1 => exact .dropIndexMissing [] k h1
  | alterTable cm n act T T' h1 h2 h3 => exact .alterTable [] n act T T' h1 h2 h3

theorem named_functional {c : Constraint} {k k' : Str} (h : c.Named k) (h' : c.Named k') : k = k' := by
  unfold Constraint.Named at h h'
  simp_all

theorem alter_functional {T T₁ T₂ : Tbl} {act : Action} (h₁ : Alter T act T₁) (h₂ : Alter T act T₂) : T₁ = T₂ := by
  cases h₁ with
  | addConstraint c k nv a => cases h₂ with
    | addConstraint _ k' _ a' => cases named_functional a a'; rfl
  | _ => cases h₂ <;> simp_all

theorem exec_functional : Functional Exec := by
  intro d x d₁ d₂ h₁ h₂
  cases h₁ with
  | createTable t a => cases h₂ with
    | createTable => rfl
    | createTableExists _ b => rw [a] at b; cases b
  | createTableExists t a => cases h₂ with
    | createTable _ b => rw [b] at a; cases a
    | createTableExists => rfl
  | createIndex i T a => cases h₂ with
    | createIndex => rfl
    | createIndexExists _ b => rw [a] at b; cases b
  | createIndexExists i a => cases h₂ with
    | createIndex _ _ b => rw [b] at a; cases a
    | createIndexExists => rfl
  | dropTable cm ie n a => cases h₂ with
    | dropTable => rfl
    | dropTableMissing _ _ b => rw [b] at a; cases a
  | dropTableMissing cm n a => cases h₂ with
    | dropTable _ _ _ b => rw [a] at b; cases b
    | dropTableMissing => rfl
  | dropIndex cm ie n a => cases h₂ with
    | dropIndex => rfl
    | dropIndexMissing _ _ b => rw [b] at a; cases a
  | dropIndexMissing cm n a => cases h₂ with
    | dropIndex _ _ _ b => rw [a] at b; cases b
    | dropIndexMissing => rfl
  | alterTable cm n act T T' a b c => cases h₂ with
    | alterTable _ _ _ T₂ T₂' a' b' c' =>
      rw [a] at a'
      cases a'
      rw [alter_functional c c']

end Sp.Run

end Ddl
