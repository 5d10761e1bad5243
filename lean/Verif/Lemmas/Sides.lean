import Verif.Spec.Sides
import Verif.Lemmas.NoDiff

/-! # No difference, seen from both sides -/

namespace Ddl
open Spec
set_option autoImplicit false

/-- Two lists matched by looking up the keys are matched the other way round. -/
theorem find_swap {α : Type} {f : α → Str} {P Q : α → α → Prop} {l l' : List α} (hd : (l'.map f).Nodup)
    (h1 : ∀ x ∈ l, ∃ x', l'.find? (fun c => f c == f x) = some x' ∧ P x x')
    (h2 : ∀ x' ∈ l', (l.find? (fun c => f c == f x')).isSome)
    (hPQ : ∀ x ∈ l, ∀ x' ∈ l', P x x' → Q x' x) :
    (∀ x' ∈ l', ∃ x, l.find? (fun c => f c == f x') = some x ∧ Q x' x) ∧
      ∀ x ∈ l, (l'.find? (fun c => f c == f x)).isSome := by
  refine ⟨fun x' hx' => ?_, fun x hx => ?_⟩
  · obtain ⟨x, hf⟩ := Option.isSome_iff_exists.1 (h2 x' hx')
    have hm := List.mem_of_find?_eq_some hf
    have hk := List.find?_some hf
    simp only [beq_iff_eq] at hk
    obtain ⟨y, hy, p⟩ := h1 x hm
    rw [hk, find?_of_nodup hd hx'] at hy
    cases hy
    exact ⟨x, hf, hPQ x hm x' hx' p⟩
  · obtain ⟨y, hy, -⟩ := h1 x hx
    rw [hy]
    rfl

section
variable {T I A N : Type} {o : Ops T I A N}

/-- No difference between schemas the other way round, from the same for tables. -/
theorem noDiff_swap {b a : List (Stmt T I A N)} (cb : CreateOnly o b) (ca : CreateOnly o a) (db : DistinctObjects o b)
    (da : DistinctObjects o a) (hr : ∀ t, o.diffTable t t = .err .noDifference) (hne : ∀ t t', o.diffTable t t' ≠ .ok [])
    (hT : ∀ t t', .createTable t ∈ b → .createTable t' ∈ a → (o.tableName t).diffStr = (o.tableName t').diffStr →
      o.diffTable t t' = .err .noDifference → o.diffTable t' t = .err .noDifference)
    (h : diff o (some b) (some a) = .err .noDifference) : diff o (some a) (some b) = .err .noDifference := by
  by_cases e : ddlStr o b = ddlStr o a
  · simp [diff, e]
  · have hs := noDiff_of (sameT := fun t t' => (o.tableName t).diffStr = (o.tableName t').diffStr ∧ o.diffTable t' t = .err .noDifference)
      (sameI := fun i i' => o.nDiffStr (o.indexName i) = o.nDiffStr (o.indexName i') ∧ o.indexDiffStr i = o.indexDiffStr i')
      cb ca da (fun h => absurd h e) (fun t _ => ⟨rfl, hr t⟩) (fun i => ⟨rfl, rfl⟩)
      (fun t t' ht ht' hn hd => ⟨hn, hT t t' ht ht' hn hd⟩) hne (fun i i' _ _ hn hd => ⟨hn, hd⟩) h
    refine noDiff_to (sameT := fun t t' => (o.tableName t).diffStr = (o.tableName t').diffStr ∧ o.diffTable t t' = .err .noDifference)
      (sameI := fun i i' => o.nDiffStr (o.indexName i) = o.nDiffStr (o.indexName i') ∧ o.indexDiffStr i = o.indexDiffStr i')
      db (fun _ _ h => h.1) (fun _ _ h => h.1) (fun _ _ _ _ h => h.2) (fun _ _ _ _ h => h.2) ?_
    refine ⟨fun x hx => ?_, fun x hx => ?_⟩
    · obtain ⟨y, hy, r⟩ := hs.2 x hx
      refine ⟨y, hy, ?_⟩
      cases r with
      | table r => exact .table ⟨r.1.symm, r.2⟩
      | index r => exact .index ⟨r.1.symm, r.2.symm⟩
    · obtain ⟨y, hy, r⟩ := hs.1 x hx
      refine ⟨y, hy, ?_⟩
      cases r with
      | table r => exact .table ⟨r.1.symm, r.2⟩
      | index r => exact .index ⟨r.1.symm, r.2.symm⟩

end

/-- The comparison of default values. -/
theorem default_swap {D : Type} {f : Option D → Str} {b a : Option D} (vb : ∀ d, b = some d → f b ≠ f none)
    (va : ∀ d, a = some d → f a ≠ f none) :
    (¬ (b.isSome ∧ a.isNone) ∧ ¬ (a.isSome ∧ f b ≠ f a)) ↔ f b = f a := by
  cases b with
  | none =>
    cases a with
    | none => simp
    | some d => simp
  | some d =>
    cases a with
    | none => simpa using vb d rfl
    | some d' => simp

end Ddl
