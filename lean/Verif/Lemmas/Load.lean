import Verif.Spec.Load
import Verif.Lemmas.Cmd
import Verif.Lemmas.Main

/-! # The options of the commands -/

namespace Ddl.Load
open Ddl Spec Cmd Main Apply
set_option autoImplicit false

theorem takes {α : Type} (arg env : Option α) (d : α) : Takes arg env d ((arg.or env).getD d) := by
  cases arg with
  | some v => exact .arg v rfl
  | none => cases env with
    | some v => exact .env v rfl rfl
    | none => exact .dflt rfl rfl

theorem takes_true {arg env : Option Bool} {v : Bool} (h : Takes arg env false v) (hv : v = true) :
    arg = some true ∨ arg = none ∧ env = some true := by
  cases h with
  | arg _ h => exact .inl (hv ▸ h)
  | env _ h h' => exact .inr ⟨h, hv ▸ h'⟩
  | dflt => cases hv

theorem takes_none {α : Type} {arg env : Option α} {d v : α} (h : Takes arg env d v) (ha : arg = none) (he : env = none) : v = d := by
  cases h with
  | arg _ h => rw [ha] at h; cases h
  | env _ h h' => rw [he] at h'; cases h'
  | dflt => rfl

theorem diffSources_unsupported {w : World} (hw : Honest w) {d lang l r : Str} (h : d ∉ dialects) :
    (∀ t, diffSources w d lang l r ≠ .ok t) ∧ diffSources w d lang l r ≠ .err .noDifference := by
  have hd : dialectErr d ≠ .noDifference := by unfold dialectErr; split <;> simp
  unfold diffSources
  cases h1 : resolve w lang d l with
  | ok a =>
    cases h2 : resolve w lang d r with
    | ok b => simp [diffText_unsupported h, hd]
    | err e =>
      have := resolve_ne hw lang d r
      rw [h2] at this
      exact ⟨fun t ht => (by cases ht), this⟩
    | panic p => exact ⟨fun t ht => (by cases ht), fun ht => (by cases ht)⟩
    | outOfFuel => exact ⟨fun t ht => (by cases ht), fun ht => (by cases ht)⟩
  | err e =>
    have := resolve_ne hw lang d l
    rw [h1] at this
    exact ⟨fun t ht => (by cases ht), this⟩
  | panic p => exact ⟨fun t ht => (by cases ht), fun ht => (by cases ht)⟩
  | outOfFuel => exact ⟨fun t ht => (by cases ht), fun ht => (by cases ht)⟩

theorem apply_unsupported {w : Site} (hw : Honest w.toWorld) {c : Conf.Config} {args : List Str} {stdin : Str} (h : c.dialect ∉ dialects) :
    (applyCommand w (.ok c) args stdin).1 = [] ∧ (applyCommand w (.ok c) args stdin).2 ≠ .ok () := by
  match args with
  | [] => exact ⟨rfl, fun h => by cases h⟩
  | [_] => exact ⟨rfl, fun h => by cases h⟩
  | _ :: _ :: _ :: _ => exact ⟨rfl, fun h => by cases h⟩
  | [l, r] =>
    obtain ⟨h1, h2⟩ := diffSources_unsupported hw (lang := c.language) (l := l) (r := r) h
    simp only [applyCommand]
    cases e : diffSources w.toWorld c.dialect c.language l r with
    | ok t => exact absurd e (h1 t)
    | err x =>
      rw [e] at h2
      cases x with
      | noDifference => exact absurd rfl h2
      | _ => exact ⟨rfl, fun h => by cases h⟩
    | panic p => exact ⟨rfl, fun h => by cases h⟩
    | outOfFuel => exact ⟨rfl, fun h => by cases h⟩

theorem diff_unsupported {w : World} (hw : Honest w) {c : Conf.Config} {args : List Str} (h : c.dialect ∉ dialects) :
    (diffCommand w (.ok c) args).writes = [] ∧ (diffCommand w (.ok c) args).result ≠ .ok () := by
  match args with
  | [] => exact ⟨rfl, fun h => by cases h⟩
  | [_] => exact ⟨rfl, fun h => by cases h⟩
  | _ :: _ :: _ :: _ => exact ⟨rfl, fun h => by cases h⟩
  | [l, r] =>
    obtain ⟨h1, h2⟩ := diffSources_unsupported hw (lang := c.language) (l := l) (r := r) h
    simp only [diffCommand, diffRun]
    cases e : diffSources w c.dialect c.language l r with
    | ok t => exact absurd e (h1 t)
    | err x =>
      rw [e] at h2
      cases x with
      | noDifference => exact absurd rfl h2
      | _ => exact ⟨rfl, fun h => by cases h⟩
    | panic p => exact ⟨rfl, fun h => by cases h⟩
    | outOfFuel => exact ⟨rfl, fun h => by cases h⟩

end Ddl.Load
