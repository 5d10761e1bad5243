import Verif.Spec.ShowRun
import Verif.Lemmas.Cmd

/-!
# Lemmas on runs of `show`
-/

namespace Ddl
open Spec Cmd
set_option autoImplicit false

/-- A text that can be read does not differ from itself. -/
theorem diffed_self {sd : Str → Str → Str} {d t : Str} {r : Res Str} (h : Diffed sd d t t r) : Diffed sd d t t (.err .noDifference) := by
  cases h with
  | pg _ _ b a h1 h2 => simpa [diff] using Diffed.pg (sd := sd) _ _ b b h1 h1
  | crdb _ _ b a h1 h2 => simpa [diff] using Diffed.crdb (sd := sd) _ _ b b h1 h1
  | my _ _ b a h1 h2 => simpa [diff] using Diffed.my (sd := sd) _ _ b b h1 h1
  | sp _ _ b a h1 h2 => simpa [diff] using Diffed.sp (sd := sd) _ _ b b h1 h1

theorem driver_iff {d x : Str} : (d, x) ∈ drivers ↔ d ∈ dialects ∧ x = driverName d := by
  simp only [drivers, dialects, List.mem_cons, Prod.mk.injEq, List.not_mem_nil, or_false]
  constructor
  · rintro (⟨rfl, rfl⟩ | ⟨rfl, rfl⟩ | ⟨rfl, rfl⟩ | ⟨rfl, rfl⟩) <;> decide
  · rintro ⟨rfl | rfl | rfl | rfl, rfl⟩ <;> decide

theorem showDb_ok {w : World} {d dsn t : Str} : showDb w d dsn = .ok t ↔ DbShows w d dsn t := by
  by_cases hd : d ∈ dialects
  · have hs : showSwitch w d dsn = w.showTables d dsn := by
      unfold showSwitch
      rw [if_pos]
      simp only [dialects, List.mem_cons, List.not_mem_nil, or_false] at hd
      rcases hd with rfl | rfl | rfl | rfl <;> decide
    have : DbShows w d dsn t ↔ w.openDb (driverName d) dsn = none ∧ w.showTables d dsn = .ok t ∧ w.closeDb dsn = none := by
      simp only [DbShows, driver_iff]
      constructor
      · rintro ⟨x, ⟨-, rfl⟩, h⟩; exact h
      · intro h; exact ⟨_, ⟨hd, rfl⟩, h⟩
    rw [this, showDb, hs]
    cases w.openDb (driverName d) dsn with
    | some e => simp
    | none =>
      cases w.showTables d dsn with
      | ok x => cases w.closeDb dsn <;> simp
      | _ => simp
  · have h1 : ¬ DbShows w d dsn t := by
      rintro ⟨x, hx, -⟩
      exact hd (driver_iff.1 hx).1
    refine ⟨fun h => ?_, fun h => absurd h h1⟩
    rw [showDb, showSwitch_unsupported hd] at h
    split at h <;> simp at h

end Ddl
