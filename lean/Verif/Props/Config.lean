import Verif.Config

/-!
# Properties of the configuration cell: C29
-/

namespace Ddl.Props
open Ddl Conf
set_option autoImplicit false

/-- Properly nested calls, the next closure to be handed out having number `n` before and `m` after: every successful load
is undone by its own rollback after everything loaded in between was undone. -/
inductive Nested : Nat → List Op → Nat → Prop
  | nil (n : Nat) : Nested n [] n
  | failed (r : Res Config) (n m : Nat) (rest : List Op) : r.isOk = false → Nested n rest m → Nested n (.load r :: rest) m
  | pair (cfg : Config) (n k m : Nat) (inner rest : List Op) : Nested (n + 1) inner k → Nested k rest m →
      Nested n (.load (.ok cfg) :: inner ++ .rollback n :: rest) m

/-- C29: a load that fails changes nothing and hands out no closure. -/
theorem C29_failed_load (r : Res Config) (s : State) (h : r.isOk = false) : load r s = (s, none) := by
  cases r <;> first | rfl | simp [Res.isOk] at h

/-- C29: a load that succeeds sets the configuration; its closure restores the configuration before that load. -/
theorem C29_rollback (cfg : Config) (s : State) :
    (load (.ok cfg) s).1.global = some cfg ∧
    ∃ k, (load (.ok cfg) s).2 = some k ∧ (rollback k (load (.ok cfg) s).1).global = s.global := by
  refine ⟨rfl, s.backups.length, rfl, ?_⟩
  simp [rollback, load]

/-- A closure always restores the configuration from before its load, however many calls are made in between. -/
theorem C29_rollback_later (cfg : Config) (s : State) (ops : List Op) :
    (rollback s.backups.length (run (load (.ok cfg) s).1 ops)).global = s.global := by
  suffices h : ∀ (ops : List Op) (t : State), t.backups[s.backups.length]? = some s.global →
      (run t ops).backups[s.backups.length]? = some s.global by
    have := h ops (load (.ok cfg) s).1 (by simp [load])
    simp [rollback, this]
  intro ops
  induction ops with
  | nil => intro t h; exact h
  | cons o r ih =>
    intro t h
    refine ih _ ?_
    cases o with
    | load x =>
      cases x <;> try exact h
      simp only [step, load]
      rw [List.getElem?_append_left]
      · exact h
      · exact (List.getElem?_eq_some_iff.1 h).1
    | rollback k =>
      simp only [step, rollback]
      split <;> exact h

/-- C29: properly nested loads and rollbacks leave the configuration as it was before the first of them. -/
theorem C29_nested (s : State) (ops : List Op) (m : Nat) (h : Nested s.backups.length ops m) :
    (run s ops).global = s.global ∧ (run s ops).backups.length = m := by
  suffices H : ∀ (n : Nat) (ops : List Op) (m : Nat), Nested n ops m → ∀ t : State, t.backups.length = n →
      (run t ops).global = t.global ∧ (run t ops).backups.length = m ∧
      ∀ k, k < n → (run t ops).backups[k]? = t.backups[k]? from
    ⟨(H _ ops m h s rfl).1, (H _ ops m h s rfl).2.1⟩
  intro n ops m h
  induction h with
  | nil n => intro t ht; exact ⟨rfl, ht, fun _ _ => rfl⟩
  | failed r n m rest hr _ ih =>
    intro t ht
    have e : run t (.load r :: rest) = run t rest := by
      show run (step t (.load r)) rest = _
      simp only [step, C29_failed_load r t hr]
    rw [e]
    exact ih t ht
  | pair cfg n k m inner rest _ _ ih1 ih2 =>
    intro t ht
    have h1 := ih1 (load (.ok cfg) t).1 (by simp [load, ht])
    have e : run t (.load (.ok cfg) :: inner ++ .rollback n :: rest) =
        run (rollback n (run (load (.ok cfg) t).1 inner)) rest := by
      simp only [run, List.cons_append, List.foldl_cons, List.foldl_append, step]
    have hb : (run (load (.ok cfg) t).1 inner).backups[n]? = some t.global := by
      rw [h1.2.2 n (by omega)]
      simp [load, ← ht]
    have hr : rollback n (run (load (.ok cfg) t).1 inner) =
        { run (load (.ok cfg) t).1 inner with global := t.global } := by
      simp [rollback, hb]
    rw [e, hr]
    have h2 := ih2 { run (load (.ok cfg) t).1 inner with global := t.global } h1.2.1
    refine ⟨h2.1, h2.2.1, ?_⟩
    intro j hj
    have hjk : j < k := by
      have : k = (run (load (.ok cfg) t).1 inner).backups.length := h1.2.1.symm
      have hn : ∀ (a : Nat) (l : List Op) (b : Nat), Nested a l b → a ≤ b := by
        intro a l b hab
        induction hab with
        | nil => exact Nat.le_refl _
        | failed _ _ _ _ _ _ ih => exact ih
        | pair _ _ _ _ _ _ _ _ ih1 ih2 => omega
      have := hn _ _ _ (by assumption : Nested (n + 1) inner k)
      omega
    rw [h2.2.2 j hjk]
    show (run (load (.ok cfg) t).1 inner).backups[j]? = _
    rw [h1.2.2 j (by omega)]
    simp only [load]
    rw [List.getElem?_append_left (by omega)]

private def cfg (n : Str) : Config := ⟨false, false, false, s%"go", n, false, s%"db", s%"ddl", s%"pk"⟩

/-- Two loads, one inside the other with a failure in between, then two rollbacks in the opposite order, then another pair. -/
example : Nested 0 [.load (.ok (cfg s%"a")), .load (.err .notSupported), .load (.ok (cfg s%"b")), .rollback 1, .rollback 0,
    .load (.ok (cfg s%"c")), .rollback 2] 3 :=
  .pair _ 0 2 3 [.load (.err .notSupported), .load (.ok (cfg s%"b")), .rollback 1] _
    (.failed _ _ _ _ rfl (.pair _ 1 2 2 [] [] (.nil _) (.nil _))) (.pair _ 2 3 3 [] [] (.nil _) (.nil _))

/-- The order matters: rolling back in the order of the loads leaves the first loaded configuration in place. -/
theorem C29_wrong_order : (run init [.load (.ok (cfg s%"a")), .load (.ok (cfg s%"b")), .rollback 0, .rollback 1]).global =
    some (cfg s%"a") := by decide +kernel

end Ddl.Props
