import Verif.Lemmas.Load
import Verif.Props.Apply
import Verif.Props.Cmd

/-! # C70: the options do what the usage texts say -/

set_option autoImplicit false

namespace Ddl.Props
open Ddl Spec Load Main Cmd Apply

/-- C70: every command has the documented settings: from the command line, else from the environment, else the documented default. -/
theorem C70_documented (c : Command) (g : Given) : Documented c g (load c g) := by
  cases c <;> exact
    { trace := takes .., debug := takes .., dialect := takes .., language := by first | exact fun _ => takes .. | exact fun h => absurd rfl h
      columnTag := by first | exact fun _ => takes .. | exact fun h => absurd rfl h
      ddlTag := by first | exact fun _ => takes .. | exact fun h => absurd rfl h
      pkTag := by first | exact fun _ => takes .. | exact fun h => absurd rfl h
      approve := by first | exact fun _ => takes .. | (intro h; cases h)
      never := by first | exact fun _ => rfl | exact fun h => absurd rfl h }

/-- The settings of a user who gives only the dialect, in the environment. -/
example : load .apply ⟨fun _ => none, fun n => if n = s%"DDLCTL_DIALECT" then some s%"mysql" else none, fun _ => none, fun _ => none⟩ =
    ⟨false, false, false, s%"go", s%"mysql", false, s%"db", s%"ddlctl", s%"pk"⟩ := by decide +kernel

/-- C70: nothing but the documented options and variables of a command has an influence on what it does. -/
theorem C70_nothing_else (c : Command) (g g' : Given) (h : SameSaid c g g') (w : Site) (stdin : Str) (args : List Str) :
    main w stdin (invoke c g args) = main w stdin (invoke c g' args) := by
  have key : load c g = load c g' := by
    cases c <;> simp only [SameSaid, Heard, List.forall_mem_cons] at h <;>
      simp [load, getString, getBool, strOptions, boolOptions, opts, optLanguage, optDialect, List.find?, h]
  cases c <;> simp only [invoke, key]

/-- C70: a statement is sent to a database only by `apply`, and only if the user has approved beforehand or types `yes`. -/
theorem C70_approval (c : Command) (g : Given) (w : Site) (stdin : Str) (args : List Str) (q : Str) (ans : Option Str)
    (h : .query q ans ∈ (main w stdin (invoke c g args)).1) : c = .apply ∧ (Approves g ∨ TypedYes stdin) := by
  cases c with
  | generate =>
    simp only [invoke, main_generate] at h
    split at h <;> simp at h
  | «show» => simp [invoke, main_show] at h
  | diff => simp [invoke, main_diff] at h
  | apply =>
    refine ⟨rfl, ?_⟩
    simp only [invoke, main_apply, List.mem_map] at h
    obtain ⟨e, he, h⟩ := h
    cases e with
    | print t => cases h
    | query q' a' =>
      obtain ⟨k, -, -, -, -, -, hk, -, -, -, -, ha, -⟩ := C17_approval w _ args stdin q' a' he
      cases hk
      exact ha.imp_left (takes_true ((C70_documented .apply g).approve rfl))

/-- C70 (partial): without a dialect no command succeeds, writes, prints or sends a statement.  Missing: that nothing is touched;
`generate` has emptied the destination by then, see `C70_no_dialect_fails`. -/
theorem C70_no_dialect_partial (c : Command) (g : Given) (w : Site) (stdin : Str) (args : List Str) (hw : Honest w.toWorld) (hg : NoDialect g) :
    (main w stdin (invoke c g args)).2 ≠ some 0 ∧ ∀ e ∈ (main w stdin (invoke c g args)).1, ∃ p, e = .empty p := by
  have hd : (load c g).dialect ∉ dialects := by
    rw [takes_none (C70_documented c g).dialect hg.1 hg.2]
    decide
  cases c with
  | generate =>
    have h := C23_generate_command w.toWorld _ args hd
    rw [invoke, main_generate]
    refine ⟨fun hc => ?_, ?_⟩
    · rw [code_zero.1 hc] at h; cases h.2
    · rw [h.1]
      intro e he
      split at he
      · simp at he; exact ⟨_, he⟩
      · cases he
  | «show» =>
    have h := C23_show_partial w.toWorld _ args hd
    rw [invoke, main_show]
    refine ⟨fun hc => ?_, ?_⟩
    · rw [code_zero.1 hc] at h; cases h.2
    · rw [h.1]; simp
  | diff =>
    have h := diff_unsupported hw (args := args) hd
    rw [invoke, main_diff]
    exact ⟨fun hc => h.2 (code_zero.1 hc), by rw [h.1]; simp⟩
  | apply =>
    have h := apply_unsupported hw (args := args) (stdin := stdin) hd
    rw [invoke, main_apply]
    exact ⟨fun hc => h.2 (code_zero.1 hc), by rw [h.1]; simp⟩

/-- C70 is violated: without a dialect, `generate` empties an existing destination, and fails. -/
theorem C70_no_dialect_fails (g : Given) (w : Site) (stdin src dst : Str) (hg : NoDialect g) (hd : w.isDir dst = false) (ho : w.openFile dst = none) :
    .empty dst ∈ (main w stdin (invoke .generate g [src, dst])).1 ∧ (main w stdin (invoke .generate g [src, dst])).2 ≠ some 0 := by
  refine ⟨by simp [invoke, main_generate, generateCommand, hd, ho], fun hc => ?_⟩
  have h := (C23_generate_command w.toWorld (load .generate g) [src, dst] (by
    rw [takes_none (C70_documented .generate g).dialect hg.1 hg.2]
    decide)).2
  rw [invoke, main_generate] at hc
  rw [code_zero.1 hc] at h
  cases h

/-- A user who gives the dialect on the command line and approves in the environment. -/
def givenSample : Given :=
  ⟨fun n => if n = s%"dialect" then some s%"mysql" else none, fun _ => none, fun _ => none, fun n => if n = s%"DDLCTL_AUTO_APPROVE" then some true else none⟩

set_option maxRecDepth 8000 in
/-- With these settings `apply` sends statements without a question, and nothing without the variable. -/
example : Approves givenSample ∧ ¬ NoDialect givenSample ∧
    (main (sampleSite [] sampleTables (fun _ _ => none)) [] (invoke .apply givenSample [s%"a", s%"b"])).1.any (fun e => match e with | .query .. => true | _ => false) ∧
    (main (sampleSite [] sampleTables (fun _ _ => none)) [] (invoke .apply givenSample [s%"a", s%"b"])).2 = some 0 ∧
    (main (sampleSite [] sampleTables (fun _ _ => none)) [] (invoke .apply { givenSample with boolEnv := fun _ => none } [s%"a", s%"b"])).2 = some 1 := by
  unfold Approves NoDialect
  decide +kernel

/-- Without settings there is no dialect: `generate` empties its destination and fails. -/
example : NoDialect ⟨fun _ => none, fun _ => none, fun _ => none, fun _ => none⟩ ∧
    main (sampleSite [] [] (fun _ _ => none)) [] (invoke .generate ⟨fun _ => none, fun _ => none, fun _ => none, fun _ => none⟩ [s%"src", s%"dst"]) =
      ([.empty s%"dst"], some 1) := by
  unfold NoDialect
  decide +kernel

end Ddl.Props
