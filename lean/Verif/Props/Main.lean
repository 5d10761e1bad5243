import Verif.Lemmas.Main
import Verif.Props.Answer
import Verif.Props.Apply

/-! # C67: the exit status -/

set_option autoImplicit false

namespace Ddl.Props
open Ddl Spec Cmd Apply Main

/-- C67: every run ends, with status 0, 1 or 2, if the files, the sources and the database do not keep it waiting for ever. -/
theorem C67_ends (w : Site) (stdin : Str) (i : Invocation) (hw : OutsideEnds w.toWorld) (hc : configOf i ≠ some .outOfFuel) :
    (main w stdin i).2 = some 0 ∨ (main w stdin i).2 = some 1 ∨ (main w stdin i).2 = some 2 := by
  have key : ∀ {r : Res Unit}, r ≠ .outOfFuel → code r = some 0 ∨ code r = some 1 ∨ code r = some 2 := by
    intro r h
    cases r <;> simp_all [code]
  cases i with
  | help => exact .inl rfl
  | invalid e => exact .inr (.inl rfl)
  | none e => cases e with
    | none => exact .inl rfl
    | some e => exact .inr (.inl rfl)
  | version => exact .inl rfl
  | generate cfg args =>
    rw [main_generate]
    refine key ?_
    cases cfg with
    | ok c =>
      match args with
      | [] => simp [generateCommand]
      | [_] => simp [generateCommand]
      | src :: dst :: rest =>
        simp only [generateCommand]
        split
        all_goals first
          | simp; done
          | exact after_fuel (generateText_fuel hw _ _ _)
    | err e => simp [generateCommand]
    | panic p => simp [generateCommand]
    | outOfFuel => exact absurd rfl hc
  | «show» cfg args =>
    rw [main_show]
    refine key ?_
    cases cfg with
    | ok c =>
      cases args with
      | nil => simp [showCommand]
      | cons dsn rest => exact after_fuel (showDb_fuel hw _ _)
    | err e => simp [showCommand]
    | panic p => simp [showCommand]
    | outOfFuel => exact absurd rfl hc
  | diff cfg args =>
    rw [main_diff]
    refine key ?_
    cases cfg with
    | ok c =>
      match args with
      | [] => simp [diffCommand]
      | [_] => simp [diffCommand]
      | _ :: _ :: _ :: _ => simp [diffCommand]
      | [l, r] =>
        have := after_fuel (w := w.toWorld) (diffSources_fuel hw c.dialect c.language l r)
        simp only [diffCommand, diffRun]
        split
        · simp
        · exact this
    | err e => simp [diffCommand]
    | panic p => simp [diffCommand]
    | outOfFuel => exact absurd rfl hc
  | apply cfg args =>
    rw [main_apply]
    refine key ?_
    cases cfg with
    | ok c =>
      match args with
      | [] => simp [applyCommand]
      | [_] => simp [applyCommand]
      | _ :: _ :: _ :: _ => simp [applyCommand]
      | [l, r] =>
        have hd := diffSources_fuel hw c.dialect c.language l r
        simp only [applyCommand]
        split
        · rcases approve_cases (w := w) (stdin := stdin) c l (by assumption) with ⟨h, -⟩ | ⟨⟨e, h⟩, -⟩ <;> rw [h] <;> simp
        · simp
        · simp
        · simp
        · rename_i h; exact absurd h hd
    | err e => simp [applyCommand]
    | panic p => simp [applyCommand]
    | outOfFuel => exact absurd rfl hc

/-- C67 (`apply`): the status is 0 exactly if the last line says `done`, or `no difference` is all there is. -/
theorem C67_apply (w : Site) (stdin : Str) (cfg : Res Conf.Config) (args : List Str) :
    (main w stdin (.apply cfg args)).2 = some 0 ↔
      (main w stdin (.apply cfg args)).1 = [.print s%"no difference\n"] ∨
      ∃ pre, (main w stdin (.apply cfg args)).1 = pre ++ [.print s%"done\n"] := by
  have back : ∀ {l : List Event} {t : Str}, (∃ pre, l.map ofEvent = pre ++ [.print t]) ↔ ∃ pre, l = pre ++ [.print t] := by
    intro l t
    constructor
    · rintro ⟨pre, h⟩
      obtain ⟨l1, l2, rfl, h1, h2⟩ := List.map_eq_append_iff.1 h
      obtain ⟨x, l3, rfl, h3, h4⟩ := List.map_eq_cons_iff.1 h2
      rw [List.map_eq_nil_iff] at h4
      subst h4
      cases x with
      | print t' => cases h3; exact ⟨l1, rfl⟩
      | query => cases h3
    · rintro ⟨pre, rfl⟩
      exact ⟨pre.map ofEvent, by simp [ofEvent]⟩
  have back1 : ∀ {l : List Event} {t : Str}, l.map ofEvent = [.print t] ↔ l = [.print t] := by
    intro l t
    constructor
    · intro h
      obtain ⟨x, l3, rfl, h3, h4⟩ := List.map_eq_cons_iff.1 h
      rw [List.map_eq_nil_iff] at h4
      subst h4
      cases x with
      | print t' => cases h3; rfl
      | query => cases h3
    · rintro rfl; rfl
  rw [main_apply]
  simp only [code_zero, back, back1]
  cases cfg with
  | ok c =>
    match args with
    | [] => simp [applyCommand]
    | [_] => simp [applyCommand]
    | _ :: _ :: _ :: _ => simp [applyCommand]
    | [l, r] =>
      simp only [applyCommand]
      split
      · rcases approve_cases (w := w) (stdin := stdin) c l (by assumption) with ⟨h, pre, h'⟩ | ⟨⟨e, h⟩, h1, h2⟩
        · exact ⟨fun _ => .inr ⟨pre, h'⟩, fun _ => h⟩
        · refine ⟨fun h' => ?_, ?_⟩
          · rw [h] at h'; cases h'
          · rintro (h' | ⟨pre, h'⟩)
            · exact absurd h' h2
            · exact absurd h' (h1 pre)
      all_goals simp
  | _ => simp [applyCommand]

/-- C67 (`diff`): the status is 0 exactly if both sides were read and compared, and the migration, or nothing if there is no
difference, was printed. -/
theorem C67_diff (w : Site) (stdin : Str) (cfg : Res Conf.Config) (args : List Str) (hw : Honest w.toWorld) :
    (main w stdin (.diff cfg args)).2 = some 0 ↔
      ∃ c l r a b, cfg = .ok c ∧ args = [l, r] ∧ resolve w.toWorld c.language c.dialect l = .ok a ∧
        resolve w.toWorld c.language c.dialect r = .ok b ∧
        (Diffed w.sd c.dialect a b (.err .noDifference) ∧ (main w stdin (.diff cfg args)).1 = [] ∨
          ∃ t, Diffed w.sd c.dialect a b (.ok t) ∧ w.write t = none ∧ (main w stdin (.diff cfg args)).1 = [.print t]) := by
  rw [main_diff]
  simp only [code_zero]
  constructor
  · intro h
    cases cfg with
    | ok c =>
      match args, h with
      | [], h => simp [diffCommand] at h
      | [_], h => simp [diffCommand] at h
      | _ :: _ :: _ :: _, h => simp [diffCommand] at h
      | [l, r], h =>
        cases hs : diffSources w.toWorld c.dialect c.language l r with
        | ok t =>
          obtain ⟨a, ha, hs'⟩ := bind_ok_iff.1 hs
          obtain ⟨b, hb, hs'⟩ := bind_ok_iff.1 hs'
          have hd := diffText_diffed hs' (by simp)
          refine ⟨c, l, r, a, b, rfl, rfl, ha, hb, .inr ⟨t, hd, ?_⟩⟩
          simp only [diffCommand, diffRun, hs, Out.after, writeOut] at h ⊢
          cases hwt : w.write t with
          | none => simp
          | some e =>
            have hne : e ≠ .noDifference := fun he => hw.write t (he ▸ hwt)
            rw [hwt] at h
            exfalso
            cases e <;> simp at h hne
        | err e =>
          by_cases he : e = .noDifference
          · subst he
            rcases bind_err_iff.1 hs with hs' | ⟨a, ha, hs'⟩
            · exact absurd hs' (resolve_ne hw _ _ _)
            rcases bind_err_iff.1 hs' with hs' | ⟨b, hb, hs'⟩
            · exact absurd hs' (resolve_ne hw _ _ _)
            refine ⟨c, l, r, a, b, rfl, rfl, ha, hb, .inl ⟨diffText_diffed hs' (by simp), ?_⟩⟩
            simp [diffCommand, diffRun, hs, Out.after]
          · exfalso
            simp only [diffCommand, diffRun, hs, Out.after] at h
            cases e <;> simp at h he
        | panic p => simp [diffCommand, diffRun, hs, Out.after] at h
        | outOfFuel => simp [diffCommand, diffRun, hs, Out.after] at h
    | _ => simp [diffCommand] at h
  · rintro ⟨c, l, r, a, b, rfl, rfl, ha, hb, ⟨hd, -⟩ | ⟨t, hd, hwt, -⟩⟩
    · simp [diffCommand, diffRun, diffSources, ha, hb, diffText_of_diffed hd, Out.after]
    · simp [diffCommand, diffRun, diffSources, ha, hb, diffText_of_diffed hd, Out.after, writeOut, hwt]

/-- C67 (`show`): the status is 0 exactly if the schema of the database was had and printed. -/
theorem C67_show (w : Site) (stdin : Str) (cfg : Res Conf.Config) (args : List Str) :
    (main w stdin (.show cfg args)).2 = some 0 ↔
      ∃ c dsn rest t, cfg = .ok c ∧ args = dsn :: rest ∧ DbShows w.toWorld c.dialect dsn t ∧ w.write t = none ∧
        (main w stdin (.show cfg args)).1 = [.print t] := by
  rw [main_show]
  simp only [code_zero]
  constructor
  · intro h
    cases cfg with
    | ok c =>
      cases args with
      | nil => simp [showCommand] at h
      | cons dsn rest =>
        simp only [showCommand] at h ⊢
        cases hs : showDb w.toWorld c.dialect dsn with
        | ok t =>
          rw [hs] at h
          simp only [Out.after, writeOut] at h ⊢
          refine ⟨c, dsn, rest, t, rfl, rfl, showDb_ok.1 hs, ?_, by simp⟩
          cases hwt : w.write t with
          | none => rfl
          | some e => rw [hwt] at h; cases h
        | _ => rw [hs] at h; simp [Out.after] at h
    | _ => simp [showCommand] at h
  · rintro ⟨c, dsn, rest, t, rfl, rfl, hd, hwt, -⟩
    simp [showCommand, showDb_ok.2 hd, Out.after, writeOut, hwt]

/-- C67 (`generate`): the status is 0 exactly if the destination could be opened, the sources could be read and printed, and the
text was written to the destination; and then that is all that was done. -/
theorem C67_generate (w : Site) (stdin : Str) (cfg : Res Conf.Config) (args : List Str) :
    (main w stdin (.generate cfg args)).2 = some 0 ↔
      ∃ c src dst rest t, cfg = .ok c ∧ args = src :: dst :: rest ∧ w.openFile (destination w.toWorld dst) = none ∧
        generateText w.toWorld src c.dialect c.language = .ok t ∧ w.write t = none ∧
        (main w stdin (.generate cfg args)).1 = [.empty (destination w.toWorld dst), .write (destination w.toWorld dst) t] := by
  rw [main_generate]
  simp only [code_zero]
  constructor
  · intro h
    cases cfg with
    | ok c =>
      match args, h with
      | [], h => simp [generateCommand] at h
      | [_], h => simp [generateCommand] at h
      | src :: dst :: rest, h =>
        obtain ⟨h1, t, h2, h3⟩ := generateCommand_ok.1 h
        refine ⟨c, src, dst, rest, t, rfl, rfl, h1, h2, h3, ?_⟩
        obtain ⟨e1, e2⟩ := generateCommand_text (rest := rest) h1 h2
        rw [e1]
        simp only [e2, List.map_cons, List.map_nil]
    | _ => simp [generateCommand] at h
  · rintro ⟨c, src, dst, rest, t, rfl, rfl, h1, h2, h3, -⟩
    exact generateCommand_ok.2 ⟨h1, t, h2, h3⟩

/-- C67: `diff` and `apply` do not crash on two sources that can be read. -/
theorem C67_no_crash (w : Site) (stdin : Str) (c : Conf.Config) (l r a b : Str) (ha : resolve w.toWorld c.language c.dialect l = .ok a)
    (hb : resolve w.toWorld c.language c.dialect r = .ok b) (h : BothRead c.dialect a b) :
    ((main w stdin (.diff (.ok c) [l, r])).2 = some 0 ∨ (main w stdin (.diff (.ok c) [l, r])).2 = some 1) ∧
    ((main w stdin (.apply (.ok c) [l, r])).2 = some 0 ∨ (main w stdin (.apply (.ok c) [l, r])).2 = some 1) := by
  have hs : (∃ t, diffSources w.toWorld c.dialect c.language l r = .ok t) ∨ diffSources w.toWorld c.dialect c.language l r = .err .noDifference := by
    have e : diffSources w.toWorld c.dialect c.language l r = diffText w.toWorld c.dialect a b := by simp [diffSources, ha, hb]
    rw [e]
    exact bothRead_answer h
  rw [main_diff, main_apply]
  rcases hs with ⟨t, hs⟩ | hs
  · refine ⟨?_, ?_⟩
    · simp only [diffCommand, diffRun, hs, Out.after, writeOut]
      cases w.write t with
      | none => exact .inl rfl
      | some e => cases e <;> first | exact .inl rfl | exact .inr rfl
    · simp only [applyCommand, hs]
      rcases approve_cases (w := w) (stdin := stdin) c l t with ⟨h, -⟩ | ⟨⟨e, h⟩, -⟩ <;> rw [h]
      · exact .inl rfl
      · exact .inr rfl
  · exact ⟨.inl (by simp [diffCommand, diffRun, hs, Out.after, code]), .inl (by simp [applyCommand, hs, code])⟩

/-- C67, partial: a wrong number of arguments of `diff` or `apply` is refused with status 1, and nothing else happens. Missing: `show`
and `generate`, see `C67_arguments_fails`. -/
theorem C67_arguments_partial (w : Site) (stdin : Str) (c : Conf.Config) (args : List Str) (h : args.length ≠ 2) :
    main w stdin (.diff (.ok c) args) = ([], some 1) ∧ main w stdin (.apply (.ok c) args) = ([], some 1) := by
  rw [main_diff, main_apply]
  match args, h with
  | [], _ => exact ⟨rfl, rfl⟩
  | [_], _ => exact ⟨rfl, rfl⟩
  | _ :: _ :: _ :: _, _ => exact ⟨rfl, rfl⟩

/-- C67, negation: without their arguments `show` and `generate` crash, in all surroundings; and arguments they do not use are ignored. -/
theorem C67_arguments_fails (w : Site) (stdin : Str) (c : Conf.Config) (a : Str) :
    main w stdin (.show (.ok c) []) = ([], some 2) ∧
    main w stdin (.generate (.ok c) []) = ([], some 2) ∧ main w stdin (.generate (.ok c) [a]) = ([], some 2) ∧
    (∀ dsn more, main w stdin (.show (.ok c) (dsn :: more)) = main w stdin (.show (.ok c) [dsn])) ∧
    ∀ src dst more, main w stdin (.generate (.ok c) (src :: dst :: more)) = main w stdin (.generate (.ok c) [src, dst]) :=
  ⟨rfl, rfl, rfl, fun _ _ => rfl, fun _ _ _ => rfl⟩

set_option maxRecDepth 8000 in
/-- C67, negation: `diff` and `apply` crash on a text with an open quote, and on two readable Spanner schemas with an unnamed CHECK. -/
theorem C67_crash_fails : ∃ (w w' : Site) (c c' : Conf.Config) (l r : Str),
    main w [] (.diff (.ok c) [l, r]) = ([], some 2) ∧ main w [] (.apply (.ok c) [l, r]) = ([], some 2) ∧
    main w' [] (.diff (.ok c') [l, r]) = ([], some 2) ∧ main w' [] (.apply (.ok c') [l, r]) = ([], some 2) ∧
    (Sp.parse answerOld).isOk = true ∧ (Sp.parse answerNew).isOk = true ∧ w'.readFile l = .ok answerOld ∧ w'.readFile r = .ok answerNew :=
  ⟨sampleSite s%"CREATE TABLE \"t" [] (fun _ _ => none), sampleSite answerOld answerNew (fun _ _ => none), sampleConfig s%"postgres",
    sampleConfig s%"spanner", s%"a", s%"b", by decide +kernel⟩

/-! ## The hypotheses can be met -/

/-- The surroundings of the examples end. -/
example (a b : Str) (db : Hist → Str → Option Str) : OutsideEnds (sampleSite a b db).toWorld ∧ Honest (sampleSite a b db).toWorld := by
  refine ⟨⟨fun p => ?_, fun _ => by simp [sampleSite, sampleWorld], fun _ _ => by simp [sampleSite, sampleWorld]⟩,
    ⟨fun p => ?_, fun _ => by simp [sampleSite, sampleWorld], fun _ _ => by simp [sampleSite, sampleWorld], fun _ _ => by simp [sampleSite, sampleWorld],
      fun _ => by simp [sampleSite, sampleWorld], fun _ => by simp [sampleSite, sampleWorld]⟩⟩
  all_goals
    simp only [sampleSite, sampleWorld]
    split
    · simp
    · split <;> simp

set_option maxRecDepth 8000 in
/-- Runs with status 0: `diff` prints a migration or nothing, `apply` ends with `done` or says that there is no difference. -/
example : (main (sampleSite [] sampleTables (fun _ _ => none)) [] (.diff (.ok (sampleConfig s%"mysql")) [s%"a", s%"b"])).2 = some 0 ∧
    (main (sampleSite [] sampleTables (fun _ _ => none)) [] (.diff (.ok (sampleConfig s%"mysql")) [s%"a", s%"b"])).1.length = 1 ∧
    main (sampleSite sampleTables sampleTables (fun _ _ => none)) [] (.diff (.ok (sampleConfig s%"mysql")) [s%"a", s%"b"]) = ([], some 0) ∧
    (main (sampleSite [] sampleTables (fun _ _ => none)) s%"yes\n" (.apply (.ok (sampleConfig s%"mysql")) [s%"a", s%"b"])).2 = some 0 ∧
    (main (sampleSite [] sampleTables (fun _ _ => none)) s%"yes\n" (.apply (.ok (sampleConfig s%"mysql")) [s%"a", s%"b"])).1.getLast? =
      some (.print s%"done\n") ∧
    main (sampleSite sampleTables sampleTables (fun _ _ => none)) [] (.apply (.ok (sampleConfig s%"mysql")) [s%"a", s%"b"]) =
      ([.print s%"no difference\n"], some 0) ∧
    (main (sampleSite [] sampleTables (fun _ _ => none)) s%"no\n" (.apply (.ok (sampleConfig s%"mysql")) [s%"a", s%"b"])).2 = some 1 ∧
    (main (sampleSite [] sampleTables (fun _ _ => some s%"syntax error")) s%"yes\n" (.apply (.ok (sampleConfig s%"mysql")) [s%"a", s%"b"])).2 =
      some 1 := by
  decide +kernel

set_option maxRecDepth 8000 in
/-- Runs of `show` and `generate` with status 0. -/
example : main { sampleSite [] [] (fun _ _ => none) with showTables := fun _ _ => .ok sampleTables } [] (.show (.ok (sampleConfig s%"mysql")) [s%"dsn"]) =
      ([.print sampleTables], some 0) ∧
    (main (sampleSite [] [] (fun _ _ => none)) [] (.generate (.ok (sampleConfig s%"mysql")) [s%"src", s%"dst"])).2 = some 0 ∧
    (main (sampleSite [] [] (fun _ _ => none)) [] (.generate (.ok (sampleConfig s%"mysql")) [s%"src", s%"dst"])).1.length = 2 := by
  decide +kernel

/-- Both sides can be read. -/
example : ∃ b a, My.parse [] = .ok b ∧ My.parse sampleTables = .ok a ∧ BothRead s%"mysql" [] sampleTables := by
  have h1 : (My.parse []).isOk = true := by decide +kernel
  have h2 : (My.parse sampleTables).isOk = true := by decide +kernel
  cases e1 : My.parse [] <;> rw [e1] at h1 <;> try cases h1
  cases e2 : My.parse sampleTables <;> rw [e2] at h2 <;> try cases h2
  exact ⟨_, _, rfl, rfl, .my _ _ _ _ e1 e2⟩

end Ddl.Props
