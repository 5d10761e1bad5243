import Verif.Spec.Main
import Verif.Lemmas.DiffTotal
import Verif.Lemmas.Apply
import Verif.Lemmas.Cmd
import Verif.Lemmas.GenerateRun
import Verif.Lemmas.ShowRun

/-! # The exit status (C67) -/

set_option autoImplicit false

namespace Ddl.Main
open Ddl Spec Cmd Apply

/-- The exit status by the result of the command. -/
def code : Res Unit → Option Nat
  | .ok () => some 0
  | .err _ => some 1
  | .panic _ => some 2
  | .outOfFuel => none

theorem code_zero {r : Res Unit} : code r = some 0 ↔ r = .ok () := by
  cases r <;> simp [code]

theorem code_one {r : Res Unit} : code r = some 1 ↔ ∃ e, r = .err e := by
  cases r <;> simp [code]

theorem code_two {r : Res Unit} : code r = some 2 ↔ ∃ p, r = .panic p := by
  cases r <;> simp [code]

theorem code_none {r : Res Unit} : code r = none ↔ r = .outOfFuel := by
  cases r <;> simp [code]

variable {w : Site} {stdin : Str}

theorem main_generate (cfg : Res Conf.Config) (args : List Str) : main w stdin (.generate cfg args) =
    (match (generateCommand w.toWorld cfg args).emptied with
      | some p => .empty p :: (generateCommand w.toWorld cfg args).out.writes.map (.write p)
      | none => [], code (generateCommand w.toWorld cfg args).out.result) := by
  simp only [main, ddlctl, run]
  cases (generateCommand w.toWorld cfg args).out.result <;> rfl

theorem main_show (cfg : Res Conf.Config) (args : List Str) : main w stdin (.show cfg args) =
    ((showCommand w.toWorld cfg args).writes.map .print, code (showCommand w.toWorld cfg args).result) := by
  simp only [main, ddlctl, run]
  cases (showCommand w.toWorld cfg args).result <;> rfl

theorem main_diff (cfg : Res Conf.Config) (args : List Str) : main w stdin (.diff cfg args) =
    ((diffCommand w.toWorld cfg args).writes.map .print, code (diffCommand w.toWorld cfg args).result) := by
  simp only [main, ddlctl, run]
  cases (diffCommand w.toWorld cfg args).result <;> rfl

theorem main_apply (cfg : Res Conf.Config) (args : List Str) : main w stdin (.apply cfg args) =
    ((applyCommand w cfg args stdin).1.map ofEvent, code (applyCommand w cfg args stdin).2) := by
  simp only [main, ddlctl, run]
  cases (applyCommand w cfg args stdin).2 <;> rfl

/-! ## Every run ends -/

theorem bind_fuel {α β : Type} {r : Res α} {f : α → Res β} (hr : r ≠ .outOfFuel) (hf : ∀ x, r = .ok x → f x ≠ .outOfFuel) :
    (r >>= f) ≠ .outOfFuel := by
  cases r with
  | ok x => exact hf x rfl
  | err e => simp [Bind.bind, Res.bind]
  | panic p => simp [Bind.bind, Res.bind]
  | outOfFuel => exact absurd rfl hr

theorem answer_fuel {α : Type} {r : Res (List α)} (h : Answer r) : r ≠ .outOfFuel := by cases h <;> simp

theorem generateText_fuel {w : World} (h : OutsideEnds w) (src d l : Str) : generateText w src d l ≠ .outOfFuel := by
  refine bind_fuel ?_ fun g _ => ?_
  · unfold parseLang
    split
    · exact h.parseGo _
    · simp
  · unfold genText
    repeat' split
    all_goals simp

theorem showDb_fuel {w : World} (h : OutsideEnds w) (d dsn : Str) : showDb w d dsn ≠ .outOfFuel := by
  unfold showDb
  split
  · simp
  · split
    · split <;> simp
    · rename_i hs
      unfold showSwitch
      split
      · exact h.showTables _ _
      · simp

theorem resolve_fuel {w : World} (h : OutsideEnds w) (l d a : Str) : resolve w l d a ≠ .outOfFuel := by
  unfold resolve
  split
  · exact h.readFile _
  · split
    · exact generateText_fuel h _ _ _
    · exact showDb_fuel h _ _

theorem parse_fuel (s : Str) : Pg.parse s ≠ .outOfFuel ∧ Crdb.parse s ≠ .outOfFuel ∧ My.parse s ≠ .outOfFuel ∧ Sp.parse s ≠ .outOfFuel := by
  have key : ∀ {α : Type} {pan : Prop} {Q : α → Prop} {r : Res α}, Sat pan Q r → r ≠ .outOfFuel := by
    rintro α pan Q r h rfl
    exact h
  exact ⟨key (Pg.parseTokens_sat (envAll _ _ _)), key (Crdb.parseTokens_sat (envAll _ _ _)), key (My.parseTokens_sat (envAll [] (fun _ => false) _)),
    key (Sp.parseTokens_sat (envAll _ _ _))⟩

theorem diff_fuel_sp {sd : Str → Str → Str} {s1 s2 : Str} {b a : List Sp.SStmt} (hb : Sp.parse s1 = .ok b) (ha : Sp.parse s2 = .ok a) :
    diff (Sp.ops sd) (some b) (some a) ≠ .outOfFuel := by
  rcases Sp.diff_okOrNil (sd := sd) (Sp.parse_creates hb) (Sp.parse_creates ha) with h | ⟨h, -⟩
  · exact answer_fuel h
  · rw [h]; simp

theorem diffText_fuel (w : World) (d s1 s2 : Str) : diffText w d s1 s2 ≠ .outOfFuel := by
  unfold diffText
  split
  · refine bind_fuel (parse_fuel s1).2.2.1 fun l hl => bind_fuel (parse_fuel s2).2.2.1 fun r hr => bind_fuel ?_ fun _ _ => by simp
    exact answer_fuel (diff_answer (My.parse_creates hl) (My.parse_creates hr) fun t t' _ _ => My.table_answer t t')
  split
  · refine bind_fuel (parse_fuel s1).1 fun l hl => bind_fuel (parse_fuel s2).1 fun r hr => bind_fuel ?_ fun _ _ => by simp
    exact answer_fuel (diff_answer (Pg.parse_creates hl) (Pg.parse_creates hr) fun t t' _ _ => Pg.table_answer t t')
  split
  · refine bind_fuel (parse_fuel s1).2.1 fun l hl => bind_fuel (parse_fuel s2).2.1 fun r hr => bind_fuel ?_ fun _ _ => by simp
    exact answer_fuel (diff_answer (Crdb.parse_creates hl) (Crdb.parse_creates hr) fun t t' _ _ => Crdb.table_answer t t')
  split
  · exact bind_fuel (parse_fuel s1).2.2.2 fun l hl => bind_fuel (parse_fuel s2).2.2.2 fun r hr => bind_fuel (diff_fuel_sp hl hr) fun _ _ => by simp
  split <;> simp

theorem bothRead_answer {w : World} {d a b : Str} (h : BothRead d a b) :
    (∃ t, diffText w d a b = .ok t) ∨ diffText w d a b = .err .noDifference := by
  have key : ∀ {α : Type} {r : Res (List α)} {f : List α → Str}, Answer r →
      (∃ t, (r >>= fun l => Res.ok (f l)) = .ok t) ∨ (r >>= fun l => Res.ok (f l)) = .err .noDifference := by
    intro α r f h
    cases h
    · exact .inr rfl
    · exact .inl ⟨_, rfl⟩
  cases h with
  | pg _ _ l r hl hr =>
    simp only [diffText, myDialect, pgDialect, hl, hr, Res.ok_bind]
    exact key (diff_answer (Pg.parse_creates hl) (Pg.parse_creates hr) fun t t' _ _ => Pg.table_answer t t')
  | crdb _ _ l r hl hr =>
    simp only [diffText, myDialect, pgDialect, crdbDialect, hl, hr, Res.ok_bind]
    exact key (diff_answer (Crdb.parse_creates hl) (Crdb.parse_creates hr) fun t t' _ _ => Crdb.table_answer t t')
  | my _ _ l r hl hr =>
    simp only [diffText, myDialect, hl, hr, Res.ok_bind]
    exact key (diff_answer (My.parse_creates hl) (My.parse_creates hr) fun t t' _ _ => My.table_answer t t')
  | sp _ _ l r hl hr nl nr =>
    simp only [diffText, myDialect, pgDialect, crdbDialect, spDialect, hl, hr, Res.ok_bind]
    refine key (diff_answer (Sp.parse_creates hl) (Sp.parse_creates hr) fun t t' ht ht' => Sp.table_answer ?_ ?_)
    · intro c hc hn
      cases c with
      | foreignKey => cases hn
      | check n e => exact nl t ht n e hc hn
    · intro c hc hn
      cases c with
      | foreignKey => cases hn
      | check n e => exact nr t' ht' n e hc hn

theorem diffSources_fuel {w : World} (h : OutsideEnds w) (d l a b : Str) : diffSources w d l a b ≠ .outOfFuel :=
  bind_fuel (resolve_fuel h _ _ _) fun _ _ => bind_fuel (resolve_fuel h _ _ _) fun _ _ => diffText_fuel _ _ _ _

theorem after_fuel {w : World} {r : Res Str} (h : r ≠ .outOfFuel) : (Out.after r (writeOut w)).result ≠ .outOfFuel := by
  cases r with
  | ok t => simp only [Out.after, writeOut]; split <;> simp
  | err e => simp [Out.after]
  | panic p => simp [Out.after]
  | outOfFuel => exact absurd rfl h

theorem sendAll_cases {db : Hist → Str → Option Str} : ∀ (qs : List Str) (h : Hist), (sendAll db qs h).2 = .ok () ∨ ∃ e, (sendAll db qs h).2 = .err e
  | [], _ => .inl rfl
  | q :: qs, h => by
    unfold sendAll
    split
    · exact sendAll_cases qs h
    · split
      · exact sendAll_cases qs _
      · exact .inr ⟨_, rfl⟩

theorem retryLoop_cases (ignore : Str → Bool) (qs : List Str) : ∀ (n : Nat) (h : Hist),
    (retryLoop w ignore qs n h).2 = .ok () ∨ ∃ e, (retryLoop w ignore qs n h).2 = .err e
  | 0, _ => .inr ⟨_, rfl⟩
  | n + 1, h => by
    unfold retryLoop
    split
    · exact .inr ⟨_, rfl⟩
    · split
      · exact .inl rfl
      · exact retryLoop_cases ignore qs n _

theorem applyDdl_cases (d dsn t : Str) : (applyDdl w d dsn t).2 = .ok () ∨ ∃ e, (applyDdl w d dsn t).2 = .err e := by
  unfold applyDdl
  split
  · exact .inr ⟨_, rfl⟩
  split
  · exact retryLoop_cases _ _ _ _
  split
  · exact retryLoop_cases _ _ _ _
  split
  · split
    · exact .inr ⟨_, rfl⟩
    · exact sendAll_cases _ _
  split
  · exact .inl rfl
  · exact .inr ⟨_, rfl⟩

theorem map_query_ne (h : Hist) {t : Str} : ∀ x ∈ h.map (fun x => Event.query x.1 x.2), x ≠ .print t := by
  intro x hx e
  subst e
  obtain ⟨y, -, hy⟩ := List.mem_map.1 hx
  cases hy

/-- The outcome of the second half of `apply`: success and `done` at the end, or an error and something else. -/
theorem approve_cases (c : Conf.Config) (dsn t : Str) :
    ((approveAndExecute w c dsn t stdin).2 = .ok () ∧ ∃ pre, (approveAndExecute w c dsn t stdin).1 = pre ++ [.print s%"done\n"]) ∨
    ((∃ e, (approveAndExecute w c dsn t stdin).2 = .err e) ∧
      (∀ pre, (approveAndExecute w c dsn t stdin).1 ≠ pre ++ [.print s%"done\n"]) ∧
      (approveAndExecute w c dsn t stdin).1 ≠ [.print s%"no difference\n"]) := by
  have hm : message t ≠ s%"done\n" ∧ message t ≠ s%"no difference\n" := by
    constructor <;> intro h <;> simp [message] at h
  have hex : ((execute w c.dialect dsn t).2 = .ok () ∧ ∃ pre, (execute w c.dialect dsn t).1 = pre ++ [.print s%"done\n"]) ∨
      ((∃ e, (execute w c.dialect dsn t).2 = .err e) ∧ (execute w c.dialect dsn t).1 ≠ [] ∧
        ∀ pre, (execute w c.dialect dsn t).1 ≠ pre ++ [.print s%"done\n"]) := by
    unfold execute
    rcases hr : applyDdl w c.dialect dsn t with ⟨h, r⟩
    have hc := applyDdl_cases (w := w) c.dialect dsn t
    rw [hr] at hc
    rcases hc with hc | ⟨e, hc⟩ <;> simp only at hc <;> subst hc
    · exact .inl ⟨rfl, _, rfl⟩
    · refine .inr ⟨⟨e, rfl⟩, by simp, fun pre h' => ?_⟩
      have hl : Event.print s%"done\n" ∈ pre ++ [.print s%"done\n"] := by simp
      rw [← h'] at hl
      rcases List.mem_cons.1 hl with hl | hl
      · simp at hl
      · exact map_query_ne h _ hl rfl
  unfold approveAndExecute
  split
  · refine .inr ⟨⟨_, rfl⟩, fun pre h => ?_, fun h => ?_⟩
    · have : Event.print s%"done\n" ∈ pre ++ [.print s%"done\n"] := by simp
      rw [← h] at this
      simp only [List.mem_singleton, Event.print.injEq] at this
      exact hm.1 this.symm
    · simp only [List.cons.injEq, Event.print.injEq, and_true] at h
      exact hm.2 h
  split
  · split
    · refine .inr ⟨⟨_, rfl⟩, fun pre h => ?_, by simp⟩
      have : Event.print s%"done\n" ∈ pre ++ [.print s%"done\n"] := by simp
      rw [← h] at this
      simp only [List.mem_cons, List.not_mem_nil, Event.print.injEq, or_false] at this
      rcases this with h | h
      · exact hm.1 h.symm
      · revert h; decide
    · rcases hex with ⟨h1, pre, h2⟩ | ⟨h1, h2, h3⟩
      · exact .inl ⟨h1, .print (message t) :: .print s%"yes (via --auto-approve option)\n" :: pre, by simp [h2]⟩
      · refine .inr ⟨h1, fun pre h => ?_, by simp⟩
        obtain ⟨l, hl⟩ : ∃ l, (execute w c.dialect dsn t).1 = l ++ [.print s%"done\n"] := by
          have := congrArg List.getLast? h
          simp only [List.getLast?_append, List.getLast?_singleton, Option.some_or] at this
          rw [List.getLast?_cons_of_ne_nil, List.getLast?_cons_of_ne_nil h2] at this
          · exact ⟨_, (List.dropLast_append_getLast? _ this).symm⟩
          · simp
        exact h3 l hl
  · split
    · rcases hex with ⟨h1, pre, h2⟩ | ⟨h1, h2, h3⟩
      · exact .inl ⟨h1, .print (message t) :: pre, by simp [h2]⟩
      · refine .inr ⟨h1, fun pre h => ?_, by simp [h2]⟩
        obtain ⟨l, hl⟩ : ∃ l, (execute w c.dialect dsn t).1 = l ++ [.print s%"done\n"] := by
          have := congrArg List.getLast? h
          simp only [List.getLast?_append, List.getLast?_singleton, Option.some_or] at this
          rw [List.getLast?_cons_of_ne_nil h2] at this
          exact ⟨_, (List.dropLast_append_getLast? _ this).symm⟩
        exact h3 l hl
    · rename_i r hr
      refine .inr ⟨?_, fun pre h => ?_, fun h => ?_⟩
      · unfold prompt at *
        split
        · rename_i hp; exact absurd (if_pos hp) hr
        · exact ⟨_, rfl⟩
      · have : Event.print s%"done\n" ∈ pre ++ [.print s%"done\n"] := by simp
        rw [← h] at this
        simp only [List.mem_singleton, Event.print.injEq] at this
        exact hm.1 this.symm
      · simp only [List.cons.injEq, Event.print.injEq, and_true] at h
        exact hm.2 h

end Ddl.Main
