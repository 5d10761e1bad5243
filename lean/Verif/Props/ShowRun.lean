import Verif.Lemmas.ShowRun
import Verif.Props.GenerateRun

/-!
# What a run of `show` writes: C61
-/

namespace Ddl.Props
open Ddl Spec Cmd
set_option autoImplicit false

/-- C61: `show` succeeds exactly if the schema of the database can be had, and then it has written this schema, in one piece. -/
theorem C61_success (w : World) (c : Conf.Config) (dsn : Str) (rest : List Str) (hw : ∀ t, w.write t = none) (t : Str) :
    showCommand w (.ok c) (dsn :: rest) = ⟨[t], .ok ()⟩ ↔ DbShows w c.dialect dsn t := by
  rw [← showDb_ok, showCommand]
  cases showDb w c.dialect dsn with
  | ok x => simp [Out.after, writeOut, hw]
  | _ => simp [Out.after]

/-- C61: otherwise it fails, and has written nothing, unless it is the writing that fails. -/
theorem C61_failure (w : World) (cfg : Res Conf.Config) (args : List Str) :
    (∃ c dsn rest t, cfg = .ok c ∧ args = dsn :: rest ∧ DbShows w c.dialect dsn t ∧ (showCommand w cfg args).writes = [t] ∧
      ((showCommand w cfg args).result = .ok () ∧ w.write t = none ∨ ∃ e, w.write t = some e ∧ (showCommand w cfg args).result = .err e)) ∨
    (showCommand w cfg args).writes = [] ∧ (showCommand w cfg args).result.isOk = false := by
  cases cfg with
  | ok c =>
    cases args with
    | nil => exact .inr ⟨rfl, rfl⟩
    | cons dsn rest =>
      cases h : showDb w c.dialect dsn with
      | ok t =>
        refine .inl ⟨c, dsn, rest, t, rfl, rfl, showDb_ok.1 h, ?_, ?_⟩
        · simp [showCommand, h, Out.after, writeOut]
        · cases hw : w.write t with
          | none => exact .inl ⟨by simp [showCommand, h, Out.after, writeOut, hw], rfl⟩
          | some e => exact .inr ⟨e, rfl, by simp [showCommand, h, Out.after, writeOut, hw]⟩
      | _ => exact .inr ⟨by simp [showCommand, h, Out.after], by simp [showCommand, h, Out.after, Res.isOk]⟩
  | _ => exact .inr ⟨rfl, rfl⟩

/-- C61: what `show` has written, saved in a file, differs in nothing from the database, if it can be read in the dialect. -/
theorem C61_diff (w w' : World) (c : Conf.Config) (dsn file t : Str) (rest : List Str) (r : Res Str) (hw : ∀ t, w.write t = none)
    (h : showCommand w (.ok c) (dsn :: rest) = ⟨[t], .ok ()⟩) (h1 : w'.isFile file = true) (h2 : w'.readFile file = .ok t)
    (h3 : w'.isFile dsn = false) (h4 : w'.exists? dsn = false) (h5 : ∀ x, w'.openDb x dsn = w.openDb x dsn)
    (h6 : w'.showTables c.dialect dsn = w.showTables c.dialect dsn) (h7 : w'.closeDb dsn = w.closeDb dsn) (hr : Diffed w'.sd c.dialect t t r) :
    diffCommand w' (.ok c) [dsn, file] = ⟨[], .ok ()⟩ ∧ diffCommand w' (.ok c) [file, dsn] = ⟨[], .ok ()⟩ := by
  have ha : resolve w' c.language c.dialect file = .ok t := by simp [resolve, h1, h2]
  have hb : resolve w' c.language c.dialect dsn = .ok t := by
    rw [resolve, h3, h4]
    simp only [Bool.false_eq_true, if_false]
    rw [showDb_ok]
    obtain ⟨x, hx, ho, hs, hc⟩ := (C61_success w c dsn rest hw t).1 h
    exact ⟨x, hx, by rw [h5, ho], by rw [h6, hs], by rw [h7, hc]⟩
  have hd := diffed_self hr
  exact ⟨C24_no_difference w' c _ _ _ _ hb ha hd, C24_no_difference w' c _ _ _ _ ha hb hd⟩

/-- A database of CockroachDB, which only the driver of PostgreSQL opens, and a file with its schema. -/
private def shownWorld (file : Str) : World :=
  { isFile := (· == s%"f"), exists? := (· == s%"f"), isDir := fun _ => false, joinPath := (· ++ ·), readFile := fun _ => .ok file
    openFile := fun _ => none, parseGo := fun _ => .err .notSupported, short := id
    openDb := fun x _ => if x = s%"postgres" then none else some .notSupported
    showTables := fun d _ => if d = s%"cockroachdb" then .ok s%"CREATE TABLE users (id INT8 NOT NULL, CONSTRAINT users_pkey PRIMARY KEY (id ASC));\n" else .err .notSupported
    closeDb := fun _ => none, write := fun _ => none, sd := fun _ _ => [] }

private def shownConfig (d : Str) : Conf.Config :=
  { version := false, trace := false, debug := false, language := s%"go", dialect := d, autoApprove := false, columnTagGo := [], ddlTagGo := [], pkTagGo := [] }

example : ∃ (t : Str) (r : Res Str), showCommand (shownWorld []) (.ok (shownConfig s%"cockroachdb")) [s%"postgres://x"] = ⟨[t], .ok ()⟩ ∧ t ≠ [] ∧
    Diffed (shownWorld t).sd s%"cockroachdb" t t r ∧ (shownWorld t).isFile s%"postgres://x" = false ∧ (shownWorld t).exists? s%"postgres://x" = false ∧
    (showCommand (shownWorld []) (.ok (shownConfig s%"mysql")) [s%"postgres://x"]) = ⟨[], .err .notSupported⟩ := by
  have hp : Crdb.parse s%"CREATE TABLE users (id INT8 NOT NULL, CONSTRAINT users_pkey PRIMARY KEY (id ASC));\n" =
      .ok (valueOf (Crdb.parse s%"CREATE TABLE users (id INT8 NOT NULL, CONSTRAINT users_pkey PRIMARY KEY (id ASC));\n")) := by decide +kernel
  exact ⟨_, _, rfl, by decide +kernel, Diffed.crdb _ _ _ _ hp hp, by decide +kernel, by decide +kernel, rfl⟩

end Ddl.Props
