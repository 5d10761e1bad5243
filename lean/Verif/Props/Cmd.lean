import Verif.Lemmas.Cmd

/-!
# Properties of the commands: C23, C24
-/

namespace Ddl.Props
open Ddl Spec Cmd Conf
set_option autoImplicit false

/-! ## C23 -/

/-- C23 for `diff`: with a dialect other than the four nothing is written and the result is no success. -/
theorem C23_diff (w : World) (d lang l r : Str) (h : d ∉ dialects) :
    (diffRun w d lang l r).writes = [] ∧ (diffRun w d lang l r).result.isOk = false := by
  apply after_fails
  intro t ht
  obtain ⟨a, -, ht⟩ := bind_ok_iff.1 ht
  obtain ⟨b, -, ht⟩ := bind_ok_iff.1 ht
  rw [diffText_unsupported h] at ht
  simp at ht

/-- C23 for `diff`: if both sources can be read, the error is the one for the dialect. -/
theorem C23_diff_kind (w : World) (d lang l r a b : Str) (h : d ∉ dialects)
    (hl : w.isFile l = true) (hr : w.isFile r = true) (ha : w.readFile l = .ok a) (hb : w.readFile r = .ok b) :
    diffRun w d lang l r = ⟨[], .err (dialectErr d)⟩ := by
  apply after_err
  simp [diffSources, resolve, hl, hr, ha, hb, diffText_unsupported h]

/-- C23 for `diff` on a directory of sources: the generator refuses the dialect. -/
theorem C23_diff_kind_directory (w : World) (d l r : Str) (g : Gen.DDL) (h : d ∉ dialects)
    (hl : w.isFile l = false) (hx : w.exists? l = true) (hg : w.parseGo l = .ok g) :
    diffRun w d s%"go" l r = ⟨[], .err (dialectErr d)⟩ := by
  apply after_err
  simp [diffSources, resolve, generateText, parseLang, hl, hx, hg, genText_unsupported h]

/-- C23 for `generate`: with a dialect other than the four nothing is written and the result is no success; if the sources can
be read, the error is the one for the dialect. -/
theorem C23_generate (w : World) (d lang src : Str) (h : d ∉ dialects) :
    (generate w src d lang).writes = [] ∧ (generate w src d lang).result.isOk = false ∧
    ∀ g, lang = s%"go" → w.parseGo src = .ok g → (generate w src d lang).result = .err (dialectErr d) := by
  have h1 : ∀ t, generateText w src d lang ≠ .ok t := by
    intro t ht
    obtain ⟨g, -, ht⟩ := bind_ok_iff.1 ht
    rw [genText_unsupported h] at ht
    simp at ht
  refine ⟨(after_fails h1).1, (after_fails h1).2, ?_⟩
  rintro g rfl hg
  simp [generate, generateText, parseLang, hg, genText_unsupported h, Out.after]

/-- C23 for the whole `generate` command: it is refused, the destination gets no text. -/
theorem C23_generate_command (w : World) (c : Config) (args : List Str) (h : c.dialect ∉ dialects) :
    (generateCommand w (.ok c) args).out.writes = [] ∧ (generateCommand w (.ok c) args).out.result.isOk = false := by
  match args with
  | [] => exact ⟨rfl, rfl⟩
  | [_] => exact ⟨rfl, rfl⟩
  | src :: dst :: _ =>
    simp only [generateCommand]
    split
    · exact ⟨rfl, rfl⟩
    · exact ⟨(C23_generate w _ _ _ h).1, (C23_generate w _ _ _ h).2.1⟩

/-- C23 for `show`: with a dialect other than the four nothing is written and the result is no success. -/
theorem C23_show_partial (w : World) (c : Config) (args : List Str) (h : c.dialect ∉ dialects) :
    (showCommand w (.ok c) args).writes = [] ∧ (showCommand w (.ok c) args).result.isOk = false := by
  cases args with
  | nil => exact ⟨rfl, rfl⟩
  | cons dsn rest =>
    apply after_fails
    intro t ht
    unfold showDb at ht
    rw [showSwitch_unsupported h] at ht
    split at ht <;> simp at ht

/-- C23 fails for `show`: the error is the one of the database library, which refuses the driver name, before the dialect is
looked at. -/
theorem C23_show_fails (w : World) (c : Config) (dsn : Str) (hd : RealDrivers w) (h : c.dialect ∉ dialects) :
    ∃ msg, (showCommand w (.ok c) [dsn]).result = .err (.other msg) := by
  simp only [dialects, List.mem_cons, List.not_mem_nil, or_false, not_or] at h
  obtain ⟨msg, hm⟩ := hd (driverName c.dialect) dsn (by
    rw [driverName, if_neg (by simpa [crdbDialect] using h.2.1)]
    simp only [List.mem_cons, List.not_mem_nil, or_false, not_or]
    exact ⟨h.2.2.1, h.2.2.2, h.1⟩)
  exact ⟨msg, by simp [showCommand, showDb, hm, Out.after]⟩

/-- C23 fails for `generate` in that the destination file is emptied before the dialect is checked. -/
theorem C23_generate_empties (w : World) (c : Config) (src dst : Str) (h : c.dialect ∉ dialects)
    (hd : w.isDir dst = false) (ho : w.openFile dst = none) :
    (generateCommand w (.ok c) [src, dst]).emptied = some dst ∧
    (generateCommand w (.ok c) [src, dst]).out.result.isOk = false := by
  refine ⟨?_, (C23_generate_command w c _ h).2⟩
  simp [generateCommand, hd, ho]

/-! ## C24 -/

/-- C24: whatever `diff` writes, it writes in one piece, and it is the complete migration of the two texts. -/
theorem C24_complete (w : World) (cfg : Res Config) (args : List Str) :
    (diffCommand w cfg args).writes = [] ∨
    ∃ c l r a b t, cfg = .ok c ∧ args = [l, r] ∧ resolve w c.language c.dialect l = .ok a ∧
      resolve w c.language c.dialect r = .ok b ∧ Diffed w.sd c.dialect a b (.ok t) ∧
      (diffCommand w cfg args).writes = [t] := by
  cases cfg with
  | ok c =>
    match args with
    | [] => exact .inl rfl
    | [_] => exact .inl rfl
    | _ :: _ :: _ :: _ => exact .inl rfl
    | [l, r] =>
      cases h : diffSources w c.dialect c.language l r with
      | ok t =>
        refine .inr ?_
        have h0 := h
        obtain ⟨a, ha, h⟩ := bind_ok_iff.1 h
        obtain ⟨b, hb, h⟩ := bind_ok_iff.1 h
        refine ⟨c, l, r, a, b, t, rfl, rfl, ha, hb, diffText_diffed h (.inl ⟨t, rfl⟩), ?_⟩
        simp only [diffCommand, diffRun, h0, Out.after, writeOut]
        split <;> rfl
      | _ =>
        refine .inl ?_
        simp only [diffCommand, diffRun, h, Out.after]
        try (split <;> rfl)
  | _ => exact .inl rfl

/-- C24: if `diff` does not succeed, nothing was written, unless it is the write of the complete migration that failed. -/
theorem C24_error (w : World) (cfg : Res Config) (args : List Str) (h : (diffCommand w cfg args).result.isOk = false) :
    (diffCommand w cfg args).writes = [] ∨
    ∃ t e, (diffCommand w cfg args).writes = [t] ∧ w.write t = some e ∧ (diffCommand w cfg args).result = .err e := by
  cases cfg with
  | ok c =>
    match args with
    | [] => exact .inl rfl
    | [_] => exact .inl rfl
    | _ :: _ :: _ :: _ => exact .inl rfl
    | [l, r] =>
      cases hs : diffSources w c.dialect c.language l r with
      | ok t =>
        refine .inr ?_
        simp only [diffCommand, diffRun, hs, Out.after, writeOut] at h ⊢
        cases hw : w.write t with
        | none => simp [hw, Res.isOk] at h
        | some e =>
          rw [hw] at h
          refine ⟨t, e, ?_, hw, ?_⟩
          · split <;> rfl
          · cases e <;> first | rfl | simp [Res.isOk] at h
      | _ =>
        refine .inl ?_
        simp only [diffCommand, diffRun, hs, Out.after]
        try (split <;> rfl)
  | _ => exact .inl rfl

/-- C24: if nothing differs, `diff` succeeds and writes nothing. -/
theorem C24_no_difference (w : World) (c : Config) (l r a b : Str) (ha : resolve w c.language c.dialect l = .ok a)
    (hb : resolve w c.language c.dialect r = .ok b) (h : Diffed w.sd c.dialect a b (.err .noDifference)) :
    diffCommand w (.ok c) [l, r] = ⟨[], .ok ()⟩ := by
  simp [diffCommand, diffRun, diffSources, ha, hb, diffText_of_diffed h, Out.after]

/-- C24: conversely, success without output means that nothing differs. -/
theorem C24_silent (w : World) (cfg : Res Config) (args : List Str) (hw : Honest w)
    (h : diffCommand w cfg args = ⟨[], .ok ()⟩) :
    ∃ c l r a b, cfg = .ok c ∧ args = [l, r] ∧ resolve w c.language c.dialect l = .ok a ∧
      resolve w c.language c.dialect r = .ok b ∧ Diffed w.sd c.dialect a b (.err .noDifference) := by
  cases cfg with
  | ok c =>
    match args, h with
    | [l, r], h =>
      cases hs : diffSources w c.dialect c.language l r with
      | err e =>
        by_cases he : e = .noDifference
        · subst he
          rcases bind_err_iff.1 hs with hs | ⟨a, ha, hs⟩
          · exact absurd hs (resolve_ne hw _ _ _)
          rcases bind_err_iff.1 hs with hs | ⟨b, hb, hs⟩
          · exact absurd hs (resolve_ne hw _ _ _)
          exact ⟨c, l, r, a, b, rfl, rfl, ha, hb, diffText_diffed hs (.inr rfl)⟩
        · simp only [diffCommand, diffRun, hs, Out.after] at h
          split at h
          · rename_i h'
            simp at h'
            exact absurd h' he
          · simp at h
      | ok t =>
        simp only [diffCommand, diffRun, hs, Out.after, writeOut] at h
        split at h <;> simp at h
      | panic p => simp [diffCommand, diffRun, hs, Out.after] at h
      | outOfFuel => simp [diffCommand, diffRun, hs, Out.after] at h
  | _ => simp [diffCommand] at h

/-! ## The hypotheses can be met -/

/-- Two files `a` and `b`, no database. -/
def sampleWorld (a b : Str) : World where
  isFile p := p = s%"a" || p = s%"b"
  exists? _ := false
  isDir _ := false
  joinPath x y := x ++ s%"/" ++ y
  readFile p := if p = s%"a" then .ok a else if p = s%"b" then .ok b else .err (.other [])
  openFile _ := none
  parseGo _ := .ok ⟨[], [], []⟩
  short p := p
  openDb _ _ := some (.other [])
  showTables _ _ := .err (.other [])
  closeDb _ := none
  write _ := none
  sd _ _ := s%"x"

/-- A configuration for a dialect. -/
def sampleConfig (d : Str) : Config :=
  { version := false, trace := false, debug := false, language := s%"go", dialect := d, autoApprove := false, columnTagGo := s%"db",
    ddlTagGo := s%"ddl", pkTagGo := s%"pk" }

/-- The table of the samples. -/
def sampleTable : Str := s%"CREATE TABLE t (id INT64 NOT NULL) PRIMARY KEY (id);"

example : s%"oracle" ∉ dialects ∧ [] ∉ dialects := by decide +kernel

example : RealDrivers (sampleWorld [] []) := fun _ _ _ => ⟨[], rfl⟩

example : Honest (sampleWorld [] []) := by
  constructor <;> simp [sampleWorld]
  intro p
  split <;> (try split) <;> simp

/-- A complete migration is written. -/
example : (diffCommand (sampleWorld [] sampleTable) (.ok (sampleConfig s%"spanner")) [s%"a", s%"b"]).writes.length = 1 ∧
    (diffCommand (sampleWorld [] sampleTable) (.ok (sampleConfig s%"spanner")) [s%"a", s%"b"]).result = .ok () := by
  decide +kernel

/-- Nothing differs. -/
example : diffCommand (sampleWorld sampleTable sampleTable) (.ok (sampleConfig s%"spanner")) [s%"a", s%"b"] = ⟨[], .ok ()⟩ := by
  decide +kernel

/-- A wrong dialect. -/
example : diffCommand (sampleWorld sampleTable []) (.ok (sampleConfig s%"oracle")) [s%"a", s%"b"] = ⟨[], .err .notSupported⟩ := by
  decide +kernel

end Ddl.Props
