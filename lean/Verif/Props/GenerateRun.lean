import Verif.Lemmas.GenerateRun
import Verif.Lemmas.ShowRun
import Verif.Props.Generate

/-!
# What a run of `generate` leaves behind: C60
-/

namespace Ddl.Props
open Ddl Spec Gen Cmd
set_option autoImplicit false

/-- C60: a run succeeds exactly if the destination can be written, the language is Go, the dialect is one of the four and the source can be read. -/
theorem C60_success (w : World) (env : Gen.Env) (p : Path) (c : Conf.Config) (src dst : Str) (rest : List Str) (hp : w.parseGo src = Gen.parse env p)
    (hw : ∀ t, w.write t = none) :
    (generateCommand w (.ok c) (src :: dst :: rest)).out.result = .ok () ↔
      w.openFile (destination w dst) = none ∧ c.language = s%"go" ∧ c.dialect ∈ dialects ∧ ∃ l, PathStmts env p l := by
  rw [generateCommand_ok]
  simp only [generateText_path hp]
  constructor
  · rintro ⟨h1, t, ⟨h2, f, l, h3, h4, -⟩, -⟩
    refine ⟨h1, h2, ?_, l, h4⟩
    revert h3
    simp only [printers, dialects, List.mem_cons, Prod.mk.injEq, List.not_mem_nil, or_false]
    tauto
  · rintro ⟨h1, h2, h3, l, h4⟩
    have : ∃ f, (c.dialect, f) ∈ printers := by
      revert h3
      simp only [printers, dialects, List.mem_cons, Prod.mk.injEq, List.not_mem_nil, or_false]
      rintro (h | h | h | h)
      · exact ⟨_, .inl ⟨h, rfl⟩⟩
      · exact ⟨_, .inr (.inl ⟨h, rfl⟩)⟩
      · exact ⟨_, .inr (.inr (.inl ⟨h, rfl⟩))⟩
      · exact ⟨_, .inr (.inr (.inr ⟨h, rfl⟩))⟩
    obtain ⟨f, hf⟩ := this
    exact ⟨h1, _, ⟨h2, f, l, hf, h4, rfl⟩, hw _⟩

/-- C60: after a success the destination, in a directory the file `ddlctl.gen.sql`, has the note and the statements annotated at the source, in order and
nothing else, printed for the dialect; every other file is as before. -/
theorem C60_written (w : World) (env : Gen.Env) (p : Path) (c : Conf.Config) (src dst : Str) (rest : List Str) (files : Str → Option Str)
    (hp : w.parseGo src = Gen.parse env p) (h : (generateCommand w (.ok c) (src :: dst :: rest)).out.result = .ok ()) :
    ∃ f l, (c.dialect, f) ∈ printers ∧ PathStmts env p l ∧
      filesAfter files (generateCommand w (.ok c) (src :: dst :: rest)) (destination w dst) = some (generated w.short f l) ∧
      ∀ path, path ≠ destination w dst → filesAfter files (generateCommand w (.ok c) (src :: dst :: rest)) path = files path := by
  obtain ⟨ho, t, ht, -⟩ := generateCommand_ok.1 h
  obtain ⟨he, hs⟩ := generateCommand_text (rest := rest) ho ht
  obtain ⟨-, f, l, hf, hl, rfl⟩ := (generateText_path hp).1 ht
  refine ⟨f, l, hf, hl, by simp [filesAfter, he, hs], fun path hx => ?_⟩
  rw [filesAfter, he, if_neg]
  intro e
  cases e
  exact hx rfl

/-- C60, partial: the file left behind by a success is read as the annotated statements written by hand, in order. Missing: annotations that are
no complete SQL (`StmtOk`), see `C56_comment_fails`. -/
theorem C60_read_partial (w : World) (hsh : ∀ x, OneLine (w.short x)) (env : Gen.Env) (p : Path) (c : Conf.Config) (src dst : Str) (rest : List Str)
    (files : Str → Option Str) (hp : w.parseGo src = Gen.parse env p)
    (h : (generateCommand w (.ok c) (src :: dst :: rest)).out.result = .ok ()) :
    ∃ l t, PathStmts env p l ∧ filesAfter files (generateCommand w (.ok c) (src :: dst :: rest)) (destination w dst) = some t ∧
      (c.dialect = s%"postgres" → (∀ s ∈ l, StmtOk .postgres .postgres s) → Pg.parse t = Pg.parse (handFile .postgres l)) ∧
      (c.dialect = s%"cockroachdb" → (∀ s ∈ l, StmtOk .cockroachdb .postgres s) → Crdb.parse t = Crdb.parse (handFile .postgres l)) ∧
      (c.dialect = s%"mysql" → (∀ s ∈ l, StmtOk .mysql .mysql s) → My.parse t = My.parse (handFile .mysql l)) ∧
      (c.dialect = s%"spanner" → (∀ s ∈ l, StmtOk .spanner .spanner s) → Sp.parse t = Sp.parse (handFile .spanner l)) := by
  obtain ⟨f, l, hf, hl, ht, -⟩ := C60_written w env p c src dst rest files hp h
  have hn := pathStmts_named hl
  have hi : ∀ c ∈ (newDDL l).indent, Blank c := show ∀ c ∈ s%"    ", Blank c by unfold Blank; decide +kernel
  have hh : ∀ c ∈ (newDDL l).header, OneLine c := show ∀ c ∈ [s%"Code generated by ddlctl. DO NOT EDIT.", []], OneLine c by unfold OneLine; decide +kernel
  simp only [printers, List.mem_cons, Prod.mk.injEq, List.not_mem_nil, or_false] at hf
  refine ⟨l, _, hl, ht, ?_, ?_, ?_, ?_⟩
  · intro e hs
    have : f = .postgres := by rw [e] at hf; simpa using hf
    subst this
    rw [← fprint_newDDL]
    exact (C56_postgres_partial w.short hsh (newDDL l) hi hh hn hs).1
  · intro e hs
    have : f = .postgres := by rw [e] at hf; simpa using hf
    subst this
    rw [← fprint_newDDL]
    exact (C56_cockroachdb_partial w.short hsh (newDDL l) hi hh hn hs).1
  · intro e hs
    have : f = .mysql := by rw [e] at hf; simpa using hf
    subst this
    rw [← fprint_newDDL]
    exact (C56_mysql_partial w.short hsh (newDDL l) hi hh hn hs).1
  · intro e hs
    have : f = .spanner := by rw [e] at hf; simpa using hf
    subst this
    rw [← fprint_newDDL]
    exact (C56_spanner_partial w.short hsh (newDDL l) hi hh hn hs).1

/-- C60, partial: if the file left behind by a success can be read in the dialect, then `diff` finds no difference between it and the source. Missing: a source
that is a single Go file, see `C60_diff_file_fails`. -/
theorem C60_diff_partial (w w' : World) (env : Gen.Env) (p : Path) (c : Conf.Config) (src dst t : Str) (rest : List Str) (files : Str → Option Str) (r : Res Str)
    (hp : w.parseGo src = Gen.parse env p) (h : (generateCommand w (.ok c) (src :: dst :: rest)).out.result = .ok ())
    (ht : filesAfter files (generateCommand w (.ok c) (src :: dst :: rest)) (destination w dst) = some t)
    (ha : Afterwards w w' src (destination w dst) t) (hf : w'.isFile src = false) (hx : w'.exists? src = true)
    (hr : Diffed w'.sd c.dialect t t r) :
    diffCommand w' (.ok c) [destination w dst, src] = ⟨[], .ok ()⟩ ∧ diffCommand w' (.ok c) [src, destination w dst] = ⟨[], .ok ()⟩ := by
  obtain ⟨ho, t', hg, -⟩ := generateCommand_ok.1 h
  obtain ⟨he, hs⟩ := generateCommand_text (rest := rest) ho hg
  have e : t' = t := by
    rw [filesAfter, he, if_pos rfl, hs] at ht
    simpa using ht
  subst e
  obtain ⟨hl, f, l, hf', hl', rfl⟩ := (generateText_path hp).1 hg
  have h1 : resolve w' c.language c.dialect (destination w dst) = .ok (generated w.short f l) := by
    simp [resolve, ha.isFile, ha.readFile]
  have h2 : resolve w' c.language c.dialect src = .ok (generated w.short f l) := by
    rw [resolve, hf, hx]
    simp only [Bool.false_eq_true, if_false, if_true]
    exact (generateText_path (w := w') (by rw [ha.parseGo, hp])).2 ⟨hl, f, l, hf', hl', by rw [ha.short]⟩
  have hd := diffed_self hr
  exact ⟨C24_no_difference w' c _ _ _ _ h1 h2 hd, C24_no_difference w' c _ _ _ _ h2 h1 hd⟩

/-- C60, partial: a failed run leaves every file but the destination as it was, and the destination too if it cannot be opened. Missing: the destination
itself, see `C60_failure_fails`. -/
theorem C60_failure_partial (w : World) (cfg : Res Conf.Config) (args : List Str) (files : Str → Option Str) (path : Str)
    (hx : ∀ src dst rest, args = src :: dst :: rest → path = destination w dst → w.openFile path ≠ none) :
    filesAfter files (generateCommand w cfg args) path = files path := by
  unfold filesAfter
  rw [if_neg]
  intro he
  cases cfg with
  | ok c =>
    match args with
    | [] => cases he
    | [_] => cases he
    | src :: dst :: rest =>
      rw [generateCommand, ← destination] at he
      cases ho : w.openFile (destination w dst) with
      | some e => simp [ho] at he
      | none =>
        simp only [ho, Option.some.injEq] at he
        exact hx src dst rest rfl he.symm (by rw [← he, ho])
  | _ => cases he

/-- C60 fails: whatever is wrong with the source, the dialect or the language, the destination, if it can be opened, is empty afterwards: what
was generated before is lost. -/
theorem C60_failure_fails (w : World) (c : Conf.Config) (src dst : Str) (rest : List Str) (files : Str → Option Str)
    (hw : ∀ t, w.write t = none) (ho : w.openFile (destination w dst) = none)
    (h : (generateCommand w (.ok c) (src :: dst :: rest)).out.result ≠ .ok ()) :
    filesAfter files (generateCommand w (.ok c) (src :: dst :: rest)) (destination w dst) = some [] := by
  have hg : ∀ t, generateText w src c.dialect c.language ≠ .ok t := fun t ht => h (generateCommand_ok.2 ⟨ho, t, ht, hw t⟩)
  have he : (generateCommand w (.ok c) (src :: dst :: rest)).emptied = some (destination w dst) ∧
      (generateCommand w (.ok c) (src :: dst :: rest)).out.writes = [] := by
    rw [generateCommand, ← destination, ho]
    exact ⟨rfl, (after_fails hg).1⟩
  rw [filesAfter, he.1, he.2]
  simp

/-! ## Examples -/

private def runEnv : Gen.Env := ⟨s%"db", s%"pgddl", s%"pk", id, fun s => some ((s.drop 1).dropLast)⟩

private def userFile : GoFile :=
  ⟨s%"d/user.go", some [⟨[[⟨s%"// User is a user.", 2⟩, ⟨s%"// pgddl: table: users", 3⟩, ⟨s%"// pgddl: index: CREATE INDEX i ON users (name)", 4⟩]],
    [(s%"User", some [⟨[s%"ID"], some s%"`db:\"id\" pgddl:\"INTEGER NOT NULL\" pk:\"true\"`", []⟩,
      ⟨[s%"Name"], some s%"`db:\"name\" pgddl:\"TEXT\"`", []⟩])]⟩]⟩

/-- A directory `d` with a Go file with annotations, one without and a test; and the file itself. -/
private def userTree : Path := .dir [.dir s%"d", .file ⟨s%"d/other.go", some []⟩, .file userFile, .file ⟨s%"d/user_test.go", none⟩]

private def runWorld (p : Path) (out : Str) : World :=
  { isFile := fun x => x == s%"d/user.go" || x == s%"out/ddlctl.gen.sql", exists? := fun _ => true, isDir := fun x => x == s%"d" || x == s%"out"
    joinPath := fun a b => a ++ s%"/" ++ b
    readFile := fun x => .ok (if x = s%"d/user.go" then s%"package d\n\n// User is a user.\n// pgddl: table: users\ntype User struct {\n}\n" else out)
    openFile := fun _ => none, parseGo := fun _ => Gen.parse runEnv p, short := fun _ => s%"user.go", openDb := fun _ _ => none
    showTables := fun _ _ => .ok [], closeDb := fun _ => none, write := fun _ => none, sd := fun _ _ => [] }

private def runConfig : Conf.Config :=
  { version := false, trace := false, debug := false, language := s%"go", dialect := s%"postgres", autoApprove := false
    columnTagGo := s%"db", ddlTagGo := s%"pgddl", pkTagGo := s%"pk" }

private def stmtsOf (p : Path) : List Gen.Stmt := match Gen.parse runEnv p with | .ok g => g.stmts | _ => []

private def runText : Str := generated (fun _ => s%"user.go") .postgres (stmtsOf userTree)

/-- The run succeeds, the source has a table and an index, all annotations are complete SQL, and the file left behind can be read. -/
example : (generateCommand (runWorld userTree []) (.ok runConfig) [s%"d", s%"out"]).out.result = .ok () ∧
    PathStmts runEnv userTree (stmtsOf userTree) ∧ (stmtsOf userTree).map isTable = [true, false] ∧
    (∀ s ∈ stmtsOf userTree, StmtOk .postgres .postgres s) ∧ (∀ x, OneLine ((runWorld userTree []).short x)) ∧
    Pg.parse (handFile .postgres (stmtsOf userTree)) = .ok (valueOf (Pg.parse (handFile .postgres (stmtsOf userTree)))) := by
  have hp : Gen.parse runEnv userTree = .ok (newDDL (stmtsOf userTree)) := by decide +kernel
  refine ⟨by decide +kernel, ?_, by decide +kernel, fun s hs => stmtOk_of (by revert s; decide +kernel),
    fun x => line_of (s := s%"user.go") (by decide +kernel), by decide +kernel⟩
  obtain ⟨l, hl, e⟩ := parse_path.1 hp
  cases (show stmtsOf userTree = l from congrArg DDL.stmts e)
  exact hl

/-- The hypotheses of `C60_diff_partial`. -/
example : filesAfter (fun _ => none) (generateCommand (runWorld userTree []) (.ok runConfig) [s%"d", s%"out"]) s%"out/ddlctl.gen.sql" = some runText ∧
    destination (runWorld userTree []) s%"out" = s%"out/ddlctl.gen.sql" ∧
    Afterwards (runWorld userTree []) (runWorld userTree runText) s%"d" s%"out/ddlctl.gen.sql" runText ∧
    (runWorld userTree runText).isFile s%"d" = false ∧ ∃ r, Diffed (runWorld userTree runText).sd runConfig.dialect runText runText r := by
  have hp : Pg.parse runText = .ok (valueOf (Pg.parse runText)) := by decide +kernel
  exact ⟨by decide +kernel, by decide +kernel, ⟨by decide +kernel, rfl, rfl, rfl⟩, by decide +kernel, _, Diffed.pg _ _ _ _ hp hp⟩

/-- A file with annotated structs was generated; now the source is missing, and the file is empty. -/
example : (generateCommand (runWorld .missing []) (.ok runConfig) [s%"x", s%"out"]).out.result = .err ioError ∧
    filesAfter (fun _ => some runText) (generateCommand (runWorld .missing []) (.ok runConfig) [s%"x", s%"out"]) s%"out/ddlctl.gen.sql" = some [] ∧
    filesAfter (fun _ => some runText) (generateCommand (runWorld .missing []) (.ok runConfig) [s%"x", s%"out"]) s%"out/b.sql" = some runText := by
  decide +kernel

/-- C60 fails: from a single Go file the same text is generated as from its directory, but `diff` reads the Go file as SQL. -/
theorem C60_diff_file_fails : ∃ (w w' : World) (env : Gen.Env) (f : GoFile) (c : Conf.Config) (dst t : Str) (e : Err),
    w.parseGo f.path = Gen.parse env (.file f) ∧ (generateCommand w (.ok c) [f.path, dst]).out.result = .ok () ∧
    filesAfter (fun _ => none) (generateCommand w (.ok c) [f.path, dst]) (destination w dst) = some t ∧
    (∃ A, Pg.parse t = .ok A ∧ A.length = 2) ∧ Afterwards w w' f.path (destination w dst) t ∧ w'.isFile f.path = true ∧
    diffCommand w' (.ok c) [destination w dst, f.path] = ⟨[], .err e⟩ :=
  ⟨runWorld (.file userFile) [], runWorld (.file userFile) runText, runEnv, userFile, runConfig, s%"out", runText, .unexpectedCurrentToken, rfl,
    by decide +kernel, by decide +kernel, ⟨valueOf (Pg.parse runText), by decide +kernel, by decide +kernel⟩,
    ⟨by decide +kernel, by decide +kernel, rfl, rfl⟩, by decide +kernel, by decide +kernel⟩

/-- C60 at its limit: a directory in which nothing is annotated, say because the tag is misspelled, is no error: the destination has the note only, which is read as a
schema without tables. -/
theorem C60_nothing (w : World) (env : Gen.Env) (es : List Entry) (c : Conf.Config) (src dst : Str) (rest : List Str) (files : Str → Option Str)
    (hp : w.parseGo src = Gen.parse env (.dir es)) (hw : ∀ t, w.write t = none) (ho : w.openFile (destination w dst) = none) (hl : c.language = s%"go")
    (hd : c.dialect ∈ dialects) (h : ∀ e ∈ es, e ≠ .failed ∧ ∀ f, e = .file f → Eligible f.path → Unannotated env.ddlTag f) :
    (generateCommand w (.ok c) (src :: dst :: rest)).out.result = .ok () ∧
    filesAfter files (generateCommand w (.ok c) (src :: dst :: rest)) (destination w dst) = some s%"-- Code generated by ddlctl. DO NOT EDIT.\n--\n" ∧
    Pg.parse s%"-- Code generated by ddlctl. DO NOT EDIT.\n--\n" = .ok [] ∧ Crdb.parse s%"-- Code generated by ddlctl. DO NOT EDIT.\n--\n" = .ok [] ∧
    My.parse s%"-- Code generated by ddlctl. DO NOT EDIT.\n--\n" = .ok [] ∧ Sp.parse s%"-- Code generated by ddlctl. DO NOT EDIT.\n--\n" = .ok [] := by
  have hs : (generateCommand w (.ok c) (src :: dst :: rest)).out.result = .ok () :=
    (C60_success w env (.dir es) c src dst rest hp hw).2 ⟨ho, hl, hd, _, fun e he => ⟨(h e he).1, fun f hf hx => .inl ((h e he).2 f hf hx)⟩, rfl⟩
  refine ⟨hs, ?_, by decide +kernel, by decide +kernel, by decide +kernel, by decide +kernel⟩
  obtain ⟨f, l, -, ⟨-, rfl⟩, ht, -⟩ := C60_written w env (.dir es) c src dst rest files hp hs
  rw [ht]
  have : es.flatMap (contribution env) = [] := by
    rw [List.flatMap_eq_nil_iff]
    intro e he
    cases e with
    | file f =>
      rw [contribution]
      split
      · rename_i hx
        rw [statementsOf, parseFile_notFound.2 ((h _ he).2 f rfl hx)]
      · rfl
    | _ => rfl
  rw [this]
  simp [generated]

example : ∃ es : List Entry, es.length = 3 ∧ ∀ e ∈ es, e ≠ .failed ∧ ∀ f, e = .file f → Eligible f.path → Unannotated s%"ddl" f := by
  refine ⟨[.dir s%"d", .file ⟨s%"d/a.go", some [⟨[], [(s%"T", none)]⟩]⟩, .file ⟨s%"d/a_test.go", none⟩], rfl, ?_⟩
  simp only [List.mem_cons, List.not_mem_nil, or_false]
  rintro e (rfl | rfl | rfl)
  · simp
  · refine ⟨by simp, ?_⟩
    rintro f hf -
    cases hf
    exact ⟨_, rfl, by simp⟩
  · refine ⟨by simp, ?_⟩
    rintro f hf hx
    cases hf
    exact absurd hx (by decide +kernel)

end Ddl.Props
