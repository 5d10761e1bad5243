import Verif.Lemmas.DecideGenerate
import Verif.Lemmas.DecideApply
import Verif.Props.Cmd
import Verif.Props.Diff

/-!
# What `generate` writes can be read by `diff` and `apply`: C56
-/

namespace Ddl.Props
open Ddl Spec Gen
set_option autoImplicit false

/-- C56 (PostgreSQL), partial: what `generate` writes is read like the annotated statements written by hand, and if each of those can be read,
then as their statements, in order.  Missing: annotations that are not complete SQL by themselves (`StmtOk`), see `C56_comment_fails`. -/
theorem C56_postgres_partial (short : Str → Str) (hsh : ∀ x, OneLine (short x)) (g : DDL) (hi : ∀ c ∈ g.indent, Blank c)
    (hh : ∀ c ∈ g.header, OneLine c) (hn : ∀ s ∈ g.stmts, Named s) (hs : ∀ s ∈ g.stmts, StmtOk .postgres .postgres s) :
    Pg.parse (fprint short .postgres g) = Pg.parse (handFile .postgres g.stmts) ∧
    ∀ A : Gen.Stmt → List Pg.PStmt, (∀ s ∈ g.stmts, (∀ c ∈ handWritten .postgres s, c ≠ nul) ∧ Pg.parse (handWritten .postgres s) = .ok (A s)) →
      Pg.parse (fprint short .postgres g) = .ok (g.stmts.flatMap A) := by
  have h : Pg.parse (fprint short .postgres g) = Pg.parse (handFile .postgres g.stmts) := by
    unfold Pg.parse
    rw [lex_generated hsh (by decide) hi hh hn hs]
  refine ⟨h, fun A hA => ?_⟩
  have := parse_all (parse := Pg.parse) (by decide +kernel) Pg.parse_follow (l := g.stmts.map fun s => (handWritten .postgres s, A s)) (by
    intro x hx
    obtain ⟨s, hs', rfl⟩ := List.mem_map.1 hx
    obtain ⟨ts, hw, -⟩ := writes_hand (by decide) (hn s hs') (hs s hs')
    exact ⟨⟨ts, hw⟩, hA s hs'⟩)
  rw [h]
  simpa [handFile, List.flatMap_map] using this

/-- C56 (CockroachDB), partial: what `generate` writes is read like the annotated statements written by hand, and if each of those can be read,
then as their statements, in order.  Missing: annotations that are not complete SQL by themselves (`StmtOk`), see `C56_comment_fails`. -/
theorem C56_cockroachdb_partial (short : Str → Str) (hsh : ∀ x, OneLine (short x)) (g : DDL) (hi : ∀ c ∈ g.indent, Blank c)
    (hh : ∀ c ∈ g.header, OneLine c) (hn : ∀ s ∈ g.stmts, Named s) (hs : ∀ s ∈ g.stmts, StmtOk .cockroachdb .postgres s) :
    Crdb.parse (fprint short .postgres g) = Crdb.parse (handFile .postgres g.stmts) ∧
    ∀ A : Gen.Stmt → List Crdb.CStmt, (∀ s ∈ g.stmts, (∀ c ∈ handWritten .postgres s, c ≠ nul) ∧ Crdb.parse (handWritten .postgres s) = .ok (A s)) →
      Crdb.parse (fprint short .postgres g) = .ok (g.stmts.flatMap A) := by
  have h : Crdb.parse (fprint short .postgres g) = Crdb.parse (handFile .postgres g.stmts) := by
    unfold Crdb.parse
    rw [lex_generated hsh (by decide) hi hh hn hs]
  refine ⟨h, fun A hA => ?_⟩
  have := parse_all (parse := Crdb.parse) (by decide +kernel) Crdb.parse_follow (l := g.stmts.map fun s => (handWritten .postgres s, A s)) (by
    intro x hx
    obtain ⟨s, hs', rfl⟩ := List.mem_map.1 hx
    obtain ⟨ts, hw, -⟩ := writes_hand (by decide) (hn s hs') (hs s hs')
    exact ⟨⟨ts, hw⟩, hA s hs'⟩)
  rw [h]
  simpa [handFile, List.flatMap_map] using this

/-- C56 (MySQL), partial: what `generate` writes is read like the annotated statements written by hand, and if each of those can be read,
then as their statements, in order.  Missing: annotations that are not complete SQL by themselves (`StmtOk`), see `C56_comment_fails`. -/
theorem C56_mysql_partial (short : Str → Str) (hsh : ∀ x, OneLine (short x)) (g : DDL) (hi : ∀ c ∈ g.indent, Blank c)
    (hh : ∀ c ∈ g.header, OneLine c) (hn : ∀ s ∈ g.stmts, Named s) (hs : ∀ s ∈ g.stmts, StmtOk .mysql .mysql s) :
    My.parse (fprint short .mysql g) = My.parse (handFile .mysql g.stmts) ∧
    ∀ A : Gen.Stmt → List My.MStmt, (∀ s ∈ g.stmts, (∀ c ∈ handWritten .mysql s, c ≠ nul) ∧ My.parse (handWritten .mysql s) = .ok (A s)) →
      My.parse (fprint short .mysql g) = .ok (g.stmts.flatMap A) := by
  have h : My.parse (fprint short .mysql g) = My.parse (handFile .mysql g.stmts) := by
    unfold My.parse
    rw [lex_generated hsh (by decide) hi hh hn hs]
  refine ⟨h, fun A hA => ?_⟩
  have := parse_all (parse := My.parse) (by decide +kernel) My.parse_follow (l := g.stmts.map fun s => (handWritten .mysql s, A s)) (by
    intro x hx
    obtain ⟨s, hs', rfl⟩ := List.mem_map.1 hx
    obtain ⟨ts, hw, -⟩ := writes_hand (by decide) (hn s hs') (hs s hs')
    exact ⟨⟨ts, hw⟩, hA s hs'⟩)
  rw [h]
  simpa [handFile, List.flatMap_map] using this

/-- C56 (Spanner), partial: what `generate` writes is read like the annotated statements written by hand, and if each of those can be read,
then as their statements, in order.  Missing: annotations that are not complete SQL by themselves (`StmtOk`), see `C56_comment_fails`. -/
theorem C56_spanner_partial (short : Str → Str) (hsh : ∀ x, OneLine (short x)) (g : DDL) (hi : ∀ c ∈ g.indent, Blank c)
    (hh : ∀ c ∈ g.header, OneLine c) (hn : ∀ s ∈ g.stmts, Named s) (hs : ∀ s ∈ g.stmts, StmtOk .spanner .spanner s) :
    Sp.parse (fprint short .spanner g) = Sp.parse (handFile .spanner g.stmts) ∧
    ∀ A : Gen.Stmt → List Sp.SStmt, (∀ s ∈ g.stmts, (∀ c ∈ handWritten .spanner s, c ≠ nul) ∧ Sp.parse (handWritten .spanner s) = .ok (A s)) →
      Sp.parse (fprint short .spanner g) = .ok (g.stmts.flatMap A) := by
  have h : Sp.parse (fprint short .spanner g) = Sp.parse (handFile .spanner g.stmts) := by
    unfold Sp.parse
    rw [lex_generated hsh (by decide) hi hh hn hs]
  refine ⟨h, fun A hA => ?_⟩
  have := parse_all (parse := Sp.parse) (by decide +kernel) Sp.parse_follow (l := g.stmts.map fun s => (handWritten .spanner s, A s)) (by
    intro x hx
    obtain ⟨s, hs', rfl⟩ := List.mem_map.1 hx
    obtain ⟨ts, hw, -⟩ := writes_hand (by decide) (hn s hs') (hs s hs')
    exact ⟨⟨ts, hw⟩, hA s hs'⟩)
  rw [h]
  simpa [handFile, List.flatMap_map] using this

private def annotatedTable (key : List Str) (t : Str) : Table :=
  { sourceFile := s%"a.go", sourceLine := 12, comments := [s%"-- users; DROP TABLE x", []]
    createTable := s%"CREATE TABLE users"
    columns := [⟨[s%"the id, 'unclosed"], s%"id", t ++ s%" NOT NULL"⟩, ⟨[], s%"na me", t⟩]
    constraints := [⟨[s%"c"], s%"CONSTRAINT fk FOREIGN KEY (id) REFERENCES g (id)"⟩]
    options := []
    primaryKey := key }

private def annotatedDdl (t : Str) : DDL :=
  newDDL [.table (annotatedTable [s%"id", s%"na me"] t), .index { sourceFile := s%"a.go", sourceLine := 20, comments := [s%"by name"], createIndex := s%"CREATE INDEX i ON users (id)" }]

/-- A table with two columns, a key, a foreign key and comments, and an index (PostgreSQL). -/
example : (∀ s ∈ (annotatedDdl s%"INTEGER").stmts, Named s ∧ StmtOk .postgres .postgres s) ∧
    (∀ s ∈ (annotatedDdl s%"INTEGER").stmts, (∀ c ∈ handWritten .postgres s, c ≠ nul) ∧ Pg.parse (handWritten .postgres s) = .ok (valueOf (Pg.parse (handWritten .postgres s)))) ∧
    ((annotatedDdl s%"INTEGER").stmts.flatMap fun s => valueOf (Pg.parse (handWritten .postgres s))).length = 2 :=
  ⟨fun s hs => ⟨by revert s; simp [annotatedDdl, newDDL, Named, annotatedTable], stmtOk_of (by revert s; decide +kernel)⟩, by decide +kernel, by decide +kernel⟩

/-- A table with two columns, a key, a foreign key and comments, and an index (CockroachDB). -/
example : (∀ s ∈ (annotatedDdl s%"INT8").stmts, Named s ∧ StmtOk .cockroachdb .postgres s) ∧
    (∀ s ∈ (annotatedDdl s%"INT8").stmts, (∀ c ∈ handWritten .postgres s, c ≠ nul) ∧ Crdb.parse (handWritten .postgres s) = .ok (valueOf (Crdb.parse (handWritten .postgres s)))) ∧
    ((annotatedDdl s%"INT8").stmts.flatMap fun s => valueOf (Crdb.parse (handWritten .postgres s))).length = 2 :=
  ⟨fun s hs => ⟨by revert s; simp [annotatedDdl, newDDL, Named, annotatedTable], stmtOk_of (by revert s; decide +kernel)⟩, by decide +kernel, by decide +kernel⟩

/-- A table with two columns, a key, a foreign key and comments, and an index (MySQL). -/
example : (∀ s ∈ (annotatedDdl s%"INTEGER").stmts, Named s ∧ StmtOk .mysql .mysql s) ∧
    (∀ s ∈ (annotatedDdl s%"INTEGER").stmts, (∀ c ∈ handWritten .mysql s, c ≠ nul) ∧ My.parse (handWritten .mysql s) = .ok (valueOf (My.parse (handWritten .mysql s)))) ∧
    ((annotatedDdl s%"INTEGER").stmts.flatMap fun s => valueOf (My.parse (handWritten .mysql s))).length = 2 :=
  ⟨fun s hs => ⟨by revert s; simp [annotatedDdl, newDDL, Named, annotatedTable], stmtOk_of (by revert s; decide +kernel)⟩, by decide +kernel, by decide +kernel⟩

/-- A table with two columns, a key, a foreign key and comments, and an index (Spanner). -/
example : (∀ s ∈ (annotatedDdl s%"INT64").stmts, Named s ∧ StmtOk .spanner .spanner s) ∧
    (∀ s ∈ (annotatedDdl s%"INT64").stmts, (∀ c ∈ handWritten .spanner s, c ≠ nul) ∧ Sp.parse (handWritten .spanner s) = .ok (valueOf (Sp.parse (handWritten .spanner s)))) ∧
    ((annotatedDdl s%"INT64").stmts.flatMap fun s => valueOf (Sp.parse (handWritten .spanner s))).length = 2 :=
  ⟨fun s hs => ⟨by revert s; simp [annotatedDdl, newDDL, Named, annotatedTable], stmtOk_of (by revert s; decide +kernel)⟩, by decide +kernel, by decide +kernel⟩

/-! ## Through the commands -/

/-- C56 through the `diff` command, partial: if one side is a directory of Go sources and the other a file with the annotated statements written by
hand, then, if the file can be read, nothing differs: no output and success. -/
theorem C56_diff_partial (w : Cmd.World) (hsh : ∀ x, OneLine (w.short x)) (c : Conf.Config) (d : Dialect) (f : Flavor) (dir file : Str) (g : DDL)
    (r : Res Str)
    (hd : (c.dialect, d, f) ∈ [(s%"postgres", .postgres, .postgres), (s%"cockroachdb", .cockroachdb, .postgres), (s%"mysql", .mysql, .mysql),
      (s%"spanner", .spanner, .spanner)])
    (hl : c.language = s%"go") (h1 : w.isFile dir = false) (h2 : w.exists? dir = true) (h3 : w.parseGo dir = .ok g) (h4 : w.isFile file = true)
    (h5 : w.readFile file = .ok (handFile f g.stmts)) (hr : Diffed w.sd c.dialect (handFile f g.stmts) (handFile f g.stmts) r)
    (hi : ∀ c ∈ g.indent, Blank c) (hh : ∀ c ∈ g.header, OneLine c) (hn : ∀ s ∈ g.stmts, Named s) (hs : ∀ s ∈ g.stmts, StmtOk d f s) :
    Cmd.diffCommand w (.ok c) [dir, file] = ⟨[], .ok ()⟩ ∧ Cmd.diffCommand w (.ok c) [file, dir] = ⟨[], .ok ()⟩ := by
  have hx := lex_generated (d := d) (f := f) hsh (by
    simp only [List.mem_cons, Prod.mk.injEq, List.not_mem_nil, or_false] at hd
    rcases hd with ⟨-, rfl, rfl⟩ | ⟨-, rfl, rfl⟩ | ⟨-, rfl, rfl⟩ | ⟨-, rfl, rfl⟩ <;> decide) hi hh hn hs
  have hg : Cmd.genText w c.dialect g = .ok (fprint w.short f g) := by
    simp only [List.mem_cons, Prod.mk.injEq, List.not_mem_nil, or_false] at hd
    rcases hd with ⟨e, rfl, rfl⟩ | ⟨e, rfl, rfl⟩ | ⟨e, rfl, rfl⟩ | ⟨e, rfl, rfl⟩ <;> rw [e] <;> rfl
  have ha : Cmd.resolve w c.language c.dialect dir = .ok (fprint w.short f g) := by
    simp [Cmd.resolve, h1, h2, Cmd.generateText, Cmd.parseLang, hl, h3, hg]
  have hb : Cmd.resolve w c.language c.dialect file = .ok (handFile f g.stmts) := by
    simp [Cmd.resolve, h4, h5]
  have key : Diffed w.sd c.dialect (fprint w.short f g) (handFile f g.stmts) (.err .noDifference) ∧
      Diffed w.sd c.dialect (handFile f g.stmts) (fprint w.short f g) (.err .noDifference) := by
    generalize c.dialect = dn at hd hr
    generalize handFile f g.stmts = t at hx hr
    simp only [List.mem_cons, Prod.mk.injEq, List.not_mem_nil, or_false] at hd
    cases hr with
    | pg _ _ b a hp hp' =>
      rcases hd with ⟨-, rfl, rfl⟩ | ⟨e, -, -⟩ | ⟨e, -, -⟩ | ⟨e, -, -⟩
      · have hp2 : Pg.parse (fprint w.short .postgres g) = .ok b := by rw [← hp]; unfold Pg.parse; rw [hx]
        constructor
        · have := Diffed.pg (sd := w.sd) _ _ b b hp2 hp
          rwa [C01_no_self_difference.1 b] at this
        · have := Diffed.pg (sd := w.sd) _ _ b b hp hp2
          rwa [C01_no_self_difference.1 b] at this
      all_goals exact absurd e (by decide)
    | crdb _ _ b a hp hp' =>
      rcases hd with ⟨e, -, -⟩ | ⟨-, rfl, rfl⟩ | ⟨e, -, -⟩ | ⟨e, -, -⟩
      · exact absurd e (by decide)
      · have hp2 : Crdb.parse (fprint w.short .postgres g) = .ok b := by rw [← hp]; unfold Crdb.parse; rw [hx]
        constructor
        · have := Diffed.crdb (sd := w.sd) _ _ b b hp2 hp
          rwa [C01_no_self_difference.2.1 b] at this
        · have := Diffed.crdb (sd := w.sd) _ _ b b hp hp2
          rwa [C01_no_self_difference.2.1 b] at this
      all_goals exact absurd e (by decide)
    | my _ _ b a hp hp' =>
      rcases hd with ⟨e, -, -⟩ | ⟨e, -, -⟩ | ⟨-, rfl, rfl⟩ | ⟨e, -, -⟩
      · exact absurd e (by decide)
      · exact absurd e (by decide)
      · have hp2 : My.parse (fprint w.short .mysql g) = .ok b := by rw [← hp]; unfold My.parse; rw [hx]
        constructor
        · have := Diffed.my (sd := w.sd) _ _ b b hp2 hp
          rwa [C01_no_self_difference.2.2.1 b] at this
        · have := Diffed.my (sd := w.sd) _ _ b b hp hp2
          rwa [C01_no_self_difference.2.2.1 b] at this
      · exact absurd e (by decide)
    | sp _ _ b a hp hp' =>
      rcases hd with ⟨e, -, -⟩ | ⟨e, -, -⟩ | ⟨e, -, -⟩ | ⟨-, rfl, rfl⟩
      · exact absurd e (by decide)
      · exact absurd e (by decide)
      · exact absurd e (by decide)
      · have hp2 : Sp.parse (fprint w.short .spanner g) = .ok b := by rw [← hp]; unfold Sp.parse; rw [hx]
        constructor
        · have := Diffed.sp (sd := w.sd) _ _ b b hp2 hp
          rwa [C01_no_self_difference.2.2.2 b] at this
        · have := Diffed.sp (sd := w.sd) _ _ b b hp hp2
          rwa [C01_no_self_difference.2.2.2 b] at this
  exact ⟨C24_no_difference w c dir file _ _ ha hb key.1, C24_no_difference w c file dir _ _ hb ha key.2⟩

/-- The sample as a directory `d` and a file `f`. -/
private def annotatedWorld : Cmd.World :=
  { isFile := (· == s%"f"), exists? := fun _ => true, isDir := (· == s%"d"), joinPath := (· ++ ·)
    readFile := fun _ => .ok (handFile .postgres (annotatedDdl s%"INTEGER").stmts), openFile := fun _ => none
    parseGo := fun _ => .ok (annotatedDdl s%"INTEGER"), short := fun _ => s%"a.go", openDb := fun _ _ => none, showTables := fun _ _ => .ok []
    closeDb := fun _ => none, write := fun _ => none, sd := fun _ _ => [] }

example : ∃ (w : Cmd.World) (g : DDL) (r : Res Str), (∀ x, OneLine (w.short x)) ∧ w.isFile s%"d" = false ∧ w.exists? s%"d" = true ∧
    w.parseGo s%"d" = .ok g ∧ w.isFile s%"f" = true ∧ w.readFile s%"f" = .ok (handFile .postgres g.stmts) ∧
    Diffed w.sd s%"postgres" (handFile .postgres g.stmts) (handFile .postgres g.stmts) r ∧ (∀ c ∈ g.indent, Blank c) ∧ (∀ c ∈ g.header, OneLine c) ∧
    (∀ s ∈ g.stmts, Named s) ∧ (∀ s ∈ g.stmts, StmtOk .postgres .postgres s) ∧ g.stmts.length = 2 := by
  have hp : Pg.parse (handFile .postgres (annotatedDdl s%"INTEGER").stmts) =
      .ok (valueOf (Pg.parse (handFile .postgres (annotatedDdl s%"INTEGER").stmts))) := by decide +kernel
  refine ⟨annotatedWorld, annotatedDdl s%"INTEGER", _, ?_, rfl, rfl, rfl, rfl, rfl, Diffed.pg _ _ _ _ hp hp, ?_, ?_, ?_, ?_, rfl⟩
  · intro x; exact line_of (s := s%"a.go") (by decide +kernel)
  · unfold Blank; decide +kernel
  · intro c hc; exact line_of (by revert c; decide +kernel)
  · simp [annotatedDdl, newDDL, Named, annotatedTable]
  · intro s hs; exact stmtOk_of (by revert s; decide +kernel)

/-! ## What is generated and cannot be read -/

private def oneTable (type more : Str) (cons opts : List Str) : DDL :=
  newDDL [.table
    { sourceFile := s%"a.go", sourceLine := 12, comments := [], createTable := s%"CREATE TABLE t"
      columns := [⟨[], s%"a", type⟩, ⟨[], s%"b", type ++ more⟩], constraints := cons.map (⟨[], ·⟩)
      options := opts.map (⟨[], ·⟩), primaryKey := [s%"a"] }]

/-- Annotations that are complete SQL, from which `generate` writes a text that the parser of the same dialect refuses. -/
def GeneratedUnreadable {S : Type} (d : Dialect) (f : Flavor) (parse : Str → Res (List S)) (g : DDL) : Prop :=
  (∀ s ∈ g.stmts, StmtOk d f s) ∧ ∃ e ∈ [Err.unexpectedCurrentToken, Err.unexpectedPeekToken], parse (fprint id f g) = .err e

/-- C56 fails (PostgreSQL): a constraint `CHECK`, a `REFERENCES` or a `CHECK` of the last column before the key, a foreign key with an action, and options. -/
theorem C56_postgres_fails :
    GeneratedUnreadable .postgres .postgres Pg.parse (oneTable s%"INTEGER" [] [s%"CHECK (a > 0)"] []) ∧
    GeneratedUnreadable .postgres .postgres Pg.parse (oneTable s%"INTEGER" s%" REFERENCES u (id)" [] []) ∧
    GeneratedUnreadable .postgres .postgres Pg.parse (oneTable s%"INTEGER" s%" CHECK (b > 0)" [] []) ∧
    GeneratedUnreadable .postgres .postgres Pg.parse (oneTable s%"INTEGER" [] [s%"FOREIGN KEY (a) REFERENCES u (id) ON DELETE CASCADE"] []) ∧
    GeneratedUnreadable .postgres .postgres Pg.parse (oneTable s%"INTEGER" [] [] [s%"WITH (fillfactor=70)"]) := by
  refine ⟨?_, ?_, ?_, ?_, ?_⟩ <;> exact ⟨fun s hs => stmtOk_of (by revert s; decide +kernel), by decide +kernel⟩

/-- C56 fails (CockroachDB): as for PostgreSQL, and a constraint `UNIQUE (a)`. -/
theorem C56_cockroachdb_fails :
    GeneratedUnreadable .cockroachdb .postgres Crdb.parse (oneTable s%"INT8" [] [s%"CHECK (a > 0)"] []) ∧
    GeneratedUnreadable .cockroachdb .postgres Crdb.parse (oneTable s%"INT8" s%" REFERENCES u (id)" [] []) ∧
    GeneratedUnreadable .cockroachdb .postgres Crdb.parse (oneTable s%"INT8" s%" CHECK (b > 0)" [] []) ∧
    GeneratedUnreadable .cockroachdb .postgres Crdb.parse (oneTable s%"INT8" [] [s%"UNIQUE (a)"] []) := by
  refine ⟨?_, ?_, ?_, ?_⟩ <;> exact ⟨fun s hs => stmtOk_of (by revert s; decide +kernel), by decide +kernel⟩

/-- C56 fails (MySQL): a constraint `UNIQUE (a)`, a `REFERENCES` and a `CHECK` of the last column before the key. -/
theorem C56_mysql_fails :
    GeneratedUnreadable .mysql .mysql My.parse (oneTable s%"INTEGER" [] [s%"UNIQUE (a)"] []) ∧
    GeneratedUnreadable .mysql .mysql My.parse (oneTable s%"INTEGER" s%" REFERENCES u (id)" [] []) ∧
    GeneratedUnreadable .mysql .mysql My.parse (oneTable s%"INTEGER" s%" CHECK (b > 0)" [] []) := by
  refine ⟨?_, ?_, ?_⟩ <;> exact ⟨fun s hs => stmtOk_of (by revert s; decide +kernel), by decide +kernel⟩

/-- C56 fails (Spanner): a foreign key with an action, and a `REFERENCES` or a `CHECK` of a column. -/
theorem C56_spanner_fails :
    GeneratedUnreadable .spanner .spanner Sp.parse (oneTable s%"INT64" [] [s%"FOREIGN KEY (a) REFERENCES u (id) ON DELETE CASCADE"] []) ∧
    GeneratedUnreadable .spanner .spanner Sp.parse (oneTable s%"INT64" s%" CHECK (b > 0)" [] []) := by
  refine ⟨?_, ?_⟩ <;> exact ⟨fun s hs => stmtOk_of (by revert s; decide +kernel), by decide +kernel⟩

/-- C56 fails: a comment at the end of an annotation hides the comma that `generate` writes behind it. -/
theorem C56_comment_fails : ∃ (g g' : DDL) (A : List Pg.PStmt) (e : Err), g = oneTable s%"INTEGER" s%" -- the b" [] [] ∧ g' = oneTable s%"INTEGER" [] [] [] ∧
    Pg.parse (fprint id .postgres g') = .ok A ∧ A.length = 1 ∧ Pg.parse (fprint id .postgres g) = .err e :=
  ⟨_, _, valueOf (Pg.parse (fprint id .postgres (oneTable s%"INTEGER" [] [] []))), .unexpectedCurrentToken, rfl, rfl, by decide +kernel, by decide +kernel,
    by decide +kernel⟩

end Ddl.Props
