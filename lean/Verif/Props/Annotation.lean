import Verif.Lemmas.Files

/-!
# Properties of the extraction of annotations from Go files: C28 (whole files), C42, C43, C44, C45
-/

namespace Ddl.Props
open Ddl Spec Gen
set_option autoImplicit false

/-! ## C28, whole files -/

/-- C28, whole files: the statements of a file are those of the comment groups with the tag, none lost and none added. -/
theorem C28_file (env : Env) (f : GoFile) (l : List Gen.Stmt) (h : parseFile env f = .ok l) :
    ∃ (nodes : List Node) (rs : List Source) (ls : List (List Gen.Stmt)), f.nodes = some nodes ∧
      List.Forall₂ (SourceOf env.ddlTag f.path) (taggedGroups env.ddlTag nodes) rs ∧
      List.Forall₂ (fun r l => translateSource env r = .ok l) rs ls ∧ l.Perm ls.flatten := by
  obtain ⟨nodes, rs, ls, h1, h2, -, h4, rfl⟩ := parseFile_ok h
  exact ⟨nodes, rs, ls, h1, h2, mem_of_map_ok h4, sortStmts_perm _⟩

/-! ## C42 -/

/-- C42, where every annotation line of the group has the configured tag: the name of the table is the last one annotated (or
the name of the struct), and the constraints, options and indexes are those annotated, in order. -/
theorem C42_contents_partial (env : Env) (r : Source) (txt : CommentLine → Str) (as : List (Option (Key × Str))) (t : Table)
    (idx : List Gen.Stmt) (hc : ∀ c ∈ r.comments, CommentText c.text (txt c))
    (ha : List.Forall₂ (Says (· = env.ddlTag)) (r.comments.map txt) as) (h : translateTable env r = .ok (t, idx)) :
    ((textsOf .table as).getLast?.or r.typeName).elim (t.createTable = []) (fun x => Creates s%"TABLE" x t.createTable) ∧
    t.constraints.map (·.text) = textsOf .constraint as ∧
    t.options.map (·.text) = textsOf .option as ∧
    List.Forall₂ (fun x s => ∃ i, s = Gen.Stmt.index i ∧ Creates s%"INDEX" x i.createIndex) (textsOf .index as) idx :=
  contents_any hc ha h

/-- C42 fails: the word in front of the key is never compared with the tag, so the annotations of every other tool and dialect
in the group count as well. -/
theorem C42_foreign_tag_fails (env : Env) (r : Source) (txt : CommentLine → Str) (as : List (Option (Key × Str))) (t : Table)
    (idx : List Gen.Stmt) (hc : ∀ c ∈ r.comments, CommentText c.text (txt c))
    (ha : List.Forall₂ (Says (fun _ => True)) (r.comments.map txt) as) (h : translateTable env r = .ok (t, idx)) :
    ((textsOf .table as).getLast?.or r.typeName).elim (t.createTable = []) (fun x => Creates s%"TABLE" x t.createTable) ∧
    t.constraints.map (·.text) = textsOf .constraint as ∧
    t.options.map (·.text) = textsOf .option as ∧
    List.Forall₂ (fun x s => ∃ i, s = Gen.Stmt.index i ∧ Creates s%"INDEX" x i.createIndex) (textsOf .index as) idx :=
  contents_any hc ha h

private def env1 : Env := ⟨s%"db", s%"pgddl", s%"pk", id, fun s => some ((s.drop 1).dropLast)⟩

private def fields1 : List Field := [⟨[s%"ID"], some s%"`db:\"id\" pgddl:\"INT\" pk:\"true\"`", []⟩]

private def src1 : Source :=
  { file := s%"a.go", line := 3
    comments := [⟨s%"// User is a user.", 2⟩, ⟨s%"// pgddl: table: users", 3⟩, ⟨s%"// pgddl: constraint: UNIQUE (name)", 4⟩,
      ⟨s%"// pgddl: index: CREATE INDEX i ON users (name)", 5⟩]
    typeName := some s%"User", fields := some fields1 }

private def src2 : Source :=
  { src1 with comments := [⟨s%"// pgddl: table: users", 2⟩, ⟨s%"// spanddl: table: Users", 3⟩, ⟨s%"// spanddl: option: PRIMARY KEY (Id)", 4⟩] }

private def shown (x : Res (Table × List Gen.Stmt)) : List (Str × List Str × List Str × List Str) :=
  match x with
  | .ok (t, idx) => [(t.createTable, t.constraints.map (·.text), t.options.map (·.text),
      idx.filterMap (fun s => match s with | .index i => some i.createIndex | .table _ => none))]
  | _ => []

example : shown (translateTable env1 src1) =
    [(s%"CREATE TABLE users", [s%"UNIQUE (name)"], [], [s%"CREATE INDEX i ON users (name)"])] := by decide +kernel

/-- The hypotheses of `C42_contents_partial` on a line of this group. -/
example : CommentText s%"// pgddl: table: users" s%"pgddl: table: users" ∧
    Says (· = env1.ddlTag) s%"pgddl: table: users" (some (.table, s%"users")) := by
  refine ⟨⟨s%"//", s%" ", rfl, .inl rfl, by decide, .inr ⟨'p', _, rfl, by decide, by decide⟩, by decide, by decide⟩,
    s%"pgddl", rfl, s%" ", s%"table", ':', s%" ", rfl, ⟨by decide, by decide⟩, by decide, by decide,
    show ∀ c ∈ s%" ", Sp c by decide, by decide, .inl rfl, show ∀ c ∈ s%" ", Sp c by decide,
    ⟨'u', s%"sers", rfl, by decide⟩, by decide, by decide, by decide⟩

/-- The lines for Spanner change the table for PostgreSQL: the name is Spanner's, and its option stands behind the table. -/
example : shown (translateTable env1 src2) = [(s%"CREATE TABLE Users", [], [s%"PRIMARY KEY (Id)"], [])] := by decide +kernel

/-- The closing mark of a comment `/* ... */` becomes part of the name. -/
theorem C42_block_comment_fails : ∃ (env : Env) (r : Source) (t : Table),
    r.comments = [⟨s%"/* pgddl: table: users */", 3⟩] ∧ translateTable env r = .ok (t, []) ∧
    t.createTable = s%"CREATE TABLE users */" := by
  refine ⟨env1, { src1 with comments := [⟨s%"/* pgddl: table: users */", 3⟩] },
    { sourceFile := s%"a.go", sourceLine := 3, comments := [s%"pgddl: table: users */"], createTable := s%"CREATE TABLE users */"
      columns := [⟨[], s%"id", s%"INT"⟩], constraints := [], options := [], primaryKey := [s%"id"] }, rfl, ?_, rfl⟩
  decide +kernel

/-! ## C43 -/

/-- C43 (order): the statements of a file come in the order of their lines. -/
theorem C43_sorted (env : Env) (f : GoFile) (l : List Gen.Stmt) (h : parseFile env f = .ok l) (hl : ∀ s ∈ l, s.line < 10 ^ 9) :
    l.Pairwise (fun a b => a.line ≤ b.line) := parseFile_sorted h hl

/-- C43 (a table precedes its indexes), where the text of no index annotation of the group is found in the lines up to the first
line with the tag, and the lines are numbered upwards. -/
theorem C43_table_first_partial (env : Env) (f : GoFile) (nodes : List Node) (l : List Gen.Stmt) (hn : f.nodes = some nodes)
    (h : parseFile env f = .ok l) (hl : ∀ s ∈ l, s.line < 10 ^ 9)
    (p : Node × List CommentLine) (hp : p ∈ taggedGroups env.ddlTag nodes) (hup : p.2.Pairwise (fun a b => a.line < b.line))
    (txt : CommentLine → Str) (hc : ∀ c ∈ p.2, CommentText c.text (txt c))
    (hi : ∀ pre c post, p.2 = pre ++ c :: post → (∀ x ∈ pre, ¬ TagLine env.ddlTag x.text) → ∀ e ∈ p.2, KeyShaped .index (txt e) →
      ∀ d ∈ pre ++ [c], ¬ ∃ a b, d.text = a ++ txt e ++ b) :
    ∃ r l', SourceOf env.ddlTag f.path p r ∧ translateSource env r = .ok l' ∧ ∀ t i, Gen.Stmt.table t ∈ l' → Gen.Stmt.index i ∈ l' →
      ∃ a b c, l = a ++ Gen.Stmt.table t :: b ++ Gen.Stmt.index i :: c := by
  obtain ⟨nodes', rs, ls, h1, h2, -, h4, h5⟩ := parseFile_ok h
  rw [hn] at h1
  cases h1
  obtain ⟨r, hr, hpr⟩ := forall₂_mem_l h2 p hp
  obtain ⟨l', hl', htr⟩ := forall₂_mem_l (mem_of_map_ok h4) r hr
  refine ⟨r, l', hpr, htr, ?_⟩
  intro t i ht hix
  have hin : ∀ s ∈ l', s ∈ l := by
    intro s hs
    rw [h5, (sortStmts_perm _).mem_iff, List.mem_flatten]
    exact ⟨l', hl', hs⟩
  refine sorted_before (parseFile_sorted h hl) (hin _ ht) (hin _ hix) ?_
  obtain ⟨t', idx, htt, rfl⟩ := translateSource_ok htr
  have hT := translateTable_contents htt
  have hix : Gen.Stmt.index i ∈ idx := by
    rcases List.mem_append.1 hix with hix | hix
    · exact hix
    · split at hix <;> simp at hix
  have ht : t.sourceLine = r.line := by
    rcases List.mem_append.1 ht with ht | ht
    · rw [hT.2.2.2.2.2, List.mem_filterMap] at ht
      obtain ⟨s, -, hs⟩ := ht
      split at hs <;> cases hs
    · split at ht
      · cases ht
      · simp only [List.mem_singleton, Gen.Stmt.table.injEq] at ht
        rw [ht, hT.2.1]
  obtain ⟨-, hcs, ⟨pre, c, post, hsplit, -, hpre, hline⟩, -, -⟩ := hpr
  obtain ⟨d, hd, e, he, hk, hdl, hinf⟩ := index_line htt hix
  rw [hcs] at hd he
  rw [trimComment_eq (hc e he)] at hk hinf
  show t.sourceLine < (Gen.Stmt.index i).line
  rw [ht, hline, hdl]
  have hnd := hi pre c post hsplit hpre e he hk
  rw [hsplit] at hd hup
  rcases List.mem_append.1 hd with hd | hd
  · exact absurd hinf (hnd d (by simp [hd]))
  · rcases List.mem_cons.1 hd with rfl | hd
    · exact absurd hinf (hnd d (by simp))
    · exact (List.pairwise_cons.1 (List.pairwise_append.1 hup).2.1).1 d hd

private def file1 : GoFile := ⟨s%"a.go", some [⟨[src1.comments], [(s%"User", some fields1)]⟩]⟩

private def lines (x : Res (List Gen.Stmt)) : List (Bool × Nat) :=
  match x with
  | .ok l => l.map (fun s => (isTable s, s.line))
  | _ => []

example : lines (parseFile env1 file1) = [(true, 3), (false, 5)] := by decide +kernel

/-- The main hypothesis of `C43_table_first_partial` on this file. -/
example : ∀ pre c post, src1.comments = pre ++ c :: post → (∀ x ∈ pre, ¬ TagLine env1.ddlTag x.text) → ∀ e ∈ src1.comments,
    KeyShaped .index (trimComment e.text) → ∀ d ∈ pre ++ [c], ¬ ∃ a b, d.text = a ++ trimComment e.text ++ b := by
  intro pre c post hs hp e he hk d hd hx
  have h1 : ∀ e ∈ src1.comments, matchKey .index (trimComment e.text) ≠ none →
      ∀ d ∈ src1.comments.take 3, contains d.text (trimComment e.text) = false := by decide +kernel
  have hd3 : d ∈ src1.comments.take 3 := by
    have hlen : pre.length ≤ 2 := by
      apply Classical.byContradiction
      intro hgt
      have hm : src1.comments[1] ∈ pre := by
        have : src1.comments[1]? = pre[1]? := by rw [hs, List.getElem?_append_left (by omega)]
        exact List.mem_of_getElem? (this.symm.trans rfl)
      exact hp _ hm (hasTag_iff.1 (by decide +kernel))
    have : pre ++ [c] <+: src1.comments := ⟨post, by rw [hs]; simp⟩
    have h2 : pre ++ [c] <+: src1.comments.take 3 := List.prefix_take_iff.2 ⟨this, by simp; omega⟩
    exact h2.subset hd
  have := h1 e he (fun h => matchKey_none.1 h hk) d hd3
  rw [substring_iff.2 hx] at this
  cases this

/-- C43 fails if the index is annotated in the first line with the tag: table and index have the same line, and the index is
created before its table. -/
theorem C43_index_first_fails : ∃ (env : Env) (f : GoFile) (i : Index) (t : Table),
    f.nodes = some [⟨[[⟨s%"// pgddl: index: CREATE INDEX i ON users (id)", 3⟩, ⟨s%"// pgddl: table: users", 4⟩]],
      [(s%"User", some fields1)]⟩] ∧
    parseFile env f = .ok [.index i, .table t] ∧
    i.createIndex = s%"CREATE INDEX i ON users (id)" ∧ t.createTable = s%"CREATE TABLE users" := by
  refine ⟨env1, ⟨s%"a.go", _⟩, ⟨s%"a.go", 3, [s%"pgddl: index: CREATE INDEX i ON users (id)"], s%"CREATE INDEX i ON users (id)"⟩,
    { sourceFile := s%"a.go", sourceLine := 3, comments := [s%"pgddl: table: users"], createTable := s%"CREATE TABLE users"
      columns := [⟨[], s%"id", s%"INT"⟩], constraints := [], options := [], primaryKey := [s%"id"] }, rfl, ?_, rfl, rfl⟩
  decide +kernel

/-! ## C44 -/

/-- C44: a directory gives the statements of its Go files that are no tests, in the order of the walk.  Files without an
annotation are left out, and everything else that goes wrong ends the run without a result. -/
theorem C44_walk (env : Env) (es : List Entry) (l : List Gen.Stmt) :
    walk env es = .ok l ↔
      (∀ e ∈ es, e ≠ .failed ∧ ∀ f, e = .file f → Eligible f.path → Unannotated env.ddlTag f ∨ ∃ l, parseFile env f = .ok l) ∧
      l = es.flatMap (contribution env) := walk_ok

/-- C44: a file is taken for one without annotation exactly if none of its comments has the tag, and the only other error of a
file is that Go cannot parse it. -/
theorem C44_not_found (env : Env) (f : GoFile) :
    (parseFile env f = .err annotationNotFound ↔ Unannotated env.ddlTag f) ∧
    (∀ e, parseFile env f = .err e → e = annotationNotFound ∨ f.nodes = none) :=
  ⟨parseFile_notFound, fun _ h => (parseFile_err h).imp id And.left⟩

example : lines (walk env1 [.dir s%"a", .file ⟨s%"a/a_test.go", none⟩, .file ⟨s%"a/README.md", none⟩, .file ⟨s%"a/b.go", some []⟩,
    .file file1]) = [(true, 3), (false, 5)] := by decide +kernel

example : walk env1 [.file file1, .file ⟨s%"a/broken.go", none⟩] = .err ioError := by decide +kernel

/-! ## C45 -/

/-- C45 (count): a file gives one table for each comment group with the tag whose node has a struct with columns. -/
theorem C45_count (tags : Field → List (Str × Str)) (env : Env) (f : GoFile) (nodes : List Node) (l : List Gen.Stmt)
    (hn : f.nodes = some nodes) (hp : ∀ n ∈ nodes, ∀ fs, some fs ∈ n.specs.map Prod.snd → ∀ x ∈ fs, FieldPairs env x (tags x))
    (h : parseFile env f = .ok l) :
    (l.filter isTable).length = ((taggedGroups env.ddlTag nodes).filter (fun p => HasColumns tags env p.1)).length :=
  parseFile_tables hn hp h

open scoped Classical in
/-- C45 (one table for each annotated struct), where no declaration has two comment groups with the tag. -/
theorem C45_once_partial (tags : Field → List (Str × Str)) (env : Env) (f : GoFile) (nodes : List Node) (l : List Gen.Stmt)
    (hn : f.nodes = some nodes) (hp : ∀ n ∈ nodes, ∀ fs, some fs ∈ n.specs.map Prod.snd → ∀ x ∈ fs, FieldPairs env x (tags x))
    (hone : ∀ n ∈ nodes, (n.groups.filter (fun g => Tagged env.ddlTag g)).length ≤ 1) (h : parseFile env f = .ok l) :
    (l.filter isTable).length =
      (nodes.filter (fun n => HasColumns tags env n ∧ ∃ g ∈ n.groups, Tagged env.ddlTag g)).length := by
  rw [parseFile_tables hn hp h, ← taggedGroups_once hone (HasColumns tags env)]

/-- The file of the example above has one declaration, with one comment group and columns. -/
example : file1.nodes.map (·.map (fun n => (n.groups.length, n.specs.map Prod.fst))) = some [(1, [s%"User"])] ∧
    (lines (parseFile env1 file1)).filter (·.1) = [(true, 3)] := by decide +kernel

/-- C45 fails if a declaration has two comment groups with the tag, as it has when an annotation stands right behind the struct:
the table is created twice, the second time with the name of the struct. -/
theorem C45_twice_fails : ∃ (env : Env) (f : GoFile) (t1 t2 : Table) (i : Index),
    f.nodes = some [⟨[[⟨s%"// pgddl: table: users", 3⟩], [⟨s%"// pgddl: index: CREATE INDEX i ON users (id)", 7⟩]],
      [(s%"User", some fields1)]⟩] ∧
    parseFile env f = .ok [.table t1, .index i, .table t2] ∧
    t1.createTable = s%"CREATE TABLE users" ∧ t2.createTable = s%"CREATE TABLE User" ∧ t1.columns = t2.columns := by
  refine ⟨env1, ⟨s%"a.go", _⟩,
    { sourceFile := s%"a.go", sourceLine := 3, comments := [s%"pgddl: table: users"], createTable := s%"CREATE TABLE users"
      columns := [⟨[], s%"id", s%"INT"⟩], constraints := [], options := [], primaryKey := [s%"id"] },
    { sourceFile := s%"a.go", sourceLine := 7
      comments := [s%"WARN: the comment (a.go:7) does not have a key for table (pgddl: table: CREATE TABLE <table>), so the struct name \"User\" is used as the table name."]
      createTable := s%"CREATE TABLE User"
      columns := [⟨[], s%"id", s%"INT"⟩], constraints := [], options := [], primaryKey := [s%"id"] },
    ⟨s%"a.go", 7, [s%"pgddl: index: CREATE INDEX i ON users (id)"], s%"CREATE INDEX i ON users (id)"⟩, rfl, ?_, rfl, rfl, rfl⟩
  decide +kernel

/-- C45 fails for a declaration of several types under one annotation: only the last struct gives a table, and it takes the name
of the last type, which may be another one. -/
theorem C45_group_fails : ∃ (env : Env) (f : GoFile) (t : Table),
    f.nodes = some [⟨[[⟨s%"// pgddl: constraint: UNIQUE (id)", 3⟩]],
      [(s%"User", some [⟨[s%"Name"], some s%"`db:\"name\" pgddl:\"TEXT\"`", []⟩]), (s%"Group", some fields1), (s%"Kind", none)]⟩] ∧
    parseFile env f = .ok [.table t] ∧ t.createTable = s%"CREATE TABLE Kind" ∧ t.columns = [⟨[], s%"id", s%"INT"⟩] := by
  refine ⟨env1, ⟨s%"a.go", _⟩,
    { sourceFile := s%"a.go", sourceLine := 3
      comments := [s%"pgddl: constraint: UNIQUE (id)", s%"WARN: the comment (a.go:3) does not have a key for table (pgddl: table: CREATE TABLE <table>), so the struct name \"Kind\" is used as the table name."]
      createTable := s%"CREATE TABLE Kind"
      columns := [⟨[], s%"id", s%"INT"⟩], constraints := [⟨[], s%"UNIQUE (id)"⟩], options := [], primaryKey := [s%"id"] }, rfl, ?_, rfl, rfl⟩
  decide +kernel

end Ddl.Props
