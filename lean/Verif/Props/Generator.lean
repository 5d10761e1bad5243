import Verif.Lemmas.Gen

/-!
# Properties of the generator: C26, C27, C28
-/

namespace Ddl.Props
open Ddl Spec Gen
set_option autoImplicit false

/-! ## C26 -/

/-- C26 (text, PostgreSQL and MySQL): between the parentheses stand all columns, then the key, then all constraints, each
once and in order, one per line, separated by commas, with no comma before the closing parenthesis.
No assumption on the table. -/
theorem C26_text (short : Str → Str) (f : Flavor) (hf : f ≠ .spanner) (indent : Str) (t : Table)
    (ht : t.createTable ≠ []) :
    ∃ (n : Column → Nat) (pre : Str), (∀ c, 0 < n c) ∧ fprintTable short f indent t =
      pre ++ commentLines [] t.comments ++ t.createTable ++ s%" (\n" ++
      commaLines (t.columns.map (fun c => columnItem (nameQuote f) indent (n c) c) ++
        (if t.primaryKey = [] then [] else [indent ++ keyList (nameQuote f) t.primaryKey]) ++
        t.constraints.map (clauseItem indent)) ++
      s%")" ++ fprintOptions t.options ++ s%";\n" := by
  refine ⟨fun c => 2 + maxNameLen t.columns - runeCount ([nameQuote f] ++ c.name ++ [nameQuote f]) + 1,
    fprintSource short t.sourceFile t.sourceLine, fun c => Nat.succ_pos _, ?_⟩
  have hkey : (if t.primaryKey.isEmpty then []
       else indent ++ s%"PRIMARY KEY (" ++ fprintKeyColumns f t.primaryKey ++ s%")" ++
        (if t.constraints.isEmpty then [] else s%",") ++ s%"\n") ++ fprintConstraints indent t.constraints =
      commaLines ((if t.primaryKey = [] then [] else [indent ++ keyList (nameQuote f) t.primaryKey]) ++
        t.constraints.map (clauseItem indent)) := by
    rw [fprintConstraints_eq]
    by_cases hk : t.primaryKey = []
    · simp [hk]
    · have e : t.primaryKey.isEmpty = false := by simpa using hk
      rw [e, if_neg hk]
      simp only [Bool.false_eq_true, if_false, List.cons_append, List.nil_append, commaLines_cons, keyList, keyColumns_eq]
      cases t.constraints <;> simp
  have hr : (!t.primaryKey.isEmpty || !t.constraints.isEmpty) =
      !List.isEmpty ((if t.primaryKey = [] then [] else [indent ++ keyList (nameQuote f) t.primaryKey]) ++
        t.constraints.map (clauseItem indent)) := by
    cases t.primaryKey <;> simp
  have hcols := columnsLoop_eq f indent (2 + maxNameLen t.columns)
    ((if t.primaryKey = [] then [] else [indent ++ keyList (nameQuote f) t.primaryKey]) ++
        t.constraints.map (clauseItem indent)) t.columns
  rw [← hkey, ← hr] at hcols
  rw [List.append_assoc (t.columns.map _), ← hcols]
  cases f with
  | spanner => exact absurd rfl hf
  | _ => simp [fprintTable, ht, fprintColumns, fprintComments_eq]

/-- C26 (text, Spanner): the key stands behind the parentheses. -/
theorem C26_text_spanner (short : Str → Str) (indent : Str) (t : Table) (ht : t.createTable ≠ []) :
    ∃ (n : Column → Nat) (pre : Str), (∀ c, 0 < n c) ∧ fprintTable short .spanner indent t =
      pre ++ commentLines [] t.comments ++ t.createTable ++ s%" (\n" ++
      commaLines (t.columns.map (fun c => columnItem '`' indent (n c) c) ++ t.constraints.map (clauseItem indent)) ++
      s%")" ++ (if t.primaryKey = [] then [] else s%" " ++ keyList '`' t.primaryKey ++
        (if t.options = [] then [] else s%",")) ++ fprintOptions t.options ++ s%";\n" := by
  refine ⟨fun c => 2 + maxNameLen t.columns - runeCount (['`'] ++ c.name ++ ['`']) + 1,
    fprintSource short t.sourceFile t.sourceLine, fun c => Nat.succ_pos _, ?_⟩
  have hcols := columnsLoop_eq .spanner indent (2 + maxNameLen t.columns) (t.constraints.map (clauseItem indent)) t.columns
  rw [← fprintConstraints_eq] at hcols
  have hr : (!List.isEmpty (t.constraints.map (clauseItem indent))) = !t.constraints.isEmpty := by simp
  rw [hr] at hcols
  simp only [nameQuote] at hcols
  rw [← hcols]
  by_cases hk : t.primaryKey = []
  · simp [fprintTable, ht, fprintColumns, fprintComments_eq, hk]
  · have e : t.primaryKey.isEmpty = false := by simpa using hk
    by_cases ho : t.options = []
    · simp [fprintTable, ht, fprintColumns, fprintComments_eq, e, ho, keyList, keyColumns_eq, hk, nameQuote]
    · have e' : t.options.isEmpty = false := by simpa using ho
      simp [fprintTable, ht, fprintColumns, fprintComments_eq, e, e', ho, keyList, keyColumns_eq, hk, nameQuote]

/-- C26 (tokens, all printers): if the pieces of SQL taken from the Go source are complete, the generated text is, token by
token, the statements in order, and each table is its name, the parenthesised comma separated list of its columns, key and
constraints, and its comma separated options, ended by a semicolon. -/
theorem C26_tokens (short : Str → Str) (hsh : ∀ x, OneLine (short x)) (d : Dialect) (f : Flavor)
    (hq : nameQuote f ∈ quotes d) (g : DDL) (hi : ∀ c ∈ g.indent, Blank c) (hh : ∀ c ∈ g.header, OneLine c)
    (hs : ∀ s ∈ g.stmts, StmtOk d f s) :
    lex d (fprint short f g) = (g.stmts.map (genToks d f)).flatten :=
  lex_of_writes (writes_before (blankRun_comments (by simp) hh) (writes_stmts hsh hi hq hs))

private def sample : Table :=
  { sourceFile := s%"a.go", sourceLine := 12, comments := [s%"-- users; DROP TABLE x", []]
    createTable := s%"CREATE TABLE users"
    columns := [⟨[s%"the id, 'unclosed"], s%"id", s%"INT NOT NULL"⟩, ⟨[], s%"na me", s%"VARCHAR(10) DEFAULT 'a,b'"⟩]
    constraints := [⟨[], s%"CHECK (a > 0)"⟩, ⟨[s%"c"], s%"UNIQUE (b)"⟩]
    options := [⟨[], s%"x"⟩, ⟨[], s%"y"⟩]
    primaryKey := [s%"id", s%"na me"] }

/-- A table with comments that look like SQL, lists of two and more, and quotes: the hypotheses of `C26_tokens` hold. -/
example : StmtOk .postgres .postgres (.table sample) ∧ StmtOk .spanner .spanner (.table sample) := by
  constructor
  all_goals
    refine TableOk.mk (writes_noDashes (by decide +kernel) (by decide +kernel)) ?_ ?_ ?_ ?_ ?_ ?_ ?_ ?_ ?_
    · intro c hc
      exact writes_noDashes (by revert c; decide +kernel) (by revert c; decide +kernel)
    · unfold Quotable; decide +kernel
    · unfold Quotable; decide +kernel
    · intro c hc
      exact writes_noDashes (by revert c; decide +kernel) (by revert c; decide +kernel)
    · intro c hc
      exact writes_noDashes (by revert c; decide +kernel) (by revert c; decide +kernel)
    all_goals (unfold OneLine; decide +kernel)

/-! ## C27 -/

/-- C27: whatever one-line comments are attached to a generated DDL (header, source positions, comments of tables, columns,
constraints, options and indexes), the generated text has the tokens of the DDL without any comment. -/
theorem C27_comments (short : Str → Str) (hsh : ∀ x, OneLine (short x)) (d : Dialect) (f : Flavor)
    (hq : nameQuote f ∈ quotes d) (g : DDL) (hi : ∀ c ∈ g.indent, Blank c) (hh : ∀ c ∈ g.header, OneLine c)
    (hs : ∀ s ∈ g.stmts, StmtOk d f s) :
    lex d (fprint short f g) = lex d (fprint short f { g with header := [], stmts := g.stmts.map bareStmt }) := by
  rw [C26_tokens short hsh d f hq g hi hh hs, C26_tokens short hsh d f hq { g with header := [], stmts := g.stmts.map bareStmt } hi (by simp) (by
    simp only [List.mem_map]
    rintro _ ⟨s, hs', rfl⟩
    exact bare_ok (hs s hs'))]
  rw [List.map_map]
  congr 2
  funext s
  exact (bare_toks d f s).symm

/-- C27, one line: a comment that fits on one line is skipped by the lexer, whatever stands behind it. -/
theorem C27_comment_line (d : Dialect) (indent c rest : Str) (hi : ∀ x ∈ indent, Blank x) (hc : OneLine c) :
    lex d (fprintComment indent c ++ rest) = lex d rest := by
  have h := blankRun_comment hi hc
  rw [lex_append (writes_blankRun h) (noMerge_blankRun h rest)]
  rfl

example : lex .postgres (fprintComment s%"    " s%"'; DROP TABLE users; --" ++ s%"x") = lex .postgres s%"x" :=
  C27_comment_line _ _ _ _ (by unfold Blank; decide) (by unfold OneLine; decide)

/-- The hypothesis of C27 is needed, and the code does not establish it: `/* ... */` comments of Go may span lines, and the
second line becomes SQL. -/
theorem C27_block_comment_fails : ∃ c : Str, lex .postgres (fprintComment [] c) ≠ [] :=
  ⟨s%"users\nDROP TABLE users;\n", by decide⟩

/-! ## C28 -/

private def asTable : Gen.Stmt → Option Table
  | .table t => some t
  | .index _ => none

/-- C28: one annotated struct gives no table if no field is included, and otherwise exactly one, whose columns are the
included fields in order (with their names and types) and whose primary key is the included fields tagged as key, in order.
The pairs of a tag are those of `FieldPairs`; by `C28_tags` every tag has them. -/
theorem C28_columns (env : Env) (r : Source) (stmts : List Gen.Stmt) (tags : Field → List (Str × Str))
    (hp : ∀ f ∈ r.fields.getD [], FieldPairs env f (tags f)) (h : translateSource env r = .ok stmts) :
    ((∀ x ∈ r.fields.getD [], ¬ Included tags env x) ∧ stmts.filterMap asTable = []) ∨
    ∃ t, stmts.filterMap asTable = [t] ∧ t.columns ≠ [] ∧
      t.columns.map (fun c => (c.name, c.typeConstraint)) =
        ((r.fields.getD []).filter (fun x => Included tags env x)).map (fun x => (columnNameOf tags env x, tagValue tags x env.ddlTag)) ∧
      t.primaryKey = ((r.fields.getD []).filter (fun x => Included tags env x ∧ TaggedKey tags env x)).map (columnNameOf tags env) := by
  unfold translateSource at h
  cases ht : translateTable env r <;> rw [ht] at h <;> try (simp at h; done)
  rename_i x
  obtain ⟨t, idx⟩ := x
  have hk := translateTable_ok hp ht
  have hidx : idx.filterMap asTable = [] := by
    rw [← hk.2.2]; rfl
  simp only [Res.ok_bind, Res.ok.injEq] at h
  subst h
  by_cases hc : t.columns = []
  · left
    refine ⟨?_, by simp [hc, hidx]⟩
    intro x hx hI
    have hm : x ∈ (r.fields.getD []).filter (fun x => Included tags env x) := List.mem_filter.2 ⟨hx, decide_eq_true hI⟩
    have he : ((r.fields.getD []).filter (fun x => Included tags env x)) = [] := by
      rw [hc] at hk
      exact List.map_eq_nil_iff.1 hk.1.symm
    rw [he] at hm
    cases hm
  · right
    exact ⟨t, by simp [hc, hidx, asTable], hc, hk.1, hk.2.1⟩

/-- C28: every tag literal has its pairs, and those written in the usual way (keys and values separated by blanks) are the pairs
one sees. -/
theorem C28_tags (env : Env) :
    (∀ f : Field, f.tag ≠ none → ∃ ps, FieldPairs env f ps) ∧
    ∀ (f : Field) (inner : Str) (ps : List (Str × Str)), '`' ∉ inner → f.tag = some (s%"`" ++ inner ++ s%"`") →
      (FieldPairs env f ps ↔ TagPairs env.unquote inner ps) := by
  refine ⟨fun f hf => fieldPairs_exists env hf, fun f inner ps hq hf => ⟨?_, ?_⟩⟩
  · rintro ⟨m, n, inner', e, h1, h2, hps⟩
    rw [hf] at e
    have := congrArg (Option.map (trimC '`')) e
    rw [Option.map_some, Option.map_some, trimC_replicate m n h1 h2] at this
    have hh : inner.head? ≠ some '`' := fun h => hq (List.mem_of_head? h)
    have hl : inner.getLast? ≠ some '`' := fun h => hq (List.mem_of_getLast? h)
    rw [show s%"`" ++ inner ++ s%"`" = List.replicate 1 '`' ++ inner ++ List.replicate 1 '`' from rfl,
      trimC_replicate 1 1 hh hl] at this
    cases this
    exact hps
  · intro h
    exact ⟨1, 1, inner, hf, fun h => hq (List.mem_of_head? h), fun h => hq (List.mem_of_getLast? h), h⟩

/-- The statement of C28 about tags does not hold for tags written as interpreted string literals (`"db:\"id\" ..."`), which
Go treats like the raw ones: the code does not unquote them, finds no pair, and drops the field without a word. -/
theorem C28_interpreted_tag_fails (env : Env) (f : Field) (inner : Str) (hf : f.tag = some (s%"\"" ++ inner ++ s%"\""))
    (tags : Field → List (Str × Str)) (hp : FieldPairs env f (tags f)) : tags f = [] ∧ ¬ Included tags env f := by
  have e : tags f = [] := by
    obtain ⟨m, n, inner', e, h1, h2, hps⟩ := hp
    rw [hf] at e
    have ht := congrArg (Option.map (trimC '`')) e
    rw [Option.map_some, Option.map_some, trimC_replicate m n h1 h2,
      show s%"\"" ++ inner ++ s%"\"" = List.replicate 0 '`' ++ (s%"\"" ++ inner ++ s%"\"") ++ List.replicate 0 '`' by simp,
      trimC_replicate 0 0 (by simp) (by rw [List.getLast?_append]; simp)] at ht
    cases ht
    generalize tags f = ps at hps
    cases hps with
    | done _ => rfl
    | pair h _ =>
      exfalso
      obtain ⟨k, e, ⟨hk, hk2⟩, -⟩ := h
      rename_i name _ _ _
      obtain ⟨c, k', rfl⟩ := List.exists_cons_of_ne_nil hk
      cases k with
      | zero =>
        simp only [List.replicate_zero, List.nil_append, List.cons_append, List.cons.injEq] at e
        exact (hk2 c (by simp)).2.2.1 e.1.symm
      | succ k =>
        simp only [List.replicate_succ, List.nil_append, List.cons_append, List.cons.injEq] at e
        exact absurd e.1 (by decide)
  refine ⟨e, fun h => h.2 ?_⟩
  simp [tagValue, e]

/-- C28: the translation succeeds if every field has a tag literal and a name. -/
theorem C28_safe (env : Env) (r : Source) (h : ∀ f ∈ r.fields.getD [], f.tag ≠ none ∧ f.names ≠ []) :
    ∃ l, translateSource env r = .ok l := by
  obtain ⟨x, hx⟩ := translateTable_safe (env := env) h
  unfold translateSource
  rw [hx]
  exact ⟨_, rfl⟩

/-- The code crashes on a field without a tag literal, and on an embedded field without a column tag. -/
theorem C28_panics (env : Env) (r : Source) (fd : Field) (rest : List Field) (hr : r.fields = some (fd :: rest)) :
    (fd.tag = none → translateSource env r = .panic .nilDeref) ∧
    (fd.names = [] → fd.tag = some [] → translateSource env r = .panic .indexRange) := by
  constructor
  · intro h
    simp [translateSource, translateTable, structColumns, hr, fieldLoop, fieldStep, h]
  · intro h1 h2
    have e : ∀ key, tagGet env [] key = [] := fun key => rfl
    simp [translateSource, translateTable, structColumns, hr, fieldLoop, fieldStep, h2, e, firstName, h1]

private def env0 : Env := ⟨s%"db", s%"pgddl", s%"pk", id, fun s => some ((s.drop 1).dropLast)⟩

private def src0 : Source :=
  { file := s%"a.go", line := 3, comments := [⟨s%"// pgddl: table: users", 3⟩], typeName := some s%"User"
    fields := some [⟨[s%"ID"], some s%"`db:\"id\" pgddl:\"INT\" pk:\"true\"`", []⟩,
      ⟨[s%"Skip"], some s%"`db:\"-\" pgddl:\"INT\"`", []⟩, ⟨[s%"Name"], some s%"`pgddl:\"TEXT\"`", [s%"doc"]⟩,
      ⟨[s%"Other"], some s%"`db:\"other\"`", []⟩] }

/-- An instance of `C28_columns` with included, ignored and untagged fields. -/
example : (match translateSource env0 src0 with
    | .ok l => (l.filterMap asTable).map (fun t => (t.columns.map (fun c => (c.name, c.typeConstraint)), t.primaryKey))
    | _ => []) = [([(s%"id", s%"INT"), (s%"Name", s%"TEXT")], [s%"id"])] := by decide +kernel

/-- The pairs of a tag. -/
example : TagPairs env0.unquote s%"db:\"id\" pgddl:\"INT\"" [(s%"db", s%"id"), (s%"pgddl", s%"INT")] := by
  have q : ∀ s : Str, (∀ c ∈ s, c ≠ '"' ∧ c ≠ '\\') → QuotedBody s := by
    intro s h
    induction s with
    | nil => exact .nil
    | cons c r ih => exact .plain (h c (by simp)).1 (h c (by simp)).2 (ih (fun x hx => h x (by simp [hx])))
  refine TagPairs.pair (k := s%"db") (body := s%"id") (rest := s%" pgddl:\"INT\"") ⟨0, rfl, ⟨by simp, by decide⟩, q _ (by decide)⟩ ?_
  refine TagPairs.pair (k := s%"pgddl") (body := s%"INT") (rest := []) ⟨1, rfl, ⟨by simp, by decide⟩, q _ (by decide)⟩ ?_
  exact .done fun k body rest h => absurd (pairAt_length h) (by simp)

/-- The same field with an interpreted tag is lost. -/
example : (match translateSource env0 { src0 with fields := some [⟨[s%"ID"], some s%"\"db:\\\"id\\\" pgddl:\\\"INT\\\"\"", []⟩] } with
    | .ok l => l.length
    | _ => 7) = 0 := by decide +kernel

end Ddl.Props
