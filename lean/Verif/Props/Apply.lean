import Verif.Lemmas.Apply
import Verif.Props.Cmd

/-!
# Properties of `apply`: C17-C22
-/

namespace Ddl.Props
open Ddl Spec Cmd Conf Ddl.Apply
set_option autoImplicit false

/-! ## C17 -/

/-- C17: a query is only sent if the configuration was loaded, two arguments were given, their texts differ, the migration was
shown first, and auto-approve is set or the user typed `yes`. -/
theorem C17_approval (w : Site) (cfg : Res Config) (args : List Str) (stdin q : Str) (ans : Option Str)
    (h : .query q ans ∈ (applyCommand w cfg args stdin).1) :
    ∃ c l r a b t, cfg = .ok c ∧ args = [l, r] ∧ resolve w.toWorld c.language c.dialect l = .ok a ∧
      resolve w.toWorld c.language c.dialect r = .ok b ∧ Diffed w.sd c.dialect a b (.ok t) ∧
      (c.autoApprove = true ∨ TypedYes stdin) ∧
      ∃ pre post rest, (applyCommand w cfg args stdin).1 = .print (pre ++ t ++ post) :: rest := by
  have hq : queriesOf (applyCommand w cfg args stdin).1 ≠ [] := by
    have : ∀ l : List Event, .query q ans ∈ l → queriesOf l ≠ [] := by
      intro l
      induction l with
      | nil => simp
      | cons x l ih =>
        intro hm
        cases x with
        | print t => simpa [queriesOf] using ih (by simpa using hm)
        | query a b => simp [queriesOf]
    exact this _ h
  rcases applyCommand_cases w cfg args stdin with ⟨h1, -⟩ | ⟨c, l, r, t, pre, h1, h2, h3, h4, h5, -, -⟩
  · exact absurd h1 hq
  · obtain ⟨a, ha, h3⟩ := bind_ok_iff.1 h3
    obtain ⟨b, hb, h3⟩ := bind_ok_iff.1 h3
    exact ⟨c, l, r, a, b, t, h1, h2, ha, hb, diffText_diffed h3 (.inl ⟨t, rfl⟩), h4, _, _, _, h5⟩

/-- C17: if nothing differs, nothing is sent. -/
theorem C17_no_difference (w : Site) (c : Config) (l r a b stdin : Str) (ha : resolve w.toWorld c.language c.dialect l = .ok a)
    (hb : resolve w.toWorld c.language c.dialect r = .ok b) (h : Diffed w.sd c.dialect a b (.err .noDifference)) :
    queriesOf (applyCommand w (.ok c) [l, r] stdin).1 = [] ∧ (applyCommand w (.ok c) [l, r] stdin).2 = .ok () := by
  have : diffSources w.toWorld c.dialect c.language l r = .err .noDifference := by
    simp [diffSources, ha, hb, diffText_of_diffed h]
  simp [applyCommand, this, queriesOf]

/-- C17: any answer but `yes` is a refusal. -/
theorem C17_refused (w : Site) (c : Config) (args : List Str) (stdin : Str) (ha : c.autoApprove = false) (hy : ¬ TypedYes stdin) :
    queriesOf (applyCommand w (.ok c) args stdin).1 = [] := by
  rcases applyCommand_cases w (.ok c) args stdin with ⟨h1, -⟩ | ⟨c', l, r, t, pre, h1, h2, h3, h4, h5, -, -⟩
  · exact h1
  · cases h1
    rcases h4 with h4 | h4
    · rw [ha] at h4; simp at h4
    · exact absurd h4 hy

/-! ## C18 -/

/-- C18 (MySQL, PostgreSQL, CockroachDB), partial: if the shown text consists of comment lines and of statements free of `--`,
`;` at a line end, empty lines and CR LF, then the queries are these statements in the order shown, the whole list once or (C22)
several times. Missing: statements with such texts inside literals, see `C18_literal_fails`; lines of 64 KiB, see
`C18_long_line_fails`. -/
theorem C18_statements_partial (w : Site) (c : Config) (l r t stdin : Str) (bodies : List Str)
    (hd : diffSources w.toWorld c.dialect c.language l r = .ok t) (hsp : c.dialect ≠ s%"spanner") (hs : Shown t bodies)
    (hl : ShortLines t) :
    ∃ k, (queriesOf (applyCommand w (.ok c) [l, r] stdin).1).map Prod.fst = (List.replicate k bodies).flatten ∧
      ((applyCommand w (.ok c) [l, r] stdin).2 = .ok () → 0 < k) := by
  rcases run_queries (stdin := stdin) hd with ⟨h1, h2⟩ | ⟨h1, h2⟩
  · exact ⟨0, by simp [h1], fun h => absurd h h2⟩
  rw [h1, h2]
  rcases applyDdl_split (w := w) (dsn := l) (t := t) (diffSources_supported hd) hsp with ⟨e, he⟩ | ⟨ig, -, he⟩
  · exact ⟨0, by simp [he], by simp [he]⟩
  rw [he, splitExec]
  obtain ⟨ps, g1, -, g3, -, g5, -⟩ := retryLoop_spec w ig (splitStmts (removeComments s%"--" t))
    (w.attempts (splitStmts (removeComments s%"--" t)).length) [] answered_nil
  rw [g1]
  rw [pieces_shown hs hl, nonempty_bodies (shown_clean hs)] at g3
  simp only [nonempty_empty, nonempty_nil, List.append_nil] at g3
  refine ⟨ps.length, ?_, ?_⟩
  · rw [List.nil_append, List.map_flatten]
    congr 1
    exact List.eq_replicate_iff.2 ⟨by simp, by simpa using g3⟩
  · intro hok
    obtain ⟨ps', p, e, -⟩ := g5 hok
    simp [e]

/-- C18 (Spanner), partial: under the same hypotheses the queries are a prefix of the statements in the order shown, wrapped in
START BATCH DDL and RUN BATCH; the whole list if `apply` succeeds. -/
theorem C18_spanner_partial (w : Site) (c : Config) (l r t stdin : Str) (bodies : List Str)
    (hd : diffSources w.toWorld c.dialect c.language l r = .ok t) (hsp : c.dialect = s%"spanner") (hs : Shown t bodies)
    (hf : DropsCommentLines w.withoutCommentLines) :
    (queriesOf (applyCommand w (.ok c) [l, r] stdin).1).map Prod.fst <+: s%"START BATCH DDL" :: bodies ++ [s%"RUN BATCH"] ∧
    ((applyCommand w (.ok c) [l, r] stdin).2 = .ok () →
      (queriesOf (applyCommand w (.ok c) [l, r] stdin).1).map Prod.fst = s%"START BATCH DDL" :: bodies ++ [s%"RUN BATCH"]) := by
  rcases run_queries (stdin := stdin) hd with ⟨h1, h2⟩ | ⟨h1, h2⟩
  · exact ⟨by simp [h1], fun h => absurd h h2⟩
  rw [h1, h2, hsp]
  rcases applyDdl_spanner (w := w) (dsn := l) (t := t) with ⟨e, he⟩ | he
  · exact ⟨by simp [he], by simp [he]⟩
  rw [he, dropLines_shown hf hs, splitStmts_bodies bodies (fun b hb => (shown_clean hs b hb).noEnd)]
  have hq : nonempty (s%"START BATCH DDL" :: (bodies ++ [[]]) ++ [s%"RUN BATCH"]) = s%"START BATCH DDL" :: bodies ++ [s%"RUN BATCH"] := by
    rw [List.cons_append, nonempty_cons (by simp), List.append_assoc]
    have : ∀ bs : List Str, (∀ b ∈ bs, Clean b) → nonempty (bs ++ ([[]] ++ [s%"RUN BATCH"])) = bs ++ [s%"RUN BATCH"] := by
      intro bs
      induction bs with
      | nil => intro _; rfl
      | cons b bs ih =>
        intro h
        rw [List.cons_append, nonempty_cons (h b (by simp)).nonempty, ih (fun x hx => h x (by simp [hx]))]
        rfl
    rw [this bodies (shown_clean hs)]
    rfl
  obtain ⟨p, g1, -, g3, -, g5⟩ := sendAll_spec w.db (s%"START BATCH DDL" :: (bodies ++ [[]]) ++ [s%"RUN BATCH"]) [] answered_nil
  rw [hq] at g3 g5
  rw [g1, List.nil_append]
  exact ⟨g3, fun h => (g5 h).1⟩

/-! ## C19 -/

/-- C19: if `apply` succeeds, then nothing differed, or the queries end with a complete pass over the statements (`stmts`, which
are those of the text if it is clean) in which every answer was a success or, for MySQL, an error that says that the statement is
applied already. The answers are those of the database. -/
theorem C19_success (w : Site) (cfg : Res Config) (args : List Str) (stdin : Str)
    (hok : (applyCommand w cfg args stdin).2 = .ok ()) :
    Answered w.db (queriesOf (applyCommand w cfg args stdin).1) ∧ ∃ c l r, cfg = .ok c ∧ args = [l, r] ∧
    (diffSources w.toWorld c.dialect c.language l r = .err .noDifference ∧ queriesOf (applyCommand w cfg args stdin).1 = [] ∨
    ∃ t stmts earlier last, diffSources w.toWorld c.dialect c.language l r = .ok t ∧
      queriesOf (applyCommand w cfg args stdin).1 = earlier ++ last ∧
      last.map Prod.fst = (if c.dialect = s%"spanner" then s%"START BATCH DDL" :: stmts ++ [s%"RUN BATCH"] else stmts) ∧
      (∀ x ∈ last, Tolerated (Already c.dialect) x.2) ∧
      ((c.dialect = s%"spanner" → DropsCommentLines w.withoutCommentLines) → ShortLines t →
        ∀ bodies, Shown t bodies → stmts = bodies)) := by
  rcases applyCommand_cases w cfg args stdin with ⟨h1, h2⟩ | ⟨c, l, r, t, pre, h1, h2, h3, h4, h5, h6, h7⟩
  · obtain ⟨c, l, r, e1, e2, e3⟩ := h2 hok
    refine ⟨by rw [h1]; exact answered_nil, c, l, r, e1, e2, .inl ⟨e3, h1⟩⟩
  have hq : queriesOf (applyCommand w cfg args stdin).1 = (applyDdl w c.dialect l t).1 := by
    rw [h5, List.cons_append, queriesOf, queriesOf_append, h6, (execute_spec w c.dialect l t).1]
    rfl
  rw [h7] at hok
  rw [hq]
  by_cases hsp : c.dialect = s%"spanner"
  · rw [hsp] at hok ⊢
    rcases applyDdl_spanner (w := w) (dsn := l) (t := t) with ⟨e, he⟩ | he
    · rw [he] at hok; simp at hok
    rw [he] at hok ⊢
    obtain ⟨p, g1, g2, -, -, g5⟩ := sendAll_spec w.db (s%"START BATCH DDL" :: splitStmts (w.withoutCommentLines t) ++ [s%"RUN BATCH"])
      [] answered_nil
    rw [g1]
    rw [List.nil_append] at g2 ⊢
    refine ⟨g2, c, l, r, h1, h2, .inr ⟨t, nonempty (splitStmts (w.withoutCommentLines t)), [], p, hsp ▸ h3, rfl, ?_, ?_, ?_⟩⟩
    · rw [(g5 hok).1, hsp, if_pos rfl, List.cons_append, nonempty_cons (by simp)]
      rw [nonempty, List.filter_append]
      rfl
    · intro x hx
      rw [(g5 hok).2 x hx]
      trivial
    · intro hf _ bodies hb
      rw [dropLines_shown (hf hsp) hb, splitStmts_bodies bodies (fun b hb' => (shown_clean hb b hb').noEnd),
        nonempty_bodies (shown_clean hb)]
      simp
  · rcases applyDdl_split (w := w) (dsn := l) (t := t) (diffSources_supported h3) hsp with ⟨e, he⟩ | ⟨ig, hig, he⟩
    · rw [he] at hok; simp at hok
    rw [he, splitExec] at hok ⊢
    obtain ⟨ps, g1, -, g3, g4, g5, -⟩ := retryLoop_spec w ig (splitStmts (removeComments s%"--" t))
      (w.attempts (splitStmts (removeComments s%"--" t)).length) [] answered_nil
    rw [g1]
    obtain ⟨ps', p, e, hp⟩ := g5 hok
    refine ⟨g4, c, l, r, h1, h2, .inr ⟨t, nonempty (splitStmts (removeComments s%"--" t)), ps'.flatten, p, h3, by simp [e], ?_, ?_, ?_⟩⟩
    · rw [if_neg hsp]
      exact g3 p (by simp [e])
    · intro x hx
      have := hp x hx
      revert this
      cases x.2 with
      | none => exact id
      | some m => exact (hig m).1
    · intro _ hl bodies hb
      rw [pieces_shown hb hl, nonempty_bodies (shown_clean hb)]
      simp

/-! ## C20 -/

/-- The bound of C20 in general: with `n` pieces, of which `m` are not empty, at most `(n + 1) * m` queries (for Spanner `m + 2`,
once each). -/
theorem C20_pieces (w : Site) (hw : ∀ k, w.attempts k ≤ k + 1) (d dsn t : Str) (hd : d ∈ dialects) :
    ∃ stmts : List Str, (applyDdl w d dsn t).1.length ≤ (stmts.length + 1) * (nonempty stmts).length + 2 ∧
      (d ≠ s%"spanner" → (applyDdl w d dsn t).1.length ≤ (stmts.length + 1) * (nonempty stmts).length) ∧
      ((d = s%"spanner" → DropsCommentLines w.withoutCommentLines) → ShortLines t → ∀ bodies, Shown t bodies → stmts = bodies ++ [[]]) := by
  by_cases hsp : d = s%"spanner"
  · subst hsp
    refine ⟨splitStmts (w.withoutCommentLines t), ?_, fun h => absurd rfl h, ?_⟩
    · rcases applyDdl_spanner (w := w) (dsn := dsn) (t := t) with ⟨e, he⟩ | he
      · simp [he]
      rw [he]
      obtain ⟨p, g1, -, g3, -, -⟩ := sendAll_spec w.db (s%"START BATCH DDL" :: splitStmts (w.withoutCommentLines t) ++ [s%"RUN BATCH"])
        [] answered_nil
      have := g3.length_le
      rw [g1, List.nil_append]
      rw [List.cons_append, nonempty_cons (by simp), nonempty, List.filter_append] at this
      simp only [List.length_map, List.length_cons, List.length_append] at this
      have h1 : (List.filter (fun q : Str => !q.isEmpty) [s%"RUN BATCH"]).length = 1 := rfl
      rw [h1] at this
      have h2 : (nonempty (splitStmts (w.withoutCommentLines t))).length ≤
          ((splitStmts (w.withoutCommentLines t)).length + 1) * (nonempty (splitStmts (w.withoutCommentLines t))).length :=
        Nat.le_mul_of_pos_left _ (by omega)
      simp only [nonempty] at h2 ⊢
      omega
    · intro hf _ bodies hb
      rw [dropLines_shown (hf rfl) hb, splitStmts_bodies bodies (fun b hb' => (shown_clean hb b hb').noEnd)]
  · have key : (applyDdl w d dsn t).1.length ≤ ((splitStmts (removeComments s%"--" t)).length + 1) *
        (nonempty (splitStmts (removeComments s%"--" t))).length := by
      rcases applyDdl_split (w := w) (dsn := dsn) (t := t) hd hsp with ⟨e, he⟩ | ⟨ig, hig, he⟩
      · simp [he]
      rw [he, splitExec]
      obtain ⟨ps, g1, g2, g3, -, -, -⟩ := retryLoop_spec w ig (splitStmts (removeComments s%"--" t))
        (w.attempts (splitStmts (removeComments s%"--" t)).length) [] answered_nil
      rw [g1, List.nil_append, flatten_length_le (nonempty (splitStmts (removeComments s%"--" t))).length ps
        (fun p hp => by rw [← g3 p hp, List.length_map])]
      exact Nat.mul_le_mul_right _ (Nat.le_trans g2 (hw _))
    refine ⟨splitStmts (removeComments s%"--" t), by omega, fun _ => key, ?_⟩
    intro _ hl bodies hb
    exact pieces_shown hb hl

/-- C20: with `n` statements shown, `apply` sends at most `(n + 2) * n` queries (for Spanner `n + 2`), whatever the database
answers. -/
theorem C20_bound (w : Site) (hw : ∀ k, w.attempts k ≤ k + 1) (c : Config) (l r t stdin : Str) (bodies : List Str)
    (hd : diffSources w.toWorld c.dialect c.language l r = .ok t) (hs : Shown t bodies) (hl : ShortLines t)
    (hf : c.dialect = s%"spanner" → DropsCommentLines w.withoutCommentLines) :
    (queriesOf (applyCommand w (.ok c) [l, r] stdin).1).length ≤ (bodies.length + 2) * bodies.length + 2 ∧
    (c.dialect ≠ s%"spanner" → (queriesOf (applyCommand w (.ok c) [l, r] stdin).1).length ≤ (bodies.length + 2) * bodies.length) := by
  rcases run_queries (stdin := stdin) hd with ⟨h1, h2⟩ | ⟨h1, h2⟩
  · simp [h1]
  rw [h1]
  obtain ⟨stmts, g1, g2, g3⟩ := C20_pieces w hw c.dialect l t (diffSources_supported hd)
  have := g3 hf hl bodies hs
  subst this
  rw [nonempty_bodies (shown_clean hs)] at g1 g2
  simp only [nonempty_empty, nonempty_nil, List.append_nil, List.length_append, List.length_cons, List.length_nil] at g1 g2
  exact ⟨g1, g2⟩

/-! ## C21, C22 -/

/-- C21, C22 for Spanner: the queries are a prefix of the batch, so each statement is sent at most once, and none is sent after a
failure. -/
theorem C21_spanner_partial (w : Site) (c : Config) (l r t stdin : Str)
    (hd : diffSources w.toWorld c.dialect c.language l r = .ok t) (hsp : c.dialect = s%"spanner") (a b : Hist) (x : Str × Option Str)
    (hq : queriesOf (applyCommand w (.ok c) [l, r] stdin).1 = a ++ x :: b) (hx : x.2 ≠ none) : b = [] := by
  rcases run_queries (stdin := stdin) hd with ⟨h1, -⟩ | ⟨h1, -⟩
  · rw [h1] at hq; simp at hq
  rw [h1, hsp] at hq
  rcases applyDdl_spanner (w := w) (dsn := l) (t := t) with ⟨e, he⟩ | he
  · rw [he] at hq; simp at hq
  rw [he] at hq
  obtain ⟨p, g1, -, -, g4, -⟩ := sendAll_spec w.db (s%"START BATCH DDL" :: splitStmts (w.withoutCommentLines t) ++ [s%"RUN BATCH"])
    [] answered_nil
  rw [g1, List.nil_append] at hq
  by_contra hb
  exact hx (g4 a x b hq hb)

/-- C22, partial (MySQL, PostgreSQL, CockroachDB): if no answer is an error (other than one tolerated), no statement is sent twice: the
queries are the statement list, once. Missing: after an error everything is sent again, see `C22_fails`. -/
theorem C22_once_partial (w : Site) (c : Config) (l r t stdin : Str) (bodies : List Str)
    (hd : diffSources w.toWorld c.dialect c.language l r = .ok t) (hsp : c.dialect ≠ s%"spanner") (hs : Shown t bodies)
    (hl : ShortLines t) (hne : queriesOf (applyCommand w (.ok c) [l, r] stdin).1 ≠ [])
    (ht : ∀ x ∈ queriesOf (applyCommand w (.ok c) [l, r] stdin).1, Tolerated (Already c.dialect) x.2) :
    (queriesOf (applyCommand w (.ok c) [l, r] stdin).1).map Prod.fst = bodies := by
  rcases run_queries (stdin := stdin) hd with ⟨h1, -⟩ | ⟨h1, -⟩
  · exact absurd h1 hne
  rw [h1] at hne ht ⊢
  rcases applyDdl_split (w := w) (dsn := l) (t := t) (diffSources_supported hd) hsp with ⟨e, he⟩ | ⟨ig, hig, he⟩
  · rw [he] at hne; simp at hne
  rw [he, splitExec] at hne ht ⊢
  obtain ⟨ps, g1, -, g3, -, -, g6⟩ := retryLoop_spec w ig (splitStmts (removeComments s%"--" t))
    (w.attempts (splitStmts (removeComments s%"--" t)).length) [] answered_nil
  rw [pieces_shown hs hl, nonempty_bodies (shown_clean hs)] at g3
  simp only [nonempty_empty, nonempty_nil, List.append_nil] at g3
  rw [g1, List.nil_append] at hne ht ⊢
  match ps with
  | [] => simp at hne
  | [p] => simpa using g3 p (by simp)
  | p :: p' :: rest =>
    obtain ⟨x, hx, hnt⟩ := g6 [] p (p' :: rest) rfl (by simp)
    exfalso
    apply hnt
    have := ht x (by simp [hx])
    revert this
    cases x.2 with
    | none => exact id
    | some m => exact (hig m).2

/-! ## Witnesses -/

/-- Two files, a database with the given behaviour, a retry library that makes one attempt more than retries. -/
def sampleSite (a b : Str) (db : Hist → Str → Option Str) : Site :=
  { sampleWorld a b with
    openDb := fun _ _ => none
    db := db
    conn := none
    attempts := fun k => k + 1
    cancelled := fun _ => false
    withoutCommentLines := removeComments s%"--"
    stdout := fun _ => none }

/-- Two tables. -/
def sampleTables : Str := s%"CREATE TABLE a (x INT NOT NULL); CREATE TABLE b (x INT NOT NULL);"

/-- A run on an empty database with approval. -/
def sampleRun (dialect target : Str) (db : Hist → Str → Option Str) : List Event × Res Unit :=
  applyCommand (sampleSite [] target db) (.ok (sampleConfig dialect)) [s%"a", s%"b"] s%"yes\n"

/-- A database that refuses everything. -/
def refusing : Hist → Str → Option Str := fun _ _ => some s%"no"

/-- A database that refuses the second query. -/
def refusingSecond : Hist → Str → Option Str := fun h _ => if h.length = 1 then some s%"no" else none

/-- C20: the bound is reached; with `n` statements more than `(n + 1) * n` queries can be sent, since the empty piece behind the last
statement counts for the number of retries. -/
theorem C20_reached : (queriesOf (sampleRun s%"postgres" sampleTables refusing).1).length = 8 := by decide +kernel

/-- C21 fails (PostgreSQL, CockroachDB, MySQL): after a failing statement the next one is sent. -/
theorem C21_fails : ∀ d ∈ [s%"postgres", s%"cockroachdb", s%"mysql"],
    (queriesOf (sampleRun d sampleTables refusing).1).take 2 =
      [(s%"CREATE TABLE a (\n    x INT NOT NULL\n)", some s%"no"), (s%"CREATE TABLE b (\n    x INT NOT NULL\n)", some s%"no")] := by
  decide +kernel

/-- C22 fails (PostgreSQL, CockroachDB, MySQL): a statement that succeeded is sent again because the one behind it failed. -/
theorem C22_fails : ∀ d ∈ [s%"postgres", s%"cockroachdb", s%"mysql"],
    (queriesOf (sampleRun d sampleTables refusingSecond).1).take 3 =
      [(s%"CREATE TABLE a (\n    x INT NOT NULL\n)", none), (s%"CREATE TABLE b (\n    x INT NOT NULL\n)", some s%"no"),
       (s%"CREATE TABLE a (\n    x INT NOT NULL\n)", none)] := by
  decide +kernel

/-- C18 fails if a literal contains `--`: the text shown is one complete statement, the query ends inside the literal. -/
theorem C18_literal_fails : ∀ d ∈ [s%"postgres", s%"cockroachdb"],
    (sampleRun d s%"CREATE TABLE a (x TEXT DEFAULT 'p--q');" (fun _ _ => none)).1.head? =
      some (.print (message s%"CREATE TABLE a (\n    x TEXT DEFAULT 'p--q'\n);\n")) ∧
    queriesOf (sampleRun d s%"CREATE TABLE a (x TEXT DEFAULT 'p--q');" (fun _ _ => none)).1 =
      [(s%"CREATE TABLE a (\nx TEXT DEFAULT 'p\n)", none)] := by
  decide +kernel

/-- C18 fails if a literal contains a line break behind a semicolon: the statement is sent in two halves. -/
theorem C18_split_fails : ∀ d ∈ [s%"postgres", s%"cockroachdb"],
    queriesOf (sampleRun d s%"CREATE TABLE a (x TEXT DEFAULT 'p;\nq');" (fun _ _ => none)).1 =
      [(s%"CREATE TABLE a (\n    x TEXT DEFAULT 'p", none), (s%"q'\n)", none)] := by
  decide +kernel

/-- C18 fails if a line has 64 KiB or more: it and everything behind it is dropped. If it is the first line, nothing is sent at all, and
`apply` reports success. -/
theorem C18_long_line_fails (w : Site) (d dsn line rest : Str) (hd : d ∈ dialects) (hsp : d ≠ s%"spanner")
    (hl : '\n' ∉ line) (hlong : 65536 ≤ line.length) (ho : w.openDb (driverName d) dsn = none) (ha : w.attempts 1 ≠ 0)
    (hc : w.cancelled [] = false) : applyDdl w d dsn (line ++ '\n' :: rest) = ([], .ok ()) := by
  have hr : removeComments s%"--" (line ++ '\n' :: rest) = [] := by
    have hn : decide (line.length < maxLine) = false := decide_eq_false (by simp only [maxLine]; omega)
    simp only [removeComments, scanLines, rawLines_line line [] rest hl, List.reverse_nil, List.nil_append]
    rw [List.takeWhile_cons_of_neg (by simp [hn])]
    rfl
  obtain ⟨n, hn⟩ := Nat.exists_eq_succ_of_ne_zero ha
  rcases applyDdl_split (w := w) (dsn := dsn) (t := line ++ '\n' :: rest) hd hsp with ⟨e, he⟩ | ⟨ig, hig, he⟩
  · exfalso
    revert he
    unfold applyDdl
    rw [ho]
    simp only [dialects, List.mem_cons, List.not_mem_nil, or_false] at hd
    rcases hd with rfl | rfl | rfl | rfl <;>
      simp [driverName, crdbDialect, crdbDriver, myDriver, splitExec, hr, splitStmts, hn, retryLoop, hc, pass] at hsp ⊢
  · rw [he, splitExec, hr]
    simp [splitStmts, hn, retryLoop, hc, pass]

/-! ## The hypotheses can be met -/

/-- A text with a comment and two statements, one of them over several lines. -/
def sampleText : Str := s%"-- old\n-- new; --\nDROP TABLE a;\nCREATE TABLE b (\n    x INT\n);\n"

theorem sampleText_shown : Shown sampleText [s%"DROP TABLE a", s%"CREATE TABLE b (\n    x INT\n)"] := by
  have c1 : Clean s%"DROP TABLE a" := by constructor <;> decide
  have c2 : Clean s%"CREATE TABLE b (\n    x INT\n)" := by constructor <;> decide
  exact .comment s%" old" _ _ (by decide) (.comment s%" new; --" _ _ (by decide) (.stmt s%"DROP TABLE a" _ _ c1
    (.stmt s%"CREATE TABLE b (\n    x INT\n)" _ _ c2 .nil)))

theorem sampleText_short : ShortLines sampleText := by
  intro l _ h
  have := h.length_le
  have : sampleText.length < 100 := by decide
  omega

/-- Keeping the lines that do not start with `--`. -/
def keepLines (s : Str) : Str :=
  ((rawLines [] s).map (fun l => if hasPrefix l s%"--" then [] else l ++ s%"\n")).flatten

theorem keepLines_drops : DropsCommentLines keepLines where
  nil := rfl
  comment line rest h := by
    have := rawLines_line (s%"--" ++ line) [] rest (by simpa using h)
    rw [show s%"--" ++ line ++ s%"\n" ++ rest = s%"--" ++ line ++ '\n' :: rest by simp, keepLines, this]
    simp [hasPrefix, keepLines]
  keep line rest h hp := by
    have := rawLines_line line [] rest h
    have hb : hasPrefix line s%"--" = false := by
      rw [Bool.eq_false_iff]
      intro h'
      exact hp (List.isPrefixOf_iff_prefix.1 h')
    rw [show line ++ s%"\n" ++ rest = line ++ '\n' :: rest by simp, keepLines, this]
    simp [hb, keepLines]

/-- A run that meets the hypotheses of the theorems on clean texts: two statements, sent in order, success. -/
example : queriesOf (sampleRun s%"mysql" sampleTables (fun _ _ => none)).1 =
      [(s%"CREATE TABLE a (\n    x INT NOT NULL\n)", none), (s%"CREATE TABLE b (\n    x INT NOT NULL\n)", none)] ∧
    (sampleRun s%"mysql" sampleTables (fun _ _ => none)).2 = .ok () := by
  decide +kernel

/-- Errors that are tolerated. -/
example : (sampleRun s%"mysql" sampleTables (fun _ _ => some s%"Table 'a' already exists")).2 = .ok () ∧
    (sampleRun s%"postgres" sampleTables (fun _ _ => some s%"relation \"a\" already exists")).2 ≠ .ok () := by
  decide +kernel

example : TypedYes s%"yes\r\n" ∧ ¬ TypedYes s%"Yes\n" ∧ ¬ TypedYes s%"yes \n" := by
  rw [← prompt_ok, ← prompt_ok, ← prompt_ok]
  decide

/-- A refused run. -/
example : queriesOf (applyCommand (sampleSite [] sampleTables refusing) (.ok (sampleConfig s%"postgres")) [s%"a", s%"b"] s%"y\n").1 = [] ∧
    (applyCommand (sampleSite [] sampleTables refusing) (.ok (sampleConfig s%"postgres")) [s%"a", s%"b"] s%"y\n").2 = .err .canceled := by
  decide +kernel

end Ddl.Props
