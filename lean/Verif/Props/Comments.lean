import Verif.Lemmas.Comment
import Verif.Props.Apply

/-!
# Comments: C25, C40, and the texts of C18
-/

namespace Ddl.Props
open Ddl Spec Cmd Ddl.Apply
set_option autoImplicit false

/-! ## C25 -/

/-- C25, partial: whatever the comment of a statement says (lines, semicolons, SQL, `--`), the printed statement has the tokens of the
statement without comment, and so has every text behind it. Missing: comments with a NUL byte, see `C25_nul_fails`. -/
theorem C25_stmt_partial (sd : Str → Str → Str) (rest : Str) :
    (∀ s : Pg.PStmt, nul ∉ commentOf s →
      lex .postgres (stmtStr (Pg.ops sd) s ++ rest) = lex .postgres (stmtStr (Pg.ops sd) (bare s) ++ rest)) ∧
    (∀ s : Crdb.CStmt, nul ∉ commentOf s →
      lex .cockroachdb (stmtStr (Crdb.ops sd) s ++ rest) = lex .cockroachdb (stmtStr (Crdb.ops sd) (bare s) ++ rest)) ∧
    (∀ s : My.MStmt, nul ∉ commentOf s →
      lex .mysql (stmtStr (My.ops sd) s ++ rest) = lex .mysql (stmtStr (My.ops sd) (bare s) ++ rest)) ∧
    (∀ s : Sp.SStmt, nul ∉ commentOf s →
      lex .spanner (stmtStr (Sp.ops sd) s ++ rest) = lex .spanner (stmtStr (Sp.ops sd) (bare s) ++ rest)) :=
  ⟨fun _ h => lex_comment_stmt (Pg.stmtStr_bare sd) h rest, fun _ h => lex_comment_stmt (Crdb.stmtStr_bare sd) h rest,
    fun _ h => lex_comment_stmt (My.stmtStr_bare sd) h rest, fun _ h => lex_comment_stmt (Sp.stmtStr_bare sd) h rest⟩

/-- C25, partial: a whole migration has the tokens of the migration without comments, provided that no statement has a quote left open
(then the comment behind it would be quoted text). -/
theorem C25_migration_partial (sd : Str → Str → Str) :
    (∀ l : List Pg.PStmt, (∀ s ∈ l, nul ∉ commentOf s ∧ Complete .postgres (stmtStr (Pg.ops sd) (bare s))) →
      lex .postgres (ddlStr (Pg.ops sd) l) = lex .postgres (ddlStr (Pg.ops sd) (l.map bare))) ∧
    (∀ l : List Crdb.CStmt, (∀ s ∈ l, nul ∉ commentOf s ∧ Complete .cockroachdb (stmtStr (Crdb.ops sd) (bare s))) →
      lex .cockroachdb (ddlStr (Crdb.ops sd) l) = lex .cockroachdb (ddlStr (Crdb.ops sd) (l.map bare))) ∧
    (∀ l : List My.MStmt, (∀ s ∈ l, nul ∉ commentOf s ∧ Complete .mysql (stmtStr (My.ops sd) (bare s))) →
      lex .mysql (ddlStr (My.ops sd) l) = lex .mysql (ddlStr (My.ops sd) (l.map bare))) ∧
    (∀ l : List Sp.SStmt, (∀ s ∈ l, nul ∉ commentOf s ∧ Complete .spanner (stmtStr (Sp.ops sd) (bare s))) →
      lex .spanner (ddlStr (Sp.ops sd) l) = lex .spanner (ddlStr (Sp.ops sd) (l.map bare))) :=
  ⟨fun l h => lex_comment_ddl (Pg.stmtStr_bare sd) l fun s hs => ⟨(h s hs).1, (h s hs).2, Pg.stmtStr_end sd _⟩,
    fun l h => lex_comment_ddl (Crdb.stmtStr_bare sd) l fun s hs => ⟨(h s hs).1, (h s hs).2, Crdb.stmtStr_end sd _⟩,
    fun l h => lex_comment_ddl (My.stmtStr_bare sd) l fun s hs => ⟨(h s hs).1, (h s hs).2, My.stmtStr_end sd _⟩,
    fun l h => lex_comment_ddl (Sp.stmtStr_bare sd) l fun s hs => ⟨(h s hs).1, (h s hs).2, Sp.stmtStr_end sd _⟩⟩

/-- A statement with a hostile comment. -/
def hostileComment : Pg.PStmt := .dropTable s%"old\n; DROP TABLE b; --\n\n'" true ⟨none, ⟨s%"a", [], s%"a"⟩⟩

example : nul ∉ commentOf hostileComment ∧ Complete .postgres (stmtStr (Pg.ops (fun a _ => a)) (bare hostileComment)) ∧
    lex .postgres (stmtStr (Pg.ops (fun a _ => a)) hostileComment) ≠ [] := by
  refine ⟨by decide, writes_noDashes (by decide +kernel) (by decide +kernel), by decide +kernel⟩

/-- C25 fails for a comment with a NUL byte: for the lexer the comment ends there. -/
theorem C25_nul_fails : ∃ s : Pg.PStmt,
    lex .postgres (stmtStr (Pg.ops (fun a _ => a)) s) ≠ lex .postgres (stmtStr (Pg.ops (fun a _ => a)) (bare s)) :=
  ⟨.dropTable [nul, 'x'] true ⟨none, ⟨s%"a", [], s%"a"⟩⟩, by decide +kernel⟩

/-! ## The texts of C18 -/

/-- What C18 supposes of the text is true of every migration whose statements, printed without comments, are free of `--`, `;` at a
line end, empty lines and CR LF; the comments are arbitrary. -/
theorem C18_migration (sd : Str → Str → Str) (bodies : List Str) (hc : ∀ b ∈ bodies, Clean b) :
    (∀ l : List Pg.PStmt, l.map (fun s => stmtStr (Pg.ops sd) (bare s)) = bodies.map (fun b => b ++ s%";\n") →
      Shown (ddlStr (Pg.ops sd) l) bodies) ∧
    (∀ l : List Crdb.CStmt, l.map (fun s => stmtStr (Crdb.ops sd) (bare s)) = bodies.map (fun b => b ++ s%";\n") →
      Shown (ddlStr (Crdb.ops sd) l) bodies) ∧
    (∀ l : List My.MStmt, l.map (fun s => stmtStr (My.ops sd) (bare s)) = bodies.map (fun b => b ++ s%";\n") →
      Shown (ddlStr (My.ops sd) l) bodies) ∧
    (∀ l : List Sp.SStmt, l.map (fun s => stmtStr (Sp.ops sd) (bare s)) = bodies.map (fun b => b ++ s%";\n") →
      Shown (ddlStr (Sp.ops sd) l) bodies) :=
  ⟨fun l h => shown_ddlStr (Pg.stmtStr_bare sd) l bodies h hc, fun l h => shown_ddlStr (Crdb.stmtStr_bare sd) l bodies h hc,
    fun l h => shown_ddlStr (My.stmtStr_bare sd) l bodies h hc, fun l h => shown_ddlStr (Sp.stmtStr_bare sd) l bodies h hc⟩

example : [hostileComment].map (fun s => stmtStr (Pg.ops (fun a _ => a)) (bare s)) =
    [s%"DROP TABLE IF EXISTS a"].map (fun b => b ++ s%";\n") ∧ Clean s%"DROP TABLE IF EXISTS a" :=
  ⟨by decide +kernel, by constructor <;> decide⟩

/-! ## C40 -/

/-- C40, partial: removing comments keeps the tokens if the first `--` of every line is a comment in that no quote is open in front of it,
there are no illegal characters outside quotes and comments, no NUL bytes, and lines are shorter than 64 KiB. Missing: `--` inside
quotes, see `C40_literal_fails`; illegal characters, see `C40_space_fails`; long lines, see `C40_long_line_fails`; quotes
over several lines. -/
theorem C40_tokens_partial (d : Dialect) (t : Str) (h : LineWise (PlainLine d) t) : lex d (removeComments s%"--" t) = lex d t :=
  removeComments_lex h

/-- Code, comments and both. -/
def commentedText : Str := s%"-- first\nCREATE TABLE a ( -- the table\r\n    \"x y\" INT -- it's\n);\n\n"

example : LineWise (PlainLine .postgres) commentedText ∧ removeComments s%"--" commentedText ≠ commentedText := by
  have h (code comment : Str) (h1 : comment = [] ∨ s%"--" <+: comment) (h2 : ¬ s%"--" <:+: code ++ comment.take 1)
      (h3 : ∀ t ∈ lex .postgres code, t.type ≠ .PANIC ∧ t.type ≠ .ILLEGAL) (h4 : (code ++ comment).length < 65536)
      (h5 : nul ∉ code ++ comment) : PlainLine .postgres (code ++ comment) := ⟨h4, h5, code, comment, rfl, h1, h2, h3⟩
  refine ⟨?_, by decide +kernel⟩
  refine .line s%"-- first" _ (by decide) (h [] s%"-- first" (by decide) (by decide) (by decide) (by decide) (by decide)) ?_
  refine .line s%"CREATE TABLE a ( -- the table\r" _ (by decide)
    (h s%"CREATE TABLE a ( " s%"-- the table\r" (by decide) (by decide) (by decide +kernel) (by decide) (by decide)) ?_
  refine .line s%"    \"x y\" INT -- it's" _ (by decide)
    (h s%"    \"x y\" INT " s%"-- it's" (by decide) (by decide) (by decide +kernel) (by decide) (by decide)) ?_
  refine .line s%");" _ (by decide) (h s%");" [] (by decide) (by decide) (by decide +kernel) (by decide) (by decide)) ?_
  refine .line [] _ (by decide) (h [] [] (by decide) (by decide) (by decide +kernel) (by decide) (by decide)) ?_
  exact .last [] (by decide) (h [] [] (by decide) (by decide) (by decide +kernel) (by decide) (by decide))

/-- C40 fails if a literal contains `--`. -/
theorem C40_literal_fails : ∀ d ∈ [Dialect.postgres, .cockroachdb, .mysql, .spanner],
    lex d (removeComments s%"--" s%"SELECT 'a--b'") ≠ lex d s%"SELECT 'a--b'" := by decide +kernel

/-- C40 fails if a literal spans an empty line. -/
theorem C40_multiline_fails : ∀ d ∈ [Dialect.postgres, .cockroachdb, .mysql, .spanner],
    lex d (removeComments s%"--" s%"SELECT 'a\n\nb'") ≠ lex d s%"SELECT 'a\n\nb'" := by decide +kernel

/-- C40 fails for a space that is none for the lexer, in front of a comment: it is trimmed with the comment. -/
theorem C40_space_fails : ∀ d ∈ [Dialect.postgres, .cockroachdb, .mysql, .spanner],
    lex d (removeComments s%"--" s%"a\x0b-- b") ≠ lex d s%"a\x0b-- b" := by decide +kernel

/-- C40 fails if a line has 64 KiB or more: it and everything behind it is dropped. -/
theorem C40_long_line_fails (line rest : Str) (hl : '\n' ∉ line) (hlong : 65536 ≤ line.length) :
    removeComments s%"--" (line ++ '\n' :: rest) = [] := by
  have hn : decide (line.length < maxLine) = false := decide_eq_false (by simp only [maxLine]; omega)
  simp only [removeComments, scanLines, rawLines_line line [] rest hl, List.reverse_nil, List.nil_append]
  rw [List.takeWhile_cons_of_neg (by simp [hn])]
  rfl

end Ddl.Props
