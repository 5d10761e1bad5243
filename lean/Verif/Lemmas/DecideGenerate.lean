import Verif.Lemmas.Generate

/-! # Deciding the hypotheses of C26 and C56 on examples -/

namespace Ddl
open Spec Gen
set_option autoImplicit false

def isPiece (d : Dialect) (s : Str) : Bool := (lex d s).all (fun t => t.type != .PANIC) && !hasDashes s

theorem complete_of {d : Dialect} {s : Str} (h : isPiece d s = true) : Complete d s := by
  simp only [isPiece, Bool.and_eq_true, List.all_eq_true, bne_iff_ne, Bool.not_eq_true'] at h
  exact writes_noDashes h.1 h.2

def isLine (s : Str) : Bool := s.all (fun c => c != '\n' && c != nul)

theorem line_of {s : Str} (h : isLine s = true) : OneLine s := by
  intro c hc
  have := (List.all_eq_true.1 h) c hc
  simpa using this

def isQuotable (q : Char) (s : Str) : Bool := s.all (fun c => c != q && c != nul)

theorem quotable_of {q : Char} {s : Str} (h : isQuotable q s = true) : Quotable q s := by
  intro c hc
  have := (List.all_eq_true.1 h) c hc
  simpa using this

def isOkStmt (d : Dialect) (f : Flavor) : Gen.Stmt → Bool
  | .table t => isPiece d t.createTable && t.columns.all (fun c => isPiece d c.typeConstraint) && t.columns.all (fun c => isQuotable (nameQuote f) c.name) &&
      t.primaryKey.all (isQuotable (nameQuote f)) && t.constraints.all (fun c => isPiece d c.text) && t.options.all (fun c => isPiece d c.text) &&
      t.comments.all isLine && t.columns.all (fun c => c.comments.all isLine) && t.constraints.all (fun c => c.comments.all isLine) &&
      t.options.all (fun c => c.comments.all isLine)
  | .index i => isPiece d i.createIndex && i.comments.all isLine

theorem stmtOk_of {d : Dialect} {f : Flavor} {s : Gen.Stmt} (h : isOkStmt d f s = true) : StmtOk d f s := by
  cases s with
  | table t =>
    simp only [isOkStmt, Bool.and_eq_true, List.all_eq_true] at h
    obtain ⟨⟨⟨⟨⟨⟨⟨⟨⟨h1, h2⟩, h3⟩, h4⟩, h5⟩, h6⟩, h7⟩, h8⟩, h9⟩, h10⟩ := h
    exact ⟨complete_of h1, fun c hc => complete_of (h2 c hc), fun c hc => quotable_of (h3 c hc), fun c hc => quotable_of (h4 c hc),
      fun c hc => complete_of (h5 c hc), fun c hc => complete_of (h6 c hc), fun c hc => line_of (h7 c hc), fun c hc x hx => line_of (h8 c hc x hx),
      fun c hc x hx => line_of (h9 c hc x hx), fun c hc x hx => line_of (h10 c hc x hx)⟩
  | index i =>
    simp only [isOkStmt, Bool.and_eq_true, List.all_eq_true] at h
    exact ⟨complete_of h.1, fun c hc => line_of (h.2 c hc)⟩

end Ddl
