import Verif.ParserBase

/-!
# Shapes of statements, as sequences of token types

Written from the documented syntax; no parser function is used.
-/

namespace Ddl.Spec

/-- The sort order behind a column name of an index: none, `ASC` or `DESC`. -/
def orderTypes : Option Bool → List TokType
  | none => []
  | some false => [.ASC]
  | some true => [.DESC]

/-- `col [ASC|DESC] {, col [ASC|DESC]}`, one entry of the list for each column. -/
def columnTypes : List (Option Bool) → List TokType
  | [] => []
  | [o] => .IDENT :: orderTypes o
  | o :: o' :: os => .IDENT :: orderTypes o ++ .COMMA :: columnTypes (o' :: os)

/-- `CREATE [UNIQUE] INDEX [IF NOT EXISTS] name ON table (columns)`. -/
def indexTypes (unique ifNotExists : Bool) (columns : List (Option Bool)) : List TokType :=
  .CREATE :: (if unique then [.UNIQUE] else []) ++ .INDEX :: (if ifNotExists then [.IF, .NOT, .EXISTS] else []) ++
    .IDENT :: .ON :: .IDENT :: .OPEN_PAREN :: columnTypes columns ++ [.CLOSE_PAREN]

/-- The tokens are a complete `CREATE INDEX` statement; `ordered` tells whether the dialect allows `ASC` and `DESC`. -/
def CompleteIndex (ordered : Bool) (ts : List Token) : Prop :=
  ∃ uq ine cols, cols ≠ [] ∧ (ordered = false → ∀ c ∈ cols, c = none) ∧ ts.map (·.type) = indexTypes uq ine cols

/-- The lexer reads the whole text: no quote stays open. -/
def NoPanic (ts : List Token) : Prop := ∀ t ∈ ts, t.type ≠ .PANIC

end Ddl.Spec
