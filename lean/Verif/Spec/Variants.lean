import Verif.Spec.Blur
import Verif.Spec.Lex

/-!
# Specification vocabulary: other ways of writing the same schema

`Requoted` and `Recased` relate the tokens of two texts (in the sense of `Spec.Writes`).
-/

namespace Ddl.Spec

/-- The quotes of identifiers in a dialect. -/
def identQuotes : Dialect → List Char
  | .postgres | .cockroachdb => ['"']
  | .mysql | .spanner => ['"', '`']

/-- `l` is the name `w`, quoted or not. -/
def Names (d : Dialect) (w l : Str) : Prop := l = w ∨ ∃ q ∈ identQuotes d, l = q :: w ++ [q]

/-- The same token, or a name written with or without quotes. -/
def Requoted (d : Dialect) (t t' : Token) : Prop :=
  t = t' ∨ ∃ w : Str, w ≠ [] ∧ (∀ c ∈ w, WordChar c) ∧ t.type = .IDENT ∧ t'.type = .IDENT ∧ Names d w t.lit ∧ Names d w t'.lit

/-- The same token, or a keyword in another letter case.  (The words EQUAL, GREATER and LESS, which are no keywords of SQL but
are taken by the lexer for the symbols `=`, `>` and `<`, are left as they are.) -/
def Recased (d : Dialect) (t t' : Token) : Prop :=
  t = t' ∨ (t'.type = t.type ∧ t'.lit.map Char.toUpper = t.lit.map Char.toUpper ∧
    (t.lit.map Char.toUpper, t.type) ∈ keywords d ∧ t.type ∉ [.EQUAL, .GREATER, .LESS])

/-- Is the word a keyword, in any letter case? -/
def IsKeyword (d : Dialect) (w : Str) : Prop := w.map Char.toUpper ∈ (keywords d).map Prod.fst

instance (d : Dialect) (w : Str) : Decidable (IsKeyword d w) := inferInstanceAs (Decidable (_ ∈ _))

/-- The word, in capitals if it is a keyword. -/
def capitals (d : Dialect) (w : Str) : Str := if IsKeyword d w then w.map Char.toUpper else w

/-- Letter case of keywords in expressions and of actions is forgotten. -/
def caseBlur (d : Dialect) : Blur := ⟨capitals d, Char.toUpper, capitals d⟩

/-- The text without the quotes of an identifier. -/
def unquote (d : Dialect) (l : Str) : Str :=
  match l with
  | q :: r => if q ∈ identQuotes d ∧ r.getLast? = some q then r.dropLast else l
  | [] => []

/-- Quotes around texts that are stored as written are forgotten. -/
def quoteBlur (d : Dialect) : Blur := ⟨id, id, unquote d⟩

end Ddl.Spec

namespace Ddl.Crdb

/-- No inline index has a `USING` part. -/
def CreateTable.NoUsing (t : CreateTable) : Prop :=
  ∀ n uq pre cs post, .index n uq pre cs post ∈ t.constraints → pre = none ∧ post = none

/-- No statement has a `USING` part. -/
def NoUsing (l : List CStmt) : Prop :=
  (∀ t, .createTable t ∈ l → t.NoUsing) ∧ ∀ i, .createIndex i ∈ l → i.usingPre = none ∧ i.usingPost = none

end Ddl.Crdb
