import Verif.Apply
import Verif.Spec.Cmd
import Verif.Spec.Lex

/-!
# What `apply` should do
-/

namespace Ddl.Spec
open Ddl.Apply

/-- The user typed exactly `yes` (in a terminal that may end lines with CR LF). -/
def TypedYes (stdin : Str) : Prop :=
  stdin = s%"yes" ∨ stdin = s%"yes\r" ∨ ∃ rest, stdin = s%"yes\n" ++ rest ∨ stdin = s%"yes\r\n" ++ rest

/-- The queries among the events, with their answers. -/
def queriesOf : List Event → Hist
  | [] => []
  | .print _ :: r => queriesOf r
  | .query q a :: r => (q, a) :: queriesOf r

/-- Every answer in the history is the one the database gives after the queries before it. -/
def Answered (db : Hist → Str → Option Str) (h : Hist) : Prop :=
  ∀ a q r b, h = a ++ (q, r) :: b → r = db a q

/-- No line is so long that the line scanner gives up. -/
def ShortLines (text : Str) : Prop := ∀ l, '\n' ∉ l → l <:+: text → l.length < 65536

/-- A statement text that can be told from comments and from its neighbours line by line. -/
structure Clean (b : Str) : Prop where
  nonempty : b ≠ []
  noDashes : ¬ s%"--" <:+: b
  noEnd : ¬ s%";\n" <:+: b
  noEmptyLine : ¬ s%"\n\n" <:+: b
  noFirstEmpty : b.head? ≠ some '\n'
  noCR : ¬ s%"\r\n" <:+: b

/-- The text shows these statements, with comment lines in front of them. -/
inductive Shown : Str → List Str → Prop
  | nil : Shown [] []
  | comment (line rest : Str) (bodies : List Str) : '\n' ∉ line → Shown rest bodies →
      Shown (s%"--" ++ line ++ s%"\n" ++ rest) bodies
  | stmt (body rest : Str) (bodies : List Str) : Clean body → Shown rest bodies →
      Shown (body ++ s%";\n" ++ rest) (body :: bodies)

/-- What `stringz.ReadLine` with `ReadLineFuncRemoveCommentLine("--")` does: it removes the lines that start with `--`. -/
structure DropsCommentLines (f : Str → Str) : Prop where
  nil : f [] = []
  comment : ∀ line rest, '\n' ∉ line → f (s%"--" ++ line ++ s%"\n" ++ rest) = f rest
  keep : ∀ line rest, '\n' ∉ line → ¬ s%"--" <+: line → f (line ++ s%"\n" ++ rest) = line ++ s%"\n" ++ f rest

/-- The answer counts as success: no error, or one that says that the statement is applied already. -/
def Tolerated (already : Str → Prop) : Option Str → Prop
  | none => True
  | some m => already m

/-- MySQL's errors for statements that are applied already. -/
def MyAlready (m : Str) : Prop := s%"already exists" <:+: m ∨ s%"Duplicate column name" <:+: m

/-- Which errors count as applied already: only for MySQL are there any. -/
def Already (dialect : Str) (m : Str) : Prop := dialect = s%"mysql" ∧ MyAlready m

end Ddl.Spec

namespace Ddl.Spec

/-- Every line of the text has the property; lines end with a line feed, the last one with the text. -/
inductive LineWise (P : Str → Prop) : Str → Prop
  | last (l : Str) : '\n' ∉ l → P l → LineWise P l
  | line (l r : Str) : '\n' ∉ l → P l → LineWise P r → LineWise P (l ++ '\n' :: r)

/-- A line of SQL with or without a comment at its end: the comment starts at the first `--` of the line; no quote is left open in
front of it, and there are no characters that SQL does not know outside quotes. -/
structure PlainLine (d : Dialect) (l : Str) : Prop where
  short : l.length < 65536
  noNul : nul ∉ l
  parts : ∃ code comment, l = code ++ comment ∧ (comment = [] ∨ s%"--" <+: comment) ∧ ¬ s%"--" <:+: code ++ comment.take 1 ∧
    ∀ t ∈ lex d code, t.type ≠ .PANIC ∧ t.type ≠ .ILLEGAL

end Ddl.Spec
