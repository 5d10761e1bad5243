import Verif.Spec.Gen

/-!
# A generated statement, written by hand
-/

namespace Ddl.Spec
open Ddl.Gen
set_option autoImplicit false

/-- The declaration of a column on one line. -/
def handColumn (q : Char) (c : Column) : Str := [q] ++ c.name ++ [q] ++ s%" " ++ c.typeConstraint

/-- The key clause as an item of a list: nothing if there is no key. -/
def handKey (q : Char) (l : List Str) : List Str := if l = [] then [] else [keyList q l]

/-- The pieces between the parentheses of a table. -/
def handInside (f : Flavor) (t : Table) : List Str :=
  t.columns.map (handColumn (nameQuote f)) ++ (if f = .spanner then [] else handKey (nameQuote f) t.primaryKey) ++ t.constraints.map (·.text)

/-- The pieces behind the parentheses of a table. -/
def handBehind (f : Flavor) (t : Table) : List Str :=
  (if f = .spanner then handKey (nameQuote f) t.primaryKey else []) ++ t.options.map (·.text)

/-- The statement as one would write it by hand, on one line, without comments and without a final semicolon. -/
def handWritten (f : Flavor) : Gen.Stmt → Str
  | .table t => t.createTable ++ s%" (" ++ join s%", " (handInside f t) ++ s%") " ++ join s%", " (handBehind f t)
  | .index i => i.createIndex

/-- All statements, each with a semicolon behind it. -/
def handFile (f : Flavor) (l : List Gen.Stmt) : Str := l.flatMap (fun s => handWritten f s ++ s%";")

/-- The annotations give the table a name. -/
def Named : Gen.Stmt → Prop
  | .table t => t.createTable ≠ []
  | .index _ => True

end Ddl.Spec
