import Verif.Lexer

/-!
# Identifiers, object names, expressions and comments

These parts of the AST are the same in the four dialect packages; line numbers are those of `pkg/ddl/postgres`.
-/

namespace Ddl

/-- `Ident`: `pkg/ddl/postgres/ddl.go:60-64`.  Pointers to `Ident` that are never nil are plain values. -/
structure Ident where
  name : Str
  quot : Str
  raw : Str
deriving DecidableEq, Repr

/-- `Ident.String`: `pkg/ddl/postgres/ddl.go:68-73`. -/
def Ident.str (i : Ident) : Str := i.raw

/-- `Ident.StringForDiff`: `pkg/ddl/postgres/ddl.go:75-80`. -/
def Ident.diffStr (i : Ident) : Str := i.name

/-- `Expr`: `pkg/ddl/postgres/ddl_table.go:265-267`. -/
abbrev Expr := List Ident

/-- `NewRawIdent` (`pkg/ddl/postgres/parser.go:23-39`) with the dialect's `quotationMarks`
(`postgres/parser.go:21`, `cockroachdb/parser.go:21`: `"`; `mysql/parser.go:20`, `spanner/parser.go:20`: `"`, backtick, `'`). -/
def newRawIdentQ : List Char → Str → Ident
  | [], raw => ⟨raw, [], raw⟩
  | q :: qs, raw =>
    if hasPrefix raw [q] && hasSuffix raw [q] then ⟨trimC q raw, [q], raw⟩ else newRawIdentQ qs raw

/-- `quotationMarks` of the dialects, see `newRawIdentQ`. `postgres/parser.go:21`, `cockroachdb/parser.go:21`,
`mysql/parser.go:20`, `spanner/parser.go:20`. -/
def quotationMarks : Dialect → List Char
  | .postgres | .cockroachdb => ['"']
  | .mysql | .spanner => ['"', '`', '\'']

/-- `NewRawIdent`: `pkg/ddl/postgres/parser.go:23-39`. -/
def newRawIdent (d : Dialect) (raw : Str) : Ident := newRawIdentQ (quotationMarks d) raw

/-- `NewIdent`: `pkg/ddl/postgres/parser.go:41-47`. -/
def newIdent (name quot raw : Str) : Ident := ⟨name, quot, raw⟩

/-- `ObjectName`: `pkg/ddl/postgres/ddl_table.go:220-223`; identical in all dialects. -/
structure ObjectName where
  schema : Option Ident
  name : Ident
deriving DecidableEq, Repr

/-- `NewObjectName`: `pkg/ddl/postgres/ddl_table.go:202-218`. -/
def newObjectName (d : Dialect) (raw : Str) : ObjectName :=
  let t := newRawIdent d raw
  match splitC '.' t.name with
  | [a, b] => ⟨some (newRawIdent d (t.quot ++ a ++ t.quot)), newRawIdent d (t.quot ++ b ++ t.quot)⟩
  | _ => ⟨none, t⟩

/-- `ObjectName.String`: `pkg/ddl/postgres/ddl_table.go:225-233`. -/
def ObjectName.str (o : ObjectName) : Str :=
  match o.schema with
  | some s => o.name.quot ++ s.diffStr ++ s%"." ++ o.name.diffStr ++ o.name.quot
  | none => o.name.str

/-- `ObjectName.StringForDiff`: `pkg/ddl/postgres/ddl_table.go:235-243`. -/
def ObjectName.diffStr (o : ObjectName) : Str :=
  match o.schema with
  | some s => s.diffStr ++ s%"." ++ o.name.diffStr
  | none => o.name.diffStr

/-- The loop over the lines of a statement comment, the same in every `String` method, e.g.
`pkg/ddl/postgres/ddl_table_alter.go:29-36`. -/
def commentLines : List Str → Str
  | [] => []
  | l :: ls => if l = [] then commentLines ls else s%"-- " ++ l ++ s%"\n" ++ commentLines ls

/-- The comment block in front of a statement: `pkg/ddl/postgres/ddl_table_alter.go:28-36`. -/
def commentStr (comment : Str) : Str :=
  if comment = [] then [] else commentLines (splitC '\n' comment)

/-- `Indent`: `pkg/ddl/postgres/ddl.go:12`. -/
def indent : Str := s%"    "

end Ddl
