import Verif.Generator
import Verif.Lexer
import Verif.Spec.Lex

/-!
# What a generated text should contain
-/

namespace Ddl.Spec
open Ddl.Gen

/-- The text is complete SQL: no quote is left open and it does not end inside a comment. -/
def Complete (d : Dialect) (s : Str) : Prop := Writes d false s (lex d s)

/-- A text that fits on one line. -/
def OneLine (s : Str) : Prop := ∀ c ∈ s, c ≠ '\n' ∧ c ≠ nul

/-- A name that can be written between the quotes `q`. -/
def Quotable (q : Char) (s : Str) : Prop := ∀ c ∈ s, c ≠ q ∧ c ≠ nul

/-- The quote character of names. -/
def nameQuote : Flavor → Char
  | .postgres => '"'
  | .mysql | .spanner => '`'

/-- Lines of comments. -/
def commentLines (indent : Str) : List Str → Str
  | [] => []
  | c :: r => indent ++ (if c = [] then s%"--" else s%"-- " ++ c) ++ s%"\n" ++ commentLines indent r

/-- Items on lines of their own, separated by commas, no comma at the end. -/
def commaLines : List Str → Str
  | [] => []
  | [a] => a ++ s%"\n"
  | a :: b :: r => a ++ s%",\n" ++ commaLines (b :: r)

/-- A line declaring the column, with `n` blanks behind the name, below its comments. -/
def columnItem (q : Char) (indent : Str) (n : Nat) (c : Column) : Str :=
  commentLines indent c.comments ++ indent ++ [q] ++ c.name ++ [q] ++ List.replicate n ' ' ++ c.typeConstraint

/-- A line with the clause, below its comments. -/
def clauseItem (indent : Str) (c : Clause) : Str := commentLines indent c.comments ++ indent ++ c.text

/-- The list of key columns in parentheses. -/
def keyList (q : Char) (l : List Str) : Str := s%"PRIMARY KEY (" ++ join s%", " (l.map (fun k => [q] ++ k ++ [q])) ++ s%")"

/-! ## Token level -/

/-- A one-character token. -/
def sym (c : Char) (t : TokType) : Token := ⟨t, [c]⟩

/-- Lists separated by commas. -/
def commaSep (l : List (List Token)) : List Token := List.intercalate [sym ',' .COMMA] l

/-- A quoted name. -/
def nameTok (q : Char) (s : Str) : Token := ⟨.IDENT, [q] ++ s ++ [q]⟩

/-- A primary key clause. -/
def keyToks (q : Char) (l : List Str) : List Token :=
  [⟨.PRIMARY, s%"PRIMARY"⟩, ⟨.KEY, s%"KEY"⟩, sym '(' .OPEN_PAREN] ++ commaSep (l.map (fun k => [nameTok q k])) ++
    [sym ')' .CLOSE_PAREN]

/-- The key clause as an item of a list: nothing if there is no key. -/
def keyItems (q : Char) (l : List Str) : List (List Token) := if l = [] then [] else [keyToks q l]

def columnToks (d : Dialect) (q : Char) (c : Column) : List Token := nameTok q c.name :: lex d c.typeConstraint

/-- The tokens of a generated table: name, parenthesised list of columns, (PostgreSQL, MySQL: key) and constraints,
(Spanner: key and) options. -/
def tableToks (d : Dialect) (f : Flavor) (t : Table) : List Token :=
  if t.createTable = [] then []
  else
    let q := nameQuote f
    let cols := t.columns.map (columnToks d q)
    let cons := t.constraints.map (fun c => lex d c.text)
    let opts := t.options.map (fun o => lex d o.text)
    let (inside, behind) := match f with
      | .spanner => (cols ++ cons, keyItems q t.primaryKey ++ opts)
      | _ => (cols ++ keyItems q t.primaryKey ++ cons, opts)
    lex d t.createTable ++ [sym '(' .OPEN_PAREN] ++ commaSep inside ++ [sym ')' .CLOSE_PAREN] ++ commaSep behind ++
      [sym ';' .SEMICOLON]

/-- The tokens of a generated statement. -/
def genToks (d : Dialect) (f : Flavor) : Gen.Stmt → List Token
  | .table t => tableToks d f t
  | .index i => lex d i.createIndex ++ [sym ';' .SEMICOLON]

/-- The pieces of SQL in a table are complete, names can be quoted, and comments are lines. -/
structure TableOk (d : Dialect) (f : Flavor) (t : Table) : Prop where
  create : Complete d t.createTable
  types : ∀ c ∈ t.columns, Complete d c.typeConstraint
  names : ∀ c ∈ t.columns, Quotable (nameQuote f) c.name
  key : ∀ k ∈ t.primaryKey, Quotable (nameQuote f) k
  cons : ∀ c ∈ t.constraints, Complete d c.text
  opts : ∀ o ∈ t.options, Complete d o.text
  comments : ∀ c ∈ t.comments, OneLine c
  colComments : ∀ c ∈ t.columns, ∀ x ∈ c.comments, OneLine x
  conComments : ∀ c ∈ t.constraints, ∀ x ∈ c.comments, OneLine x
  optComments : ∀ o ∈ t.options, ∀ x ∈ o.comments, OneLine x

structure IndexOk (d : Dialect) (i : Index) : Prop where
  create : Complete d i.createIndex
  comments : ∀ c ∈ i.comments, OneLine c

def StmtOk (d : Dialect) (f : Flavor) : Gen.Stmt → Prop
  | .table t => TableOk d f t
  | .index i => IndexOk d i

/-- The statement without any comment and source position. -/
def bareTable (t : Table) : Table :=
  { t with
    sourceFile := [], comments := []
    columns := t.columns.map (fun c => { c with comments := [] })
    constraints := t.constraints.map (fun c => { c with comments := [] })
    options := t.options.map (fun c => { c with comments := [] }) }

def bareStmt : Gen.Stmt → Gen.Stmt
  | .table t => .table (bareTable t)
  | .index i => .index { i with sourceFile := [], comments := [] }

/-! ## Struct fields -/

/-- What may stand between the double quotes of a value: a quote only behind a backslash. -/
inductive QuotedBody : Str → Prop
  | nil : QuotedBody []
  | plain {c : Char} {r : Str} : c ≠ '"' → c ≠ '\\' → QuotedBody r → QuotedBody (c :: r)
  | escape {c : Char} {r : Str} : QuotedBody r → QuotedBody ('\\' :: c :: r)

/-- The name of a key in a struct tag. -/
def TagName (k : Str) : Prop := k ≠ [] ∧ ∀ c ∈ k, 32 < c.toNat ∧ c ≠ ':' ∧ c ≠ '"' ∧ c ≠ Char.ofNat 127

/-- The tag starts with blanks and the pair `key:"body"`. -/
def PairAt (s k body rest : Str) : Prop :=
  ∃ n, s = List.replicate n ' ' ++ k ++ ':' :: '"' :: (body ++ '"' :: rest) ∧ TagName k ∧ QuotedBody body

/-- The pairs of a struct tag, up to the end or the first place where it is not well formed.  A value that cannot be unquoted
counts as empty. -/
inductive TagPairs (unquote : Str → Option Str) : Str → List (Str × Str) → Prop
  | done {s : Str} : (∀ k body rest, ¬ PairAt s k body rest) → TagPairs unquote s []
  | pair {s k body rest : Str} {ps : List (Str × Str)} : PairAt s k body rest → TagPairs unquote rest ps →
      TagPairs unquote s ((k, (unquote ('"' :: body ++ ['"'])).getD []) :: ps)

/-- The pairs of the tag literal of a field, as far as it is a raw string. -/
def FieldPairs (env : Env) (f : Field) (ps : List (Str × Str)) : Prop :=
  ∃ m n inner, f.tag = some (List.replicate m '`' ++ inner ++ List.replicate n '`') ∧ inner.head? ≠ some '`' ∧
    inner.getLast? ≠ some '`' ∧ TagPairs env.unquote inner ps

/-- The value of a key in the tag of a field; "" if there is none. -/
def tagValue (tags : Field → List (Str × Str)) (f : Field) (key : Str) : Str := ((tags f).lookup key).getD []

/-- Does the field become a column? -/
def Included (tags : Field → List (Str × Str)) (env : Env) (f : Field) : Prop :=
  tagValue tags f env.columnTag ≠ s%"-" ∧ tagValue tags f env.ddlTag ∉ [[], s%"-"]

instance (tags : Field → List (Str × Str)) (env : Env) : DecidablePred (Included tags env) := fun f => by
  unfold Included; infer_instance

/-- The name of the column: the column tag, or else the name of the field. -/
def columnNameOf (tags : Field → List (Str × Str)) (env : Env) (f : Field) : Str :=
  if tagValue tags f env.columnTag = [] then f.names.headD [] else tagValue tags f env.columnTag

/-- Is the column tagged as part of the primary key? -/
def TaggedKey (tags : Field → List (Str × Str)) (env : Env) (f : Field) : Prop :=
  tagValue tags f env.pkTag ∈ [s%"true", s%"1"]

instance (tags : Field → List (Str × Str)) (env : Env) : DecidablePred (TaggedKey tags env) := fun f => by
  unfold TaggedKey; infer_instance

end Ddl.Spec
