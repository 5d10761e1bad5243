import Verif.Spec.Written

/-!
# Specification vocabulary: what an accepted text consists of

Where `Spec/Written.lean` describes texts as they should be written, this describes whatever may be accepted, loosely, but so that every
phrase still comes with all it may stand for.  No parser function is used.
-/

set_option autoImplicit false

namespace Ddl.Spec.Source
open Written

/-- The letters of the words, in capitals. -/
def spelled (ws : List Ident) : Str := upper (ws.flatMap (·.raw))

/-- The letters of the tokens, in capitals. -/
def letters (ts : List Token) : Str := upper (ts.flatMap (·.lit))

/-- The words of an expression: all letters of the tokens, in their order. -/
def Spells (ts : List Token) (ws : List Ident) : Prop := spelled ws = letters ts

/-- Names, brackets and commas, with a closing bracket at the end; each name once and in its place. -/
def Listing (d : Dialect) (ts : List Token) (names : List Ident) : Prop :=
  ∃ l c, ts = l ++ [c] ∧ c.type = .CLOSE_PAREN ∧ (∀ t ∈ l, t.type ∈ [.OPEN_PAREN, .COMMA, .IDENT]) ∧
    names = (l.filter fun t => t.type = .IDENT).map (word d)

/-- A type: its name, and between brackets the words of its parameters. -/
def TypeName (d : Dialect) (types : List (List TokType × TokType)) (ts : List Token) (name : Str) (type : TokType) (expr : List Ident) : Prop :=
  ∃ ws as, ((kinds ws, type) ∈ types ∨ kinds ws = [type]) ∧ name = join s%" " (ws.map (·.lit)) ∧
    expr = (as.filter fun t => t.type ≠ .OPEN_PAREN).map (word d) ∧
    ((as = [] ∧ ts = ws) ∨ ∃ o c, ts = ws ++ o :: (as ++ [c]) ∧ o.type = .OPEN_PAREN ∧ c.type = .CLOSE_PAREN)

/-- A phrase that may be repeated; what they stand for is put together. -/
inductive Many {K : Type} (One : List Token → K → Prop) : List Token → List K → Prop
  | nil : Many One [] []
  | cons (ts rest : List Token) (k : K) (l : List K) : One ts k → Many One rest l → Many One (ts ++ rest) (k :: l)

/-- `CONSTRAINT name`, or nothing, and then the name is made of `dflt`. -/
def NamedAs (d : Dialect) (ts : List Token) (dflt : Str) (n : Ident) : Prop :=
  (ts = [] ∧ n = newRawIdent d dflt) ∨ ∃ k t, ts = [k, t] ∧ k.type = .CONSTRAINT ∧ t.type = .IDENT ∧ n = word d t

/-- The body of a table: columns with their constraints, constraints of the table, and commas anywhere between them. -/
inductive Body {C K : Type} (Column : List Token → C → List K → Prop) (Constraint : List Token → K → Prop) :
    List Token → List C → List K → Prop
  | nil : Body Column Constraint [] [] []
  | comma (k : Token) (rest : List Token) (cols : List C) (cons : List K) : k.type = .COMMA → Body Column Constraint rest cols cons →
      Body Column Constraint (k :: rest) cols cons
  | column (ts rest : List Token) (c : C) (cs : List K) (cols : List C) (cons : List K) : Column ts c cs → Body Column Constraint rest cols cons →
      Body Column Constraint (ts ++ rest) (c :: cols) (cs ++ cons)
  | constraint (ts rest : List Token) (k : K) (cols : List C) (cons : List K) : Constraint ts k → Body Column Constraint rest cols cons →
      Body Column Constraint (ts ++ rest) cols (k :: cons)

/-- Of those with the same name, the one that is written last. -/
def Latest {K N : Type} (name : K → N) (l : List K) (c : K) : Prop := ∃ a b, l = a ++ c :: b ∧ ∀ x ∈ b, name x ≠ name c

/-- Names with `ASC`, `DESC` or nothing behind each, brackets and commas, with a closing bracket at the end. -/
inductive Sorting (d : Dialect) : List Token → List (Ident × Option Bool) → Prop
  | close (c : Token) : c.type = .CLOSE_PAREN → Sorting d [c] []
  | skip (k : Token) (r : List Token) (l : List (Ident × Option Bool)) : k.type = .OPEN_PAREN ∨ k.type = .COMMA → Sorting d r l → Sorting d (k :: r) l
  | name (t : Token) (o r : List Token) (b : Option Bool) (l : List (Ident × Option Bool)) : t.type = .IDENT → kinds o = orderTypes b → Sorting d r l →
      Sorting d (t :: (o ++ r)) ((word d t, b) :: l)

/-- Statements; between them closing brackets and semicolons, and behind each statement at most one other token.  A token of type `EOF`
(a NUL byte) ends the text. -/
inductive Scripted {S : Type} (Statement : List Token → S → Prop) : List Token → List S → Prop
  | nil : Scripted Statement [] []
  | stop (t : Token) (rest : List Token) : t.type = .EOF → Scripted Statement (t :: rest) []
  | skip (t : Token) (rest : List Token) (l : List S) : t.type = .CLOSE_PAREN ∨ t.type = .SEMICOLON → Scripted Statement rest l →
      Scripted Statement (t :: rest) l
  | statement (ts k rest : List Token) (x : S) (l : List S) : Statement ts x → k.length ≤ 1 → Scripted Statement rest l →
      Scripted Statement (ts ++ (k ++ rest)) (x :: l)

end Ddl.Spec.Source
