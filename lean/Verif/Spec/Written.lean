import Verif.Spec.Append
import Verif.Spec.Grammar
import Verif.Spec.ColumnConstraints
import Verif.Stmt

/-!
# Specification vocabulary: statements as they are written

Grammars on tokens, in which every phrase comes with the part of the syntax tree it stands for.  No parser function is used.
-/

set_option autoImplicit false

namespace Ddl.Spec.Written

/-- An opening bracket. -/
def opn : Token := ⟨.OPEN_PAREN, s%"("⟩

/-- A closing bracket. -/
def cls : Token := ⟨.CLOSE_PAREN, s%")"⟩

/-- The types of the tokens. -/
abbrev kinds (ts : List Token) : List TokType := ts.map (·.type)

/-- The name or word a token stands for. -/
def word (d : Dialect) (t : Token) : Ident := newRawIdent d t.lit

/-- A name that was not written. -/
def given (s : Str) : Ident := ⟨s, [], s⟩

/-- Names in brackets, separated by commas. -/
def Listed (d : Dialect) (ts : List Token) (names : List Ident) : Prop :=
  ∃ cols l, ts = opn :: (l ++ [cls]) ∧ NameList cols l ∧ names = cols.map (word d)

/-- `CONSTRAINT name`, or nothing, and then `dflt` is the name. -/
def Named (d : Dialect) (ts : List Token) (dflt : Str) (n : Ident) : Prop :=
  (ts = [] ∧ n = given dflt) ∨ ∃ k t, ts = [k, t] ∧ k.type = .CONSTRAINT ∧ t.type = .IDENT ∧ n = word d t

/-- The words of a type and its parameters in brackets, if there are any.  `types` are the type names. -/
def Typed (d : Dialect) (types : List (List TokType × TokType)) (ts : List Token) (name : Str) (type : TokType) (expr : List Ident) : Prop :=
  ∃ ws as, (kinds ws, type) ∈ types ∧ name = join s%" " (ws.map (·.lit)) ∧ expr = as.map (word d) ∧
    (∀ a ∈ as, a.type ∉ [.OPEN_PAREN, .CLOSE_PAREN, .EOF, .ILLEGAL]) ∧
    ((as = [] ∧ ts = ws) ∨ (as ≠ [] ∧ ts = ws ++ opn :: (as ++ [cls])))

/-- `NOT NULL`, `NULL`, or nothing. -/
def Nullity (ts : List Token) (notNull : Bool) : Prop :=
  (ts = [] ∧ notNull = false) ∨ (kinds ts = [.NULL] ∧ notNull = false) ∨ (kinds ts = [.NOT, .NULL] ∧ notNull = true)

/-- `IF NOT EXISTS`, or nothing. -/
def Conditional (ts : List Token) (ine : Bool) : Prop := kinds ts = if ine then [.IF, .NOT, .EXISTS] else []

/-- `ON {DELETE|UPDATE} {CASCADE|NO ACTION}`. -/
def OnAction (ts : List Token) : Prop :=
  ∃ a, (a = .DELETE ∨ a = .UPDATE) ∧ (kinds ts = [.ON, a, .CASCADE] ∨ kinds ts = [.ON, a, .NO, .ACTION])

/-- A comparison sign. -/
def IsSign (t : Token) : Prop := t.type ∈ [.EQUAL, .GREATER, .LESS]

instance (t : Token) : Decidable (IsSign t) := inferInstanceAs (Decidable (_ ∈ _))

/-- One of the constants `NULL`, `TRUE` and `FALSE`. -/
def IsLiteral (t : Token) : Prop := t.type ∈ [.NULL, .TRUE, .FALSE]

instance (t : Token) : Decidable (IsLiteral t) := inferInstanceAs (Decidable (_ ∈ _))

/-- `Bracketed d ts ws`: the tokens `ts`, between brackets, are the words `ws`.  Two comparison signs are one word; a constant is written
in capitals. -/
inductive Bracketed (d : Dialect) : List Token → List Ident → Prop
  | nil : Bracketed d [] []
  | word (t : Token) (r : List Token) (w : List Ident) : ¬ IsSign t → ¬ IsLiteral t → t.type ∉ [.OPEN_PAREN, .CLOSE_PAREN, .EOF] → Bracketed d r w →
      Bracketed d (t :: r) (word d t :: w)
  | constant (t : Token) (r : List Token) (w : List Ident) : IsLiteral t → Bracketed d r w → Bracketed d (t :: r) (given t.type.str :: w)
  | sign (t : Token) (r : List Token) (w : List Ident) : IsSign t → (∀ u ∈ r.head?, ¬ IsSign u) → Bracketed d r w →
      Bracketed d (t :: r) (word d t :: w)
  | signs (t u : Token) (r : List Token) (w : List Ident) : IsSign t → IsSign u → Bracketed d r w →
      Bracketed d (t :: u :: r) (newRawIdent d (t.lit ++ u.lit) :: w)
  | group (a b : List Token) (v w : List Ident) : Bracketed d a v → Bracketed d b w →
      Bracketed d (opn :: (a ++ cls :: b)) (given s%"(" :: (v ++ given s%")" :: w))

/-- `ValueWords d own later first ts ws`: the tokens `ts` are, as a value or (if not `first`) the rest of one, the words `ws`.  Tokens of the types
`own` are words by themselves, those of the types `later` only behind another one. -/
inductive ValueWords (d : Dialect) (own later : List TokType) : Bool → List Token → List Ident → Prop
  | nil : ValueWords d own later false [] []
  | word (f : Bool) (t : Token) (r : List Token) (w : List Ident) : t.type ∈ own → ValueWords d own later false r w →
      ValueWords d own later f (t :: r) (word d t :: w)
  | later (t : Token) (r : List Token) (w : List Ident) : t.type ∈ later → ValueWords d own later false r w →
      ValueWords d own later false (t :: r) (word d t :: w)
  | constant (f : Bool) (t : Token) (r : List Token) (w : List Ident) : IsLiteral t → ValueWords d own later false r w →
      ValueWords d own later f (t :: r) (⟨t.type.str, [], t.lit⟩ :: w)
  | group (f : Bool) (a b : List Token) (v w : List Ident) : Bracketed d a v → ValueWords d own later false b w →
      ValueWords d own later f (opn :: (a ++ cls :: b)) (given s%"(" :: (v ++ given s%")" :: w))

/-- Names, each with `ASC`, `DESC` or nothing behind it, separated by commas. -/
inductive Ordered (d : Dialect) : List Token → List (Ident × Option Bool) → Prop
  | one (t : Token) (o : List Token) (b : Option Bool) : t.type = .IDENT → kinds o = orderTypes b → Ordered d (t :: o) [(word d t, b)]
  | cons (t k : Token) (o r : List Token) (b : Option Bool) (l : List (Ident × Option Bool)) : t.type = .IDENT → kinds o = orderTypes b → k.type = .COMMA →
      Ordered d r l → Ordered d (t :: (o ++ k :: r)) ((word d t, b) :: l)

/-- Names with their orders, in brackets. -/
def Sorted (d : Dialect) (ts : List Token) (l : List (Ident × Option Bool)) : Prop := ∃ b, ts = opn :: (b ++ [cls]) ∧ Ordered d b l

/-- The primary key first. -/
def keyFirst {C : Type} (isKey : C → Bool) (l : List C) : List C := l.filter isKey ++ l.filter fun c => !isKey c

/-- `KeyFirst isKey name written l`: in `l` there is first the primary key and then the other constraints.  Of those with the same name the last
one written counts, at the place of the first one. -/
def KeyFirst {C : Type} (isKey : C → Bool) (name : C → Str) (written l : List C) : Prop :=
  ∃ k r, l = k ++ r ∧ LastWinsAtFirst name (written.filter isKey) k ∧ LastWinsAtFirst name (written.filter fun c => !isKey c) r

/-- Phrases `Item ts cols cons exact`, separated by commas: what they stand for is put together.  Behind one that is not `exact` there
has to be one that begins with a name. -/
inductive Items {C K : Type} (Item : List Token → List C → List K → Bool → Prop) : List Token → List C → List K → Prop
  | one (ts : List Token) (cols : List C) (cons : List K) : Item ts cols cons true → Items Item ts cols cons
  | cons (ts rest : List Token) (k : Token) (cols cols' : List C) (cons cons' : List K) (exact : Bool) : Item ts cols cons exact →
      k.type = .COMMA → (exact = true ∨ (kinds rest).head? = some .IDENT) → Items Item rest cols' cons' → Items Item (ts ++ k :: rest) (cols ++ cols') (cons ++ cons')

/-- Statements, separated by semicolons; the last one may have a semicolon too. -/
inductive Script {S : Type} (Statement : List Token → S → Prop) : List Token → List S → Prop
  | nil : Script Statement [] []
  | last (ts : List Token) (x : S) : Statement ts x → Script Statement ts [x]
  | cons (ts rest : List Token) (k : Token) (x : S) (l : List S) : Statement ts x → k.type = .SEMICOLON → Script Statement rest l →
      Script Statement (ts ++ k :: rest) (x :: l)

end Ddl.Spec.Written
