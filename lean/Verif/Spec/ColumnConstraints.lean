import Verif.Pg.Parser
import Verif.Spec.Blur
/-! # Constraints written in a column definition

The syntax, as sequences of tokens, and what it has to become; no parser function is used. -/
set_option autoImplicit false
namespace Ddl.Spec

/-- An expression whose parentheses are balanced. -/
inductive Balanced : List Token → Prop where
  | nil : Balanced []
  | word (t : Token) (l : List Token) : t.type ≠ .OPEN_PAREN → t.type ≠ .CLOSE_PAREN → t.type ≠ .EOF → Balanced l → Balanced (t :: l)
  | paren (o c : Token) (l r : List Token) : o.type = .OPEN_PAREN → c.type = .CLOSE_PAREN → Balanced l → Balanced r →
      Balanced (o :: (l ++ c :: r))

/-- Column names, separated by commas. -/
inductive NameList : List Token → List Token → Prop where
  | one (t : Token) : t.type = .IDENT → NameList [t] [t]
  | cons (t k : Token) (l ts : List Token) : t.type = .IDENT → k.type = .COMMA → NameList l ts → NameList (t :: l) (t :: k :: ts)

/-- A constraint in a column definition. -/
inductive ColCon where
  | primaryKey
  | unique
  /-- The table, its columns, and the words of `ON …` (possibly none). -/
  | references (ref : Token) (cols action : List Token)
  /-- The tokens between the parentheses. -/
  | check (expr : List Token)

/-- `PRIMARY KEY`, `UNIQUE`, `REFERENCES t (c, …) [ON {DELETE|UPDATE} {CASCADE|NO ACTION}]`, `CHECK (…)`.
A word of the expression that has a meaning of its own (`TRUE`, `FALSE`, `NULL`) may be written in any letter case. -/
def ColCon.Tokens : ColCon → List Token → Prop
  | .primaryKey, ts => ts.map (·.type) = [.PRIMARY, .KEY]
  | .unique, ts => ts.map (·.type) = [.UNIQUE]
  | .references ref cols act, ts => ∃ (k o c : Token) (l : List Token), ts = k :: ref :: o :: (l ++ c :: act) ∧ k.type = .REFERENCES ∧
      ref.type = .IDENT ∧ o.type = .OPEN_PAREN ∧ c.type = .CLOSE_PAREN ∧ NameList cols l ∧
      (act = [] ∨ ∃ a, (a = .DELETE ∨ a = .UPDATE) ∧
        (act.map (·.type) = [.ON, a, .CASCADE] ∨ act.map (·.type) = [.ON, a, .NO, .ACTION]))
  | .check e, ts => ∃ (k o c : Token), ts = k :: o :: (e ++ [c]) ∧ k.type = .CHECK ∧ o.type = .OPEN_PAREN ∧ o.lit = s%"(" ∧
      c.type = .CLOSE_PAREN ∧ c.lit = s%")" ∧ Balanced e ∧ ∀ t ∈ e, t.type ∈ [.NULL, .TRUE, .FALSE] → t.lit.map Char.toUpper = t.type.str

/-- The constraint is in the result, on the column `col`. The names of the constraints are those PostgreSQL would choose, except for
`UNIQUE` (PostgreSQL: `t_c_key`). Expressions are compared as text, up to letter case and blanks. -/
def ColCon.Kept (tbl col : Ident) : ColCon → Pg.Constraint → Prop
  | .primaryKey, c => ∃ n, c = .primaryKey n [col] ∧ n.name = tbl.name ++ s%"_pkey"
  | .unique, c => ∃ n, c = .unique n [col] ∧ n.name = tbl.name ++ s%"_unique_" ++ col.name
  | .references ref cols act, c => ∃ n, c = .foreignKey n [col] (newRawIdent .postgres ref.lit)
      (cols.map fun t => newRawIdent .postgres t.lit) (join s%" " (act.map (·.lit))) ∧ n.name = tbl.name ++ s%"_" ++ col.name ++ s%"_fkey"
  | .check e, c => ∃ n x, c = .check n x ∧ n.name = tbl.name ++ s%"_" ++ col.name ++ s%"_check" ∧
      (x.map (·.raw)).flatten.map Char.toUpper = (s%"(" ++ (e.map (·.lit)).flatten ++ s%")").map Char.toUpper

/-- The kind of a constraint. -/
def ColCon.kind : ColCon → Nat
  | .primaryKey => 0
  | .unique => 1
  | .references .. => 2
  | .check _ => 3

/-- The parser stops right behind the constraint: not so for `CHECK` and for `REFERENCES` without `ON`, which swallow a token. -/
def ColCon.Exact : ColCon → Prop
  | .primaryKey | .unique => True
  | .references _ _ act => act ≠ []
  | .check _ => False

end Ddl.Spec
