import Verif.Stmt
import Verif.Lexer

/-!
# Running the test tables of the Go packages on the model

The tables in this directory are copied from the `*_test.go` files of `/repo`: inputs and expected outcomes. They check the model
against the authors' own expectations of the code. They are tests, not proofs.
-/

set_option autoImplicit false

namespace Ddl.Tests

/-- Lines of a text. -/
def lines : Str → List Str
  | [] => [[]]
  | c :: r =>
    if c = '\n' then [] :: lines r
    else match lines r with
      | [] => [[c]]
      | l :: ls => (c :: l) :: ls

/-- Length of the common beginning. -/
def common : List Str → List Str → Nat
  | a :: l, b :: m => if a = b then common l m + 1 else 0
  | _, _ => 0

/-- Lines joined with line feeds. -/
def unlines : List Str → Str
  | [] => []
  | [l] => l
  | l :: ls => l ++ '\n' :: unlines ls

/-- A line diff that keeps common lines at the beginning and at the end; on the inputs of the tables it agrees with
`simplediff.Diff(...).String()`. -/
def lineDiff (a b : Str) : Str :=
  let x := lines a
  let y := lines b
  let n := common x y
  let k := common (x.drop n).reverse (y.drop n).reverse
  let x' := (x.drop n).take ((x.drop n).length - k)
  let y' := (y.drop n).take ((y.drop n).length - k)
  unlines ((x.take n).map (' ' :: ·) ++ x'.map ('-' :: ·) ++ y'.map ('+' :: ·) ++
    ((x.drop n).drop ((x.drop n).length - k)).map (' ' :: ·))

/-- Apply a function to the value of an outcome. -/
def mapRes {α β : Type} (f : α → β) : Res α → Res β
  | .ok a => .ok (f a)
  | .err e => .err e
  | .panic p => .panic p
  | .outOfFuel => .outOfFuel

/-- `ddl.Stmts[0].(*CreateTableStmt)`. -/
def firstTable {T I A N : Type} : List (Stmt T I A N) → Option T
  | .createTable t :: _ => some t
  | _ => none

/-- All inputs of a table end in the given error. -/
def allFail {α : Type} (f : Str → Res α) (l : List (Str × Err)) : Bool :=
  l.all fun p => match f p.1 with
    | .err e => e == p.2
    | _ => false

end Ddl.Tests
