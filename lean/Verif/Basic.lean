/-!
# Basic vocabulary of the model

Go strings are byte sequences.  They are modelled as `List Char`, one `Char` standing for one byte.
Go functions that can return an error or panic are modelled by functions into `Res`.
-/

namespace Ddl

/-- A Go `string`: one `Char` per byte. The texts that `Parse` reads: `pkg/ddl/postgres/lexar.go:269-275`. -/
abbrev Str := List Char

open Lean in
/-- `s%"abc"` is the explicit list of characters `['a','b','c']`. -/
macro:max "s%" s:str : term => do
  s.getString.toList.foldrM (init := ← `(([] : List Char))) fun c acc => do
    `(List.cons $(Syntax.mkCharLit c) $acc)

/-- Sentinel errors of `pkg/ddl/errors.go` and `pkg/apperr`; message texts are not modelled.
The former: lines 8-12, the latter: `pkg/apperr/errors.go:9-15`. -/
inductive Err where
  | unexpectedCurrentToken
  | unexpectedPeekToken
  | noDifference
  | notSupported
  | dialectIsEmpty
  | twoArgumentsRequired
  | canceled
  | other (msg : Str)
deriving DecidableEq, Repr

/-- Kinds of run-time panics the modelled Go code can raise. `sliceBounds`: `pkg/ddl/postgres/lexar.go:373`;
`nilDeref`, for instance: `pkg/ddl/spanner/ddl_table.go:24`; `indexRange`, for instance:
`pkg/ddlctl/generate/ddlctl_generate.go:27`. -/
inductive Panic where
  /-- slice bounds out of range in `readQuotedLiteral` -/
  | sliceBounds
  /-- nil pointer dereference -/
  | nilDeref
  /-- slice index out of range -/
  | indexRange
deriving DecidableEq, Repr

/-- Outcome of a modelled Go function: a value, an `error`, a panic.
`outOfFuel` is not a Go outcome: it marks that the fuel of a modelled loop was exhausted;
theorems in `Verif/Props` show that it never occurs.
Stands for the results `(T, error)`, for instance of `Parse`, `pkg/ddl/postgres/parser.go:75`. -/
inductive Res (α : Type) where
  | ok (a : α)
  | err (e : Err)
  | panic (p : Panic)
  | outOfFuel
deriving DecidableEq, Repr

namespace Res

variable {α β : Type}

/-- What follows `if err != nil { return err }`, for instance `pkg/ddl/postgres/parser.go:85-88`. -/
def bind (r : Res α) (f : α → Res β) : Res β :=
  match r with
  | ok a => f a
  | err e => err e
  | panic p => panic p
  | outOfFuel => outOfFuel

/-- See `bind`: `pkg/ddl/postgres/parser.go:85-88`. -/
instance : Monad Res where
  pure := ok
  bind := bind

@[simp] theorem pure_eq (a : α) : (Pure.pure a : Res α) = ok a := rfl
@[simp] theorem ok_bind (a : α) (f : α → Res β) : (ok a >>= f) = f a := rfl
@[simp] theorem err_bind (e : Err) (f : α → Res β) : ((err e : Res α) >>= f) = err e := rfl
@[simp] theorem panic_bind (p : Panic) (f : α → Res β) : ((panic p : Res α) >>= f) = panic p := rfl
@[simp] theorem oof_bind (f : α → Res β) : ((outOfFuel : Res α) >>= f) = outOfFuel := rfl

theorem bind_assoc {γ : Type} (r : Res α) (f : α → Res β) (g : β → Res γ) :
    ((r >>= f) >>= g) = (r >>= fun a => f a >>= g) := by
  cases r <;> rfl

/-- Was a value returned?. `err == nil`, for instance `pkg/ddl/postgres/diff.go:78`. -/
def isOk : Res α → Bool
  | ok _ => true
  | _ => false

/-- Did the function panic?. For instance at `pkg/ddl/postgres/lexar.go:373`. -/
def isPanic : Res α → Bool
  | panic _ => true
  | _ => false

end Res

/-! ## Character and string helpers -/

/-- `strings.ToUpper` restricted to ASCII letters (the only call site in the lexer applies it to
identifiers made of ASCII letters, digits, `_` and `.`). The call site: `pkg/ddl/postgres/lexar.go:134`. -/
def upper (s : Str) : Str := s.map Char.toUpper

/-- `strings.Join`. Used through `stringz.JoinStringers`, for instance `pkg/ddl/postgres/ddl.go:57`. -/
def join (sep : Str) : List Str → Str
  | [] => []
  | [a] => a
  | a :: b :: r => a ++ sep ++ join sep (b :: r)

/-- `strings.HasPrefix`. Used at `pkg/ddl/postgres/parser.go:25`. -/
def hasPrefix (s p : Str) : Bool := p.isPrefixOf s

/-- `strings.HasSuffix`. Used at `pkg/ddl/postgres/parser.go:25`. -/
def hasSuffix (s p : Str) : Bool := p.isSuffixOf s

/-- `strings.Trim(s, cutset)` for a one-character cutset.
Used at `pkg/ddl/postgres/parser.go:27` and `pkg/internal/lang/go/parse.go:162`. -/
def trimC (c : Char) (s : Str) : Str :=
  ((s.dropWhile (· == c)).reverse.dropWhile (· == c)).reverse

/-- `strings.Split(s, sep)` for a one-character separator. Used at `pkg/ddl/postgres/ddl_table.go:207`. -/
def splitC (c : Char) : Str → List Str
  | [] => [[]]
  | x :: xs =>
    if x = c then [] :: splitC c xs
    else match splitC c xs with
      | [] => [[x]]
      | h :: t => (x :: h) :: t

end Ddl
