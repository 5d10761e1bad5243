import Verif.Basic

/-!
# Regular expressions

As much of Go's `regexp` (a library, not part of /repo) as the expressions of ddlctl need: character classes, sequence,
alternative and greedy repetition, with the leftmost-first rule that Go shares with backtracking matchers.
-/

namespace Ddl

/-- The syntax of the expressions of `pkg/internal/lang/util/regex.go:13-25`, `extract_source.go:37`. -/
inductive Rx where
  | eps
  | cls (p : Char → Bool)
  | seq (a b : Rx)
  | alt (a b : Rx)
  | star (a : Rx)

namespace Rx

/-- Greedy repetition of a matcher; a round that consumes nothing ends it.
Go's `regexp`, used in `pkg/internal/lang/util/regex.go:13-25`. -/
def rounds (f : Str → List Str) : Nat → Str → List Str
  | 0, s => [s]
  | n + 1, s => ((f s).filter (fun r => r.length < s.length)).flatMap (rounds f n) ++ [s]

/-- What can be left of the text behind a match at its start, in order of preference.
Go's `regexp`, used in `pkg/internal/lang/util/regex.go:13-25`. -/
def run : Rx → Str → List Str
  | eps, s => [s]
  | cls p, s => match s with
    | [] => []
    | c :: r => if p c then [r] else []
  | seq a b, s => (run a s).flatMap (run b)
  | alt a b, s => run a s ++ run b s
  | star a, s => rounds (run a) s.length s

/-- `a?`: used in `pkg/internal/lang/util/regex.go:13-25`. -/
def opt (a : Rx) : Rx := alt a eps

/-- `a+`: used in `pkg/internal/lang/util/regex.go:13-25`. -/
def plus (a : Rx) : Rx := seq a (star a)

/-- The character `c`: used in `pkg/internal/lang/util/regex.go:13-25`. -/
def chr (c : Char) : Rx := cls (· == c)

/-- A literal text: used in `pkg/internal/lang/util/regex.go:13-25`. -/
def lit : Str → Rx
  | [] => eps
  | c :: r => seq (chr c) (lit r)

/-- A literal text of ASCII capitals under `(?i)`: used in `pkg/internal/lang/util/regex.go:13-25`. -/
def litI : Str → Rx
  | [] => eps
  | c :: r => seq (cls (fun x => x.toUpper == c)) (litI r)

/-- `\s`: used in `pkg/internal/lang/util/regex.go:13-25`. -/
def isBlank (c : Char) : Bool := c == '\t' || c == '\n' || c.toNat == 12 || c == '\r' || c == ' '

/-- `\s`: used in `pkg/internal/lang/util/regex.go:13-25`. -/
def space : Rx := cls isBlank

/-- `\S`; a character of more than one byte is matched byte by byte, which makes no difference to `\S+`.
Used in `pkg/internal/lang/util/regex.go:13-25`. -/
def nonspace : Rx := cls (fun c => !isBlank c)

/-- `.`: used in `pkg/internal/lang/util/regex.go:13-25`. -/
def dot : Rx := cls (fun c => !(c == '\n'))

/-- The sequence of several expressions: used in `pkg/internal/lang/util/regex.go:13-25`. -/
def cat : List Rx → Rx
  | [] => eps
  | [a] => a
  | a :: b :: r => seq a (cat (b :: r))

/-- The text of the group `g` in the preferred match of `^pre(g)`.
`FindStringSubmatch`: `pkg/internal/lang/go/parse.go:121, 134, 136, 140`. -/
def group (pre g : Rx) (s : Str) : Option Str :=
  match (run pre s).flatMap (fun r => (run g r).map (fun r' => r.take (r.length - r'.length))) with
  | [] => none
  | x :: _ => some x

/-- Is there a match that starts at the beginning of the text?
The `^` of `pkg/internal/lang/go/extract_source.go:37`. -/
def matchesAt (a : Rx) (s : Str) : Bool := !(run a s).isEmpty

/-- Is there a match anywhere in the text?
`FindStringSubmatch` at `pkg/internal/generator/ddl_create_table.go:39`. -/
def matchesIn (a : Rx) : Str → Bool
  | [] => matchesAt a []
  | c :: r => matchesAt a (c :: r) || matchesIn a r

end Rx

end Ddl
