import Verif.Token

/-!
# A declarative lexical grammar

`Writes d fin s ts` says that the text `s` is one way of writing the token sequence `ts` in dialect `d`: blanks and
comments may stand anywhere between tokens.  With `fin = true` the text may end inside a comment.
Nothing here refers to the lexer model; only the keyword tables (data) are shared.
-/

namespace Ddl.Spec

/-- Blank characters. -/
def Blank (c : Char) : Prop := c ∈ [' ', '\t', '\n', '\r']

/-- Characters of words (names, keywords, numbers). -/
def WordChar (c : Char) : Prop :=
  ('A' ≤ c ∧ c ≤ 'Z') ∨ ('a' ≤ c ∧ c ≤ 'z') ∨ ('0' ≤ c ∧ c ≤ '9') ∨ c = '_' ∨ c = '.'

/-- The byte 0. -/
def nul : Char := Char.ofNat 0

/-- Quote characters of a dialect. -/
def quotes : Dialect → List Char
  | .postgres | .cockroachdb => ['"', '\'']
  | .mysql | .spanner => ['"', '\'', '`']

/-- One-character tokens. -/
def symbols : List (Char × TokType) :=
  [('(', .OPEN_PAREN), (')', .CLOSE_PAREN), (',', .COMMA), (';', .SEMICOLON), ('=', .EQUAL), ('>', .GREATER),
   ('<', .LESS), ('+', .PLUS), ('-', .MINUS), ('*', .ASTERISK), ('/', .SLASH)]

/-- Is `d` a dialect with the operators `||` and `::`? -/
def hasOps (d : Dialect) : Prop := d = .postgres ∨ d = .cockroachdb

/-- The token type of a word: its keyword, letter case being irrelevant, or IDENT. -/
def WordType (d : Dialect) (w : Str) (t : TokType) : Prop :=
  (w.map Char.toUpper, t) ∈ keywords d ∨ (t = .IDENT ∧ ∀ t', (w.map Char.toUpper, t') ∉ keywords d)

/-- The text ends here or does not go on with `c`. -/
def NotNext (c : Char) (s : Str) : Prop := s.head? ≠ some c

/-- Does the character start no other kind of token?  (`|` and `:` are handled separately.) -/
def Other (d : Dialect) (c : Char) : Prop :=
  ¬ Blank c ∧ ¬ WordChar c ∧ c ≠ nul ∧ c ∉ quotes d ∧ (∀ t, (c, t) ∉ symbols) ∧ (hasOps d → c ≠ '|' ∧ c ≠ ':')

/-- The text of an illegal character in its token: ASCII characters stand for themselves, other bytes are
re-encoded as the UTF-8 encoding of the code point with the number of the byte. -/
def illegalText (c : Char) : Str :=
  if c.toNat < 128 then [c] else [Char.ofNat (192 + c.toNat / 64), Char.ofNat (128 + c.toNat % 64)]

inductive Writes (d : Dialect) (fin : Bool) : Str → List Token → Prop
  | nil : Writes d fin [] []
  | blank (c : Char) (s : Str) (ts : List Token) : Blank c → Writes d fin s ts → Writes d fin (c :: s) ts
  | comment (body s : Str) (ts : List Token) : (∀ c ∈ body, c ≠ '\n' ∧ c ≠ nul) →
      (s.head? = some '\n' ∨ s.head? = some nul ∨ (fin = true ∧ s = [])) →
      Writes d fin s ts → Writes d fin (s%"--" ++ body ++ s) ts
  | word (w : Str) (t : TokType) (s : Str) (ts : List Token) : w ≠ [] → (∀ c ∈ w, WordChar c) → WordType d w t →
      (∀ c, WordChar c → NotNext c s) → Writes d fin s ts → Writes d fin (w ++ s) (⟨t, w⟩ :: ts)
  | quoted (q e : Char) (body s : Str) (ts : List Token) : q ∈ quotes d → (∀ c ∈ body, c ≠ q ∧ c ≠ nul) →
      (e = q ∨ e = nul) →
      Writes d fin s ts → Writes d fin (q :: body ++ e :: s) (⟨.IDENT, q :: body ++ [e]⟩ :: ts)
  | concat (s : Str) (ts : List Token) : hasOps d → Writes d fin s ts →
      Writes d fin (s%"||" ++ s) (⟨.STRING_CONCAT, s%"||"⟩ :: ts)
  | pipe (s : Str) (ts : List Token) : hasOps d → NotNext '|' s → Writes d fin s ts →
      Writes d fin ('|' :: s) (⟨.ILLEGAL, s%"|"⟩ :: ts)
  | annotation (s : Str) (ts : List Token) : d = .cockroachdb → Writes d fin s ts →
      Writes d fin (s%":::" ++ s) (⟨.TYPE_ANNOTATION, s%":::"⟩ :: ts)
  | typecast (s : Str) (ts : List Token) : hasOps d → (d = .cockroachdb → NotNext ':' s) → Writes d fin s ts →
      Writes d fin (s%"::" ++ s) (⟨.TYPECAST, s%"::"⟩ :: ts)
  | colon (s : Str) (ts : List Token) : hasOps d → NotNext ':' s → Writes d fin s ts →
      Writes d fin (':' :: s) (⟨.ILLEGAL, s%":"⟩ :: ts)
  | symbol (c : Char) (t : TokType) (s : Str) (ts : List Token) : (c, t) ∈ symbols → (c = '-' → NotNext '-' s) →
      Writes d fin s ts → Writes d fin (c :: s) (⟨t, [c]⟩ :: ts)
  | nul (s : Str) (ts : List Token) : Writes d fin s ts → Writes d fin (nul :: s) (⟨.EOF, []⟩ :: ts)
  | illegal (c : Char) (s : Str) (ts : List Token) : Other d c → Writes d fin s ts →
      Writes d fin (c :: s) (⟨.ILLEGAL, illegalText c⟩ :: ts)

end Ddl.Spec

namespace Ddl.Spec

/-- Placing `b` directly behind `a` glues no two tokens together: the last character of `a` and the first of `b` do not
belong to one word, operator or comment marker. -/
def NoMerge (a b : Str) : Prop :=
  ∀ x y, a.getLast? = some x → b.head? = some y →
    ¬ (WordChar x ∧ WordChar y) ∧ ¬ (x = '-' ∧ y = '-') ∧ ¬ (x = '|' ∧ y = '|') ∧ ¬ (x = ':' ∧ y = ':')

/-- A run of blanks and `-- ...` comments, each comment closed by a line break. -/
inductive BlankRun : Str → Prop
  | nil : BlankRun []
  | blank (c : Char) (s : Str) : Blank c → BlankRun s → BlankRun (c :: s)
  | comment (body s : Str) : (∀ c ∈ body, c ≠ '\n' ∧ c ≠ nul) → BlankRun s → BlankRun (s%"--" ++ body ++ '\n' :: s)

/-- Where a scan of the text stands. -/
inductive Mode where
  | code
  | comment
  | quote (q : Char)
deriving DecidableEq

/-- The text without blanks, comments and NUL bytes; quoted text is kept as it is. -/
def visible (d : Dialect) : Mode → Str → Str
  | _, [] => []
  | .comment, c :: r => if c = '\n' ∨ c = nul then visible d .code r else visible d .comment r
  | .quote q, c :: r => c :: visible d (if c = q ∨ c = nul then .code else .quote q) r
  | .code, c :: r =>
    if c ∈ [' ', '\t', '\n', '\r'] ∨ c = nul then visible d .code r
    else if c ∈ quotes d then c :: visible d (.quote c) r
    else if c = '-' ∧ r.head? = some '-' then visible d .comment r
    else c :: visible d .code r

/-- Does the text contain `--`? -/
def hasDashes : Str → Bool
  | [] => false
  | c :: r => (c == '-' && r.head? == some '-') || hasDashes r

end Ddl.Spec
