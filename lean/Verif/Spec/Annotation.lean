import Verif.Regex

/-!
# What counts as an annotation

The language of a regular expression, and the shape of annotation lines, written without the matcher.
-/

namespace Ddl.Spec

/-- The texts a regular expression stands for. -/
inductive Lang : Rx → Str → Prop
  | eps : Lang .eps []
  | cls {p : Char → Bool} {c : Char} : p c = true → Lang (.cls p) [c]
  | seq {a b : Rx} {u v : Str} : Lang a u → Lang b v → Lang (.seq a b) (u ++ v)
  | altL {a b : Rx} {u : Str} : Lang a u → Lang (.alt a b) u
  | altR {a b : Rx} {u : Str} : Lang b u → Lang (.alt a b) u
  | starNil {a : Rx} : Lang (.star a) []
  | starCons {a : Rx} {u v : Str} : Lang a u → Lang (.star a) v → Lang (.star a) (u ++ v)

/-- Blanks: tabulator, line feed, form feed, carriage return, space. -/
def Sp (c : Char) : Prop := c ∈ ['\t', '\n', Char.ofNat 12, '\r', ' ']

instance : DecidablePred Sp := fun c => by unfold Sp; infer_instance

/-- A run of blanks. -/
def Sps (s : Str) : Prop := ∀ c ∈ s, Sp c

/-- A word: at least one character, no blanks. -/
def Word (s : Str) : Prop := s ≠ [] ∧ ∀ c ∈ s, ¬ Sp c

/-- A comment marker with the blanks behind it: `//`, `///`, ..., or `/*`. -/
def Marker (s : Str) : Prop :=
  (∃ n b, s = '/' :: '/' :: List.replicate n '/' ++ b ∧ Sps b) ∨ ∃ b, s = '/' :: '*' :: b ∧ Sps b

/-- The four keys. -/
inductive Key where
  | index | table | constraint | option
deriving DecidableEq, Repr

/-- The spellings of a key: singular and plural. -/
def Key.forms : Key → List Str
  | .index => [s%"index", s%"indexes"]
  | .table => [s%"table", s%"tables"]
  | .constraint => [s%"constraint", s%"constraints"]
  | .option => [s%"option", s%"options"]

/-- The text starts with a character that is no blank. -/
def Starts (s : Str) : Prop := ∃ c r, s = c :: r ∧ ¬ Sp c

/-- Anything in the comment that is taken for an annotation with the key: a word (whatever it is), a colon, the key, a colon
or blank, and a text. -/
def KeyShaped (key : Key) (s : Str) : Prop :=
  ∃ b0 m w b1 b2 k b3 sep b4 x, s = b0 ++ m ++ w ++ b1 ++ ':' :: (b2 ++ k ++ b3 ++ sep :: (b4 ++ x)) ∧
    Sps b0 ∧ (m = [] ∨ Marker m) ∧ Word w ∧ Sps b1 ∧ Sps b2 ∧ k ∈ key.forms ∧ Sps b3 ∧ (sep = ':' ∨ sep = ' ') ∧ Sps b4 ∧
    Starts x

/-- An annotation as it is usually written, with the tag `w`: `w: key: text`, `w: key text` or `w:key text`. -/
def AnnLine (w : Str) (key : Key) (s x : Str) : Prop :=
  ∃ b2 k sep b4, s = w ++ ':' :: (b2 ++ k ++ sep :: (b4 ++ x)) ∧
    Word w ∧ ':' ∉ w ∧ w.head? ≠ some '/' ∧ Sps b2 ∧ k ∈ key.forms ∧ (sep = ':' ∨ sep = ' ') ∧ Sps b4 ∧
    Starts x ∧ '\n' ∉ x ∧ (b2 = [] → sep = ' ') ∧ (sep = ' ' → x.head? ≠ some ':')

/-- A comment (with its marker) that starts with the tag and a colon. -/
def TagLine (tag s : Str) : Prop :=
  ∃ b0 m b1 rest, s = b0 ++ m ++ tag ++ b1 ++ ':' :: rest ∧ Sps b0 ∧ (m = [] ∨ Marker m) ∧ Sps b1

/-- Is the text a `CREATE ... <object> ... name` statement, in any letter case? -/
def CreateShaped (object s : Str) : Prop :=
  ∃ pre c b1 mid o b2 mid2 w post, s = pre ++ c ++ b1 ++ mid ++ o ++ b2 ++ mid2 ++ w ++ post ∧
    upper c = s%"CREATE" ∧ upper o = object ∧ b1 ≠ [] ∧ Sps b1 ∧ b2 ≠ [] ∧ Sps b2 ∧ '\n' ∉ mid ∧ '\n' ∉ mid2 ∧ Word w

/-- The statement for a text behind the key: the text itself if it is a statement, or else the text as a name. -/
def Creates (object text stmt : Str) : Prop :=
  (CreateShaped object text ∧ stmt = text) ∨
  (¬ CreateShaped object text ∧ stmt = s%"CREATE " ++ object ++ s%" " ++ text)

/-- The text of a Go comment: without the marker and the blanks behind it. -/
def CommentText (raw s : Str) : Prop :=
  ∃ m b, raw = m ++ b ++ s ∧ (m = s%"//" ∨ m = s%"/*") ∧ (∀ c ∈ b, c = ' ' ∨ c = '\t') ∧
    (s = [] ∨ ∃ c r, s = c :: r ∧ 33 ≤ c.toNat ∧ c.toNat < 127) ∧
    ¬ s%"/*" <+: b ++ s ∧ ¬ s%"*/" <+: b ++ s

/-- What a comment says: an annotation with the tag `w` for some `w` allowed by `P`, or nothing. -/
def Says (P : Str → Prop) (s : Str) : Option (Key × Str) → Prop
  | some (key, x) => ∃ w, P w ∧ AnnLine w key s x
  | none => ∀ key, ¬ KeyShaped key s

/-- The texts of the annotations with the key. -/
def textsOf (key : Key) (l : List (Option (Key × Str))) : List Str :=
  l.filterMap (fun a => match a with
    | some (k, x) => if k = key then some x else none
    | none => none)

end Ddl.Spec
