import Verif.Spec.Content

/-! # Specification vocabulary for attributes of columns and tables (C31-C34) -/

namespace Ddl
open Spec

namespace Spec

/-- Words separated by commas, e.g. the arguments of a type. -/
def CommaList (l : List Str) : Prop := ∃ ws : List Str, l = ws.intersperse s%"," ∧ ∀ w ∈ ws, w ≠ [] ∧ ',' ∉ w

/-- Words without blanks. -/
def Blankless (l : List Str) : Prop := ∀ w ∈ l, w ≠ [] ∧ ' ' ∉ w

/-- A word: letters, digits, `_` and `.`. -/
def IsWord (s : Str) : Prop := s ≠ [] ∧ ∀ c ∈ s, isLit c = true

/-- `'s'` -/
def quoted (s : Str) : Str := s%"'" ++ s ++ s%"'"

end Spec

namespace My

/-- The words of the default value of a column, if it has one. -/
def Column.defaultWords (c : Column) : Option (List Str) := (c.default.bind (·.value)).map (·.map Ident.name)

/-- The text of an optional identifier, empty if there is none. -/
def optName (i : Option Ident) : Str := (i.map Ident.name).getD []

/-- Two columns with the same attributes. -/
structure SameColumn (c c' : Column) : Prop where
  name : c.name.name = c'.name.name
  type : c.dataType.type = c'.dataType.type
  args : c.dataType.expr.map Ident.name = c'.dataType.expr.map Ident.name
  characterSet : optName c.characterSet = optName c'.characterSet
  collate : optName c.collate = optName c'.collate
  notNull : c.notNull = c'.notNull
  default : c.defaultWords = c'.defaultWords
  autoIncrement : c.autoIncrement = c'.autoIncrement
  onAction : c.onAction = c'.onAction
  comment : c.comment = c'.comment

/-- What a statement does to the column named `n`: `MODIFY` sets all its attributes, `DROP DEFAULT` removes its default. -/
def runColumn (n : Str) (c : Column) : MStmt → Column
  | .alterTable a => match a.action with
    | .modifyColumn m => if m.name.name = n then
        ⟨m.name, m.dataType, m.characterSet, m.collate, m.default, m.notNull, m.autoIncrement, m.onAction, m.comment⟩ else c
    | .dropDefault x => if x.name = n then { c with default := none } else c
    | _ => c
  | _ => c

/-- The column can be compared without confusion: its type arguments are separated by commas that do not occur inside them, and
no blank occurs inside a word of its default. -/
def Column.Plain (c : Column) : Prop :=
  CommaList (c.dataType.expr.map Ident.name) ∧ Blankless (c.defaultWords.getD [])

/-- The option a statement sets. -/
def setsOption : MStmt → Option TableOption
  | .alterTable a => match a.action with
    | .tableOption o => some o
    | _ => none
  | _ => none

/-- The options other than the AUTO_INCREMENT counter. -/
def countless (l : List TableOption) : List TableOption := l.filter (fun o => o.name ≠ s%"AUTO_INCREMENT")

/-- Tables that agree in everything but the options. -/
def SameBody (t t' : CreateTable) : Prop :=
  t.name.bare = t'.name.bare ∧ SameElems (t.columns.map Column.bare) (t'.columns.map Column.bare) ∧
    SameElems (t.constraints.map Constraint.bare) (t'.constraints.map Constraint.bare)

/-- Options as the parser makes them: upper-case name, one word or literal as value. -/
def TableOption.Parsed (o : TableOption) : Prop :=
  o.name ∈ [s%"ENGINE", s%"AUTO_INCREMENT", s%"DEFAULT CHARSET", s%"COLLATE", s%"COMMENT"] ∧
    ∃ w : Str, o.value = [newRawIdent .mysql w]

end My
end Ddl
