import Verif.Spec.RoundTrip
import Verif.Spec.Content
import Verif.Pg.Parser

/-!
# Specification vocabulary: schemas whose texts for comparison are unambiguous

The code compares definitions by texts in which identifiers stand without their quotes, words of expressions are separated by a
blank and parameters of types by nothing.  A schema is *tame* when identifiers do not contain what is used to separate them.
-/

namespace Ddl.Pg
open Spec
set_option autoImplicit false

/-- `l` is read from a text `s` without illegal characters. -/
def ReadFrom (s : Str) (l : List PStmt) : Prop :=
  (∃ ts, Writes .postgres true s ts ∧ ∀ t ∈ ts, t.type ≠ .ILLEGAL) ∧ (∀ c ∈ s, c ≠ nul) ∧ parse s = .ok l

/-- The text consists of word characters. -/
def IsWord (s : Str) : Prop := s ≠ [] ∧ ∀ c ∈ s, WordChar c

/-- The words of an expression that are in double quotes are simple words. -/
def TameExpr (e : Expr) : Prop := ∀ i ∈ e, i.quot = [] ∨ IsWord i.name

/-- The parameters of a type are words, separated by commas. -/
def TameParams : Expr → Prop
  | [] => True
  | [i] => IsWord i.name
  | i :: c :: r => IsWord i.name ∧ c.name = s%"," ∧ r ≠ [] ∧ TameParams r

/-- Type parameters and default value can be told from their text; there is no `DEFAULT` without a value. -/
def Column.Tame (c : Column) : Prop :=
  TameParams c.dataType.expr ∧ (∀ e, c.default = some ⟨some e⟩ → TameExpr e) ∧ c.default ≠ some ⟨none⟩

/-- The columns, the referenced table and the condition can be told from their text. -/
def Constraint.Tame : Constraint → Prop
  | .primaryKey _ cs | .unique _ cs => ∀ i ∈ cs, IsWord i.name
  | .foreignKey _ cs r rcs _ => (∀ i ∈ cs, IsWord i.name) ∧ IsWord r.name ∧ ∀ i ∈ rcs, IsWord i.name
  | .check _ e => TameExpr e

/-- Columns and constraints can be told from their text; constraint names are names. -/
def CreateTable.Tame (t : CreateTable) : Prop :=
  (∀ c ∈ t.columns, c.Tame) ∧ ∀ c ∈ t.constraints, c.Tame ∧ IsName .postgres c.name.raw

/-- The table and the columns can be told from their text. -/
def CreateIndex.Tame (i : CreateIndex) : Prop := IsWord i.tableName.diffStr ∧ ∀ c ∈ i.columns, IsWord c.name

/-- All definitions of the schema are tame. -/
def TameSchema (l : List PStmt) : Prop :=
  (∀ t, .createTable t ∈ l → t.Tame) ∧ ∀ i, .createIndex i ∈ l → i.Tame

/-- The same index, except for the index method behind `USING`. -/
def SameIndexButMethod (i i' : CreateIndex) : Prop := { i.bare with using_ := [] } = { i'.bare with using_ := [] }

end Ddl.Pg

/-- The name PostgreSQL reads: identifiers without quotes are turned to lower case. -/
def Ddl.Ident.meaning (i : Ident) : Str := if i.quot = [] then i.name.map Char.toLower else i.name

