import Verif.Spec.Append
import Verif.Spec.Written
import Verif.Sp.Ast

/-!
# Specification vocabulary: Spanner statements as they are written
-/

set_option autoImplicit false

namespace Ddl.Sp.Written
open Spec Spec.Written

/-- The names of the types. -/
def types : List (List TokType × TokType) :=
  [([.BOOL], .BOOL), ([.INT64], .INT64), ([.NUMERIC], .NUMERIC), ([.FLOAT64], .FLOAT64), ([.JSON], .JSON), ([.STRING], .STRING), ([.TIMESTAMP], .TIMESTAMP)]

/-- A value. -/
abbrev Value (ts : List Token) (w : List Ident) : Prop := ValueWords .spanner [.IDENT] [] true ts w

/-- Columns with their orders. -/
def Columns (ts : List Token) (cols : List ColumnIdent) : Prop := ∃ l, Sorted .spanner ts l ∧ cols = l.map fun p => ⟨p.1, p.2⟩

/-- What the attributes of a column say. -/
structure Attributes where
  default : Option (List Ident) := none
  /-- `NOT NULL` is `some true`, `NULL` is `some false`. -/
  nullity : Option Bool := none

/-- The attributes of a column, each at most once, in any order.  Behind a value there may be only `NOT NULL`.  The last argument says whether the
last attribute is a value. -/
inductive OfAttributes : List Token → Attributes → Bool → Prop
  | nil : OfAttributes [] {} false
  | null (k : Token) (r : List Token) (a : Attributes) (v : Bool) : k.type = .NULL → a.nullity = none → OfAttributes r a v →
      OfAttributes (k :: r) { a with nullity := some false } v
  | notNull (k j : Token) (r : List Token) (a : Attributes) (v : Bool) : k.type = .NOT → j.type = .NULL → a.nullity = none → OfAttributes r a v →
      OfAttributes (k :: j :: r) { a with nullity := some true } v
  | default (k : Token) (v r : List Token) (w : List Ident) (a : Attributes) (l : Bool) : k.type = .DEFAULT → Value v w → a.default = none →
      (kinds r).head? ∈ [none, some .NOT] → OfAttributes r a l → OfAttributes (k :: (v ++ r)) { a with default := some w } (r = [] ∨ l)

/-- A constraint in the definition of the column `col`.  Behind each of them the parser skips a token. -/
inductive OfColumn (tbl : Str) (col : Ident) : List Token → Constraint → Prop
  | refers (k ref : Token) (l : List Token) (cols : List ColumnIdent) : k.type = .REFERENCES → ref.type = .IDENT → Columns l cols →
      OfColumn tbl col (k :: ref :: l) (.foreignKey (given (tbl ++ s%"_" ++ col.name ++ s%"_fkey")) [⟨col, none⟩] (word .spanner ref) cols)
  | check (k : Token) (e : List Token) (ws : List Ident) : k.type = .CHECK → Bracketed .spanner e ws →
      OfColumn tbl col (k :: opn :: (e ++ [cls])) (.check (some (given (tbl ++ s%"_" ++ col.name ++ s%"_check"))) (given s%"(" :: (ws ++ [given s%")"])))

/-- The constraint in the definition of a column, if there is one. -/
def OfColumns (tbl : Str) (col : Ident) (ts : List Token) (cs : List Constraint) (exact : Bool) : Prop :=
  (ts = [] ∧ cs = [] ∧ exact = true) ∨ ∃ c, OfColumn tbl col ts c ∧ cs = [c] ∧ exact = false

/-- `OPTIONS (…)`, or nothing. -/
def Optional (ts : List Token) (o : Option Expr) : Prop :=
  (ts = [] ∧ o = none) ∨ ∃ k e ws, ts = k :: opn :: (e ++ [cls]) ∧ k.type = .OPTIONS ∧ Bracketed .spanner e ws ∧
    o = some (given s%"(" :: (ws ++ [given s%")"]))

/-- `CONSTRAINT name`, or nothing. -/
def Labelled (ts : List Token) (n : Option Ident) : Prop :=
  (ts = [] ∧ n = none) ∨ ∃ k t, ts = [k, t] ∧ k.type = .CONSTRAINT ∧ t.type = .IDENT ∧ n = some (word .spanner t)

/-- A constraint of the table.  The name of a foreign key without a name has the order of each column in it; a `CHECK` without a name has none. -/
inductive OfTable (tbl : Str) : List Token → Constraint → Prop
  | foreignKey (a k l m : List Token) (r ref : Token) (n : Ident) (cols refs : List ColumnIdent) :
      Named .spanner a (tbl ++ (cols.flatMap fun c => s%"_" ++ c.ident.name ++ (if c.order = some true then s%" DESC" else s%" ASC")) ++ s%"_fkey") n →
      kinds k = [.FOREIGN, .KEY] → Columns l cols → r.type = .REFERENCES → ref.type = .IDENT → Columns m refs →
      OfTable tbl (a ++ (k ++ (l ++ r :: ref :: m))) (.foreignKey n cols (word .spanner ref) refs)
  | check (a e : List Token) (k : Token) (n : Option Ident) (ws : List Ident) : Labelled a n → k.type = .CHECK → Bracketed .spanner e ws →
      OfTable tbl (a ++ k :: opn :: (e ++ [cls])) (.check n (given s%"(" :: (ws ++ [given s%")"])))

/-- A column or a constraint.  `OPTIONS` may be neither behind a value nor behind a constraint. -/
inductive Item (tbl : Str) : List Token → List Column → List Constraint → Bool → Prop
  | column (n : Token) (y a r o : List Token) (x : Attributes) (v : Bool) (c : Column) (cs : List Constraint) (exact : Bool) : n.type = .IDENT →
      c.name = word .spanner n → Typed .spanner types y c.dataType.name c.dataType.type c.dataType.expr → OfAttributes a x v →
      c.default = x.default.map (fun w => ⟨some w⟩) → c.notNull = (x.nullity == some true) → OfColumns tbl c.name r cs exact → Optional o c.options →
      (o = [] ∨ (exact = true ∧ v = false)) → Item tbl (n :: (y ++ (a ++ (r ++ o)))) [c] cs exact
  | constraint (ts : List Token) (c : Constraint) : OfTable tbl ts c → Item tbl ts [] [c] true

/-- `ON DELETE CASCADE`, `ON DELETE NO ACTION`, or nothing. -/
def Deletes (ts : List Token) (x : List Ident) : Prop :=
  (ts = [] ∧ x = []) ∨ (kinds ts = [.ON, .DELETE, .CASCADE] ∧ x = [given s%"ON DELETE CASCADE"]) ∨
    (kinds ts = [.ON, .DELETE, .NO, .ACTION] ∧ x = [given s%"ON DELETE NO ACTION"])

/-- What is behind the columns: the primary key, the table it is interleaved in, and the row deletion policy, in any order, with or without commas. -/
inductive Options : List Token → List TableOption → Option TableOption → Prop
  | nil : Options [] [] none
  | comma (k : Token) (r : List Token) (os : List TableOption) (p : Option TableOption) : k.type = .COMMA → Options r os p → Options (k :: r) os p
  | primaryKey (k e r : List Token) (ws : List Ident) (os : List TableOption) (p : Option TableOption) : kinds k = [.PRIMARY, .KEY] → Bracketed .spanner e ws →
      Options r os p → Options (k ++ opn :: (e ++ cls :: r)) (⟨s%"PRIMARY KEY", given s%"(" :: (ws ++ [given s%")"])⟩ :: os) p
  | interleave (k act r : List Token) (t : Token) (x : List Ident) (os : List TableOption) (p : Option TableOption) : kinds k = [.INTERLEAVE, .IN, .PARENT] →
      t.type = .IDENT → Deletes act x → Options r os p → Options (k ++ t :: (act ++ r)) (⟨s%"INTERLEAVE IN PARENT", word .spanner t :: x⟩ :: os) p
  | policy (k e r : List Token) (os : List TableOption) : kinds k = [.ROW, .DELETION, .POLICY] →
      kinds e = [.OPEN_PAREN, .OLDER_THAN, .OPEN_PAREN, .IDENT, .COMMA, .INTERVAL, .IDENT, .DAY, .CLOSE_PAREN, .CLOSE_PAREN] → Options r os none →
      Options (k ++ (e ++ r)) os (some ⟨s%"ROW DELETION POLICY", e.map (word .spanner)⟩)

/-- `CREATE TABLE [IF NOT EXISTS] name (items) options`.  Of constraints with the same name the last one counts, at the place of the first one; a constraint without a name is
the only one. -/
def Table (ts : List Token) (t : CreateTable) : Prop :=
  ∃ a i n body o cs, ts = a ++ (i ++ n :: opn :: (body ++ cls :: o)) ∧ kinds a = [.CREATE, .TABLE] ∧ Conditional i t.ifNotExists ∧ n.type = .IDENT ∧
    t.name = newObjectName .spanner n.lit ∧ (∀ c ∈ t.name.name.name.head?, c ∉ ['"', '`', '\'']) ∧
    Items (Item t.name.name.name) body t.columns cs ∧ LastWinsAtFirst (fun c => c.name.map (·.name)) cs t.constraints ∧
    (cs.length ≤ 1 ∨ ∀ c ∈ cs, c.name ≠ none) ∧ t.comment = [] ∧ Options o t.options t.rowDeletionPolicy

/-- `CREATE [UNIQUE] INDEX [IF NOT EXISTS] name ON table [USING method] (columns)`. -/
def Index (ts : List Token) (x : CreateIndex) : Prop :=
  ∃ a i n o tb u l, ts = a ++ (i ++ n :: o :: tb :: (u ++ l)) ∧ kinds a = (if x.isUnique then [.CREATE, .UNIQUE, .INDEX] else [.CREATE, .INDEX]) ∧
    Conditional i x.ifNotExists ∧ n.type = .IDENT ∧ x.name = newObjectName .spanner n.lit ∧ o.type = .ON ∧ tb.type = .IDENT ∧
    x.tableName = newObjectName .spanner tb.lit ∧
    ((u = [] ∧ x.using_ = []) ∨ ∃ k m, u = [k, m] ∧ k.type = .USING ∧ x.using_ = [given m.lit]) ∧ Columns l x.columns ∧ x.comment = []

/-- A statement. -/
inductive Statement : List Token → SStmt → Prop
  | table (ts : List Token) (t : CreateTable) : Table ts t → Statement ts (.createTable t)
  | index (ts : List Token) (x : CreateIndex) : Index ts x → Statement ts (.createIndex x)

end Ddl.Sp.Written
