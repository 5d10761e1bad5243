import Verif.Spec.Written
import Verif.Crdb.Ast

/-!
# Specification vocabulary: CockroachDB statements as they are written
-/

set_option autoImplicit false

namespace Ddl.Crdb.Written
open Spec Spec.Written

/-- The names of the types. -/
def types : List (List TokType × TokType) :=
  [([.BOOL], .BOOL), ([.INT2], .INT2), ([.INT4], .INT4), ([.INT8], .INT8), ([.DECIMAL], .DECIMAL), ([.NUMERIC], .NUMERIC), ([.REAL], .REAL),
    ([.DOUBLE, .PRECISION], .FLOAT8), ([.FLOAT4], .FLOAT4), ([.FLOAT8], .FLOAT8), ([.SMALLSERIAL], .SMALLSERIAL), ([.SERIAL], .SERIAL),
    ([.BIGSERIAL], .BIGSERIAL), ([.UUID], .UUID), ([.JSONB], .JSONB), ([.CHARACTER, .VARYING], .VARCHAR), ([.VARYING], .VARYING),
    ([.VARCHAR], .VARCHAR), ([.STRING], .STRING), ([.TIMESTAMP], .TIMESTAMP), ([.TIMESTAMPTZ], .TIMESTAMPTZ),
    ([.TIMESTAMP, .WITH, .TIME, .ZONE], .TIMESTAMPTZ)]

/-- The types of tokens that are words of a value: names and operators. -/
def ownWords : List TokType :=
  [.IDENT, .EQUAL, .GREATER, .LESS, .PLUS, .MINUS, .ASTERISK, .SLASH, .TYPE_ANNOTATION, .STRING_CONCAT, .TYPECAST]

/-- The types of tokens that are words of a value, but not the first one: names of types. -/
def laterWords : List TokType :=
  [.BOOL, .INT2, .INT4, .INT8, .DECIMAL, .NUMERIC, .REAL, .DOUBLE, .FLOAT4, .FLOAT8, .SMALLSERIAL, .SERIAL, .BIGSERIAL,
    .UUID, .JSONB, .CHARACTER, .VARYING, .VARCHAR, .STRING, .TIMESTAMP, .TIMESTAMPTZ]

/-- A value. -/
abbrev Value (ts : List Token) (w : List Ident) : Prop := ValueWords .cockroachdb ownWords laterWords true ts w

/-- Columns with their orders. -/
def Columns (ts : List Token) (cols : List ColumnIdent) : Prop := ∃ l, Sorted .cockroachdb ts l ∧ cols = l.map fun p => ⟨p.1, p.2⟩

/-- What the attributes of a column say. -/
structure Attributes where
  default : Option (List Ident) := none
  /-- `NOT NULL` is `some true`, `NULL` is `some false`. -/
  nullity : Option Bool := none
  notVisible : Bool := false
  /-- The value of a computed column, and `STORED` or `VIRTUAL`. -/
  computed : Option (List Ident × Option TokType) := none

/-- `STORED`, `VIRTUAL` or nothing. -/
def Kept (ts : List Token) (t : Option TokType) : Prop := (t = none ∨ t = some .STORED ∨ t = some .VIRTUAL) ∧ kinds ts = t.toList

/-- The attributes of a column, each at most once, in any order.  Behind a value there may be only `NOT NULL` or `NOT VISIBLE`. -/
inductive OfAttributes : List Token → Attributes → Prop
  | nil : OfAttributes [] {}
  | null (k : Token) (r : List Token) (a : Attributes) : k.type = .NULL → a.nullity = none → OfAttributes r a →
      OfAttributes (k :: r) { a with nullity := some false }
  | notNull (k j : Token) (r : List Token) (a : Attributes) : k.type = .NOT → j.type = .NULL → a.nullity = none → OfAttributes r a →
      OfAttributes (k :: j :: r) { a with nullity := some true }
  | notVisible (k j : Token) (r : List Token) (a : Attributes) : k.type = .NOT → j.type = .VISIBLE → a.notVisible = false → OfAttributes r a →
      OfAttributes (k :: j :: r) { a with notVisible := true }
  | default (k : Token) (v r : List Token) (w : List Ident) (a : Attributes) : k.type = .DEFAULT → Value v w → a.default = none →
      (kinds r).head? ∈ [none, some .NOT] → OfAttributes r a → OfAttributes (k :: (v ++ r)) { a with default := some w }
  | computed (k : Token) (v g r : List Token) (w : List Ident) (t : Option TokType) (a : Attributes) : k.type = .AS → Value v w → Kept g t →
      a.computed = none → (kinds r).head? ∈ [none, some .NOT] → OfAttributes r a → OfAttributes (k :: (v ++ (g ++ r))) { a with computed := some (w, t) }

/-- A constraint in the definition of the column `col`.  Where the last argument is false, the parser skips a token. -/
inductive OfColumn (tbl : Str) (col : Ident) : List Token → Constraint → Bool → Prop
  | primaryKey (ts : List Token) : kinds ts = [.PRIMARY, .KEY] → OfColumn tbl col ts (.primaryKey (given (tbl ++ s%"_pkey")) [⟨col, none⟩]) true
  | unique (ts : List Token) : kinds ts = [.UNIQUE] → OfColumn tbl col ts (.index (given (tbl ++ s%"_unique_" ++ col.name)) true none [⟨col, none⟩] none) true
  | references (k ref : Token) (l act : List Token) (cols : List ColumnIdent) : k.type = .REFERENCES → ref.type = .IDENT → Columns l cols → OnAction act →
      OfColumn tbl col (k :: ref :: (l ++ act)) (.foreignKey (given (tbl ++ s%"_" ++ col.name ++ s%"_fkey")) [⟨col, none⟩] (word .cockroachdb ref) cols
        (join s%" " (act.map (·.lit)))) true
  | refers (k ref : Token) (l : List Token) (cols : List ColumnIdent) : k.type = .REFERENCES → ref.type = .IDENT → Columns l cols →
      OfColumn tbl col (k :: ref :: l) (.foreignKey (given (tbl ++ s%"_" ++ col.name ++ s%"_fkey")) [⟨col, none⟩] (word .cockroachdb ref) cols []) false
  | check (k : Token) (e : List Token) (ws : List Ident) : k.type = .CHECK → Bracketed .cockroachdb e ws →
      OfColumn tbl col (k :: opn :: (e ++ [cls])) (.check (given (tbl ++ s%"_" ++ col.name ++ s%"_check")) (given s%"(" :: (ws ++ [given s%")"]))) false

/-- The constraints in the definition of a column.  Only the last one may be one at which the parser skips a token. -/
inductive OfColumns (tbl : Str) (col : Ident) : List Token → List Constraint → Bool → Prop
  | nil : OfColumns tbl col [] [] true
  | last (ts : List Token) (c : Constraint) : OfColumn tbl col ts c false → OfColumns tbl col ts [c] false
  | cons (ts rest : List Token) (c : Constraint) (cs : List Constraint) (exact : Bool) : OfColumn tbl col ts c true →
      OfColumns tbl col rest cs exact → OfColumns tbl col (ts ++ rest) (c :: cs) exact

/-- `USING method [WITH (…)]`. -/
inductive Method : List Token → Using → Prop
  | plain (k m : Token) : k.type = .USING → m.type = .IDENT → Method [k, m] ⟨some [word .cockroachdb m], none⟩
  | parameters (k m w : Token) (e : List Token) (ws : List Ident) : k.type = .USING → m.type = .IDENT → w.type = .WITH → Bracketed .cockroachdb e ws →
      Method (k :: m :: w :: opn :: (e ++ [cls])) ⟨some [word .cockroachdb m], some (given s%"(" :: (ws ++ [given s%")"]))⟩

/-- A constraint of the table.  The name of a foreign key without a name has the order of each column in it.  Where the last argument is false,
the parser skips a token. -/
inductive OfTable (tbl : Str) : List Token → Constraint → Bool → Prop
  | primaryKey (a k l : List Token) (n : Ident) (cols : List ColumnIdent) : Named .cockroachdb a (tbl ++ s%"_pkey") n → kinds k = [.PRIMARY, .KEY] →
      Columns l cols → OfTable tbl (a ++ (k ++ l)) (.primaryKey n cols) true
  | foreignKey (a k l m : List Token) (r ref : Token) (n : Ident) (cols refs : List ColumnIdent) :
      Named .cockroachdb a (tbl ++ (cols.flatMap fun c => s%"_" ++ c.ident.name ++ (if c.order = some true then s%" DESC" else s%" ASC")) ++ s%"_fkey") n →
      kinds k = [.FOREIGN, .KEY] → Columns l cols → r.type = .REFERENCES → ref.type = .IDENT → Columns m refs →
      OfTable tbl (a ++ (k ++ (l ++ r :: ref :: m))) (.foreignKey n cols (word .cockroachdb ref) refs []) true
  | index (k l : List Token) (n : Token) (u : Bool) (cols : List ColumnIdent) : kinds k = (if u then [.UNIQUE, .INDEX] else [.INDEX]) → n.type = .IDENT →
      Columns l cols → OfTable tbl (k ++ n :: l) (.index (word .cockroachdb n) u none cols none) true
  | indexUsing (k l m : List Token) (n : Token) (u : Bool) (cols : List ColumnIdent) (x : Using) : kinds k = (if u then [.UNIQUE, .INDEX] else [.INDEX]) →
      n.type = .IDENT → Columns l cols → Method m x → OfTable tbl (k ++ n :: (l ++ m)) (.index (word .cockroachdb n) u none cols (some x)) false

/-- A column or a constraint. -/
inductive Item (tbl : Str) : List Token → List Column → List Constraint → Bool → Prop
  | column (n : Token) (y a r : List Token) (x : Attributes) (c : Column) (cs : List Constraint) (exact : Bool) : n.type = .IDENT →
      c.name = word .cockroachdb n → Typed .cockroachdb types y c.dataType.name c.dataType.type c.dataType.expr → OfAttributes a x →
      c.default = x.default.map (fun w => ⟨some w⟩) → c.notNull = (x.nullity == some true) → c.notVisible = x.notVisible →
      c.as_ = x.computed.map (fun p => ⟨some p.1, p.2⟩) → OfColumns tbl c.name r cs exact → Item tbl (n :: (y ++ (a ++ r))) [c] cs exact
  | constraint (ts : List Token) (c : Constraint) (exact : Bool) : OfTable tbl ts c exact → Item tbl ts [] [c] exact

/-- Whether a constraint is a primary key. -/
def isKey : Constraint → Bool
  | .primaryKey _ _ => true
  | _ => false

/-- `CREATE TABLE [IF NOT EXISTS] name (items)`.  Of constraints with the same name the last one counts, at the place of the first one; the
primary key comes first.  If there are several primary keys they have the same name, and nothing else has it. -/
def Table (ts : List Token) (t : CreateTable) : Prop :=
  ∃ a i n body cs, ts = a ++ (i ++ n :: opn :: (body ++ [cls])) ∧ kinds a = [.CREATE, .TABLE] ∧ Conditional i t.ifNotExists ∧ n.type = .IDENT ∧
    t.name = newObjectName .cockroachdb n.lit ∧ (∀ c ∈ t.name.name.name.head?, c ∉ ['"']) ∧
    Items (Item t.name.name.name) body t.columns cs ∧ KeyFirst isKey (·.name.name) cs t.constraints ∧
    (∀ a ∈ cs, isKey a = true → ∀ b ∈ cs, (isKey b = true ↔ b.name.name = a.name.name)) ∧ t.comment = [] ∧ t.options = []

/-- `CREATE [UNIQUE] INDEX [IF NOT EXISTS] name ON table (columns)`. -/
def Index (ts : List Token) (x : CreateIndex) : Prop :=
  ∃ a i n o tb l, ts = a ++ (i ++ n :: o :: tb :: l) ∧ kinds a = (if x.isUnique then [.CREATE, .UNIQUE, .INDEX] else [.CREATE, .INDEX]) ∧
    Conditional i x.ifNotExists ∧ n.type = .IDENT ∧ x.name = word .cockroachdb n ∧ o.type = .ON ∧ tb.type = .IDENT ∧
    x.tableName = newObjectName .cockroachdb tb.lit ∧ Columns l x.columns ∧ x.usingPre = none ∧ x.usingPost = none ∧ x.comment = []

/-- A statement. -/
inductive Statement : List Token → CStmt → Prop
  | table (ts : List Token) (t : CreateTable) : Table ts t → Statement ts (.createTable t)
  | index (ts : List Token) (x : CreateIndex) : Index ts x → Statement ts (.createIndex x)

end Ddl.Crdb.Written
