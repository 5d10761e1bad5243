import Verif.Spec.Append
import Verif.Spec.Written
import Verif.Spec.ShowPg

/-!
# Specification vocabulary: PostgreSQL statements as they are written
-/

set_option autoImplicit false

namespace Ddl.Pg.Written
open Spec Spec.Written Show

/-- The names of the types. -/
def types : List (List TokType × TokType) :=
  [([.BOOLEAN], .BOOLEAN), ([.SMALLINT], .SMALLINT), ([.INTEGER], .INTEGER), ([.BIGINT], .BIGINT), ([.DECIMAL], .DECIMAL),
    ([.NUMERIC], .NUMERIC), ([.REAL], .REAL), ([.DOUBLE, .PRECISION], .DOUBLE_PRECISION), ([.SMALLSERIAL], .SMALLSERIAL),
    ([.SERIAL], .SERIAL), ([.BIGSERIAL], .BIGSERIAL), ([.UUID], .UUID), ([.JSONB], .JSONB),
    ([.CHARACTER, .VARYING], .CHARACTER_VARYING), ([.VARYING], .VARYING), ([.TEXT], .TEXT), ([.TIMESTAMP], .TIMESTAMP),
    ([.TIMESTAMPTZ], .TIMESTAMP_WITH_TIME_ZONE), ([.TIMESTAMP, .WITH, .TIME, .ZONE], .TIMESTAMP_WITH_TIME_ZONE)]

/-- `DEFAULT value`, or nothing. -/
def Defaulted (ts : List Token) (d : Option Default) : Prop :=
  (ts = [] ∧ d = none) ∨ ∃ k v ws, ts = k :: v ∧ k.type = .DEFAULT ∧ Outer true v ws ∧ d = some ⟨some ws⟩

/-- The default value and whether the column may be null, in either order; behind a default value, `NULL` would belong to it. -/
def Attributes (ts : List Token) (d : Option Default) (notNull : Bool) : Prop :=
  ∃ a b, Nullity a notNull ∧ Defaulted b d ∧ (ts = a ++ b ∨ (ts = b ++ a ∧ kinds a ≠ [.NULL]))

/-- A constraint in the definition of the column `col`.  Where the last argument is false, the parser skips a token. -/
inductive OfColumn (tbl : Str) (col : Ident) : List Token → Constraint → Bool → Prop
  | primaryKey (ts : List Token) : kinds ts = [.PRIMARY, .KEY] → OfColumn tbl col ts (.primaryKey (given (tbl ++ s%"_pkey")) [col]) true
  | unique (ts : List Token) : kinds ts = [.UNIQUE] → OfColumn tbl col ts (.unique (given (tbl ++ s%"_unique_" ++ col.name)) [col]) true
  | references (k ref : Token) (l act : List Token) (cols : List Ident) : k.type = .REFERENCES → ref.type = .IDENT →
      Listed .postgres l cols → OnAction act →
      OfColumn tbl col (k :: ref :: (l ++ act)) (.foreignKey (given (tbl ++ s%"_" ++ col.name ++ s%"_fkey")) [col] (word .postgres ref) cols
        (join s%" " (act.map (·.lit)))) true
  | refers (k ref : Token) (l : List Token) (cols : List Ident) : k.type = .REFERENCES → ref.type = .IDENT → Listed .postgres l cols →
      OfColumn tbl col (k :: ref :: l) (.foreignKey (given (tbl ++ s%"_" ++ col.name ++ s%"_fkey")) [col] (word .postgres ref) cols []) false
  | check (k : Token) (e : List Token) (ws : List Ident) : k.type = .CHECK → Inner e ws →
      OfColumn tbl col (k :: opn :: (e ++ [cls])) (.check (given (tbl ++ s%"_" ++ col.name ++ s%"_check")) (given s%"(" :: (ws ++ [given s%")"]))) false

/-- The constraints in the definition of a column.  Only the last one may be one at which the parser skips a token. -/
inductive OfColumns (tbl : Str) (col : Ident) : List Token → List Constraint → Bool → Prop
  | nil : OfColumns tbl col [] [] true
  | last (ts : List Token) (c : Constraint) : OfColumn tbl col ts c false → OfColumns tbl col ts [c] false
  | cons (ts rest : List Token) (c : Constraint) (cs : List Constraint) (exact : Bool) : OfColumn tbl col ts c true →
      OfColumns tbl col rest cs exact → OfColumns tbl col (ts ++ rest) (c :: cs) exact

/-- A constraint of the table. -/
inductive OfTable (tbl : Str) : List Token → Constraint → Prop
  | primaryKey (a k l : List Token) (n : Ident) (cols : List Ident) : Named .postgres a (tbl ++ s%"_pkey") n → kinds k = [.PRIMARY, .KEY] →
      Listed .postgres l cols → OfTable tbl (a ++ (k ++ l)) (.primaryKey n cols)
  | unique (a k l : List Token) (n : Ident) (cols : List Ident) :
      Named .postgres a (tbl ++ s%"_unique" ++ cols.flatMap fun c => s%"_" ++ c.name) n → kinds k = [.UNIQUE] →
      Listed .postgres l cols → OfTable tbl (a ++ (k ++ l)) (.unique n cols)
  | foreignKey (a k l m : List Token) (r ref : Token) (n : Ident) (cols refs : List Ident) :
      Named .postgres a (tbl ++ (cols.flatMap fun c => s%"_" ++ c.name) ++ s%"_fkey") n → kinds k = [.FOREIGN, .KEY] →
      Listed .postgres l cols → r.type = .REFERENCES → ref.type = .IDENT → Listed .postgres m refs →
      OfTable tbl (a ++ (k ++ (l ++ r :: ref :: m))) (.foreignKey n cols (word .postgres ref) refs [])

/-- A column or a constraint. -/
inductive Item (tbl : Str) : List Token → List Column → List Constraint → Bool → Prop
  | column (n : Token) (y a r : List Token) (c : Column) (cs : List Constraint) (exact : Bool) : n.type = .IDENT → c.name = word .postgres n →
      Typed .postgres types y c.dataType.name c.dataType.type c.dataType.expr → Attributes a c.default c.notNull →
      OfColumns tbl c.name r cs exact → Item tbl (n :: (y ++ (a ++ r))) [c] cs exact
  | constraint (ts : List Token) (c : Constraint) : OfTable tbl ts c → Item tbl ts [] [c] true

/-- `CREATE TABLE [IF NOT EXISTS] name (items)`.  Of constraints with the same name the last one counts, at the place of the first one. -/
def Table (ts : List Token) (t : CreateTable) : Prop :=
  ∃ a i n body cs, ts = a ++ (i ++ n :: opn :: (body ++ [cls])) ∧ kinds a = [.CREATE, .TABLE] ∧ Conditional i t.ifNotExists ∧ n.type = .IDENT ∧
    t.name = newObjectName .postgres n.lit ∧ t.name.name.name.head? ≠ some '"' ∧
    Items (Item t.name.name.name) body t.columns cs ∧ LastWinsAtFirst (·.name.name) cs t.constraints ∧ t.comment = [] ∧ t.options = []

/-- `CREATE [UNIQUE] INDEX [IF NOT EXISTS] name ON table [USING method] (columns)`. -/
def Index (ts : List Token) (x : CreateIndex) : Prop :=
  ∃ a i n o tb u l, ts = a ++ (i ++ n :: o :: tb :: (u ++ l)) ∧ kinds a = (if x.isUnique then [.CREATE, .UNIQUE, .INDEX] else [.CREATE, .INDEX]) ∧
    Conditional i x.ifNotExists ∧ n.type = .IDENT ∧ x.name = word .postgres n ∧ o.type = .ON ∧ tb.type = .IDENT ∧
    x.tableName = newObjectName .postgres tb.lit ∧
    ((u = [] ∧ x.using_ = []) ∨ ∃ k m, u = [k, m] ∧ k.type = .USING ∧ x.using_ = [given m.lit]) ∧ Listed .postgres l x.columns ∧ x.comment = []

/-- A statement. -/
inductive Statement : List Token → PStmt → Prop
  | table (ts : List Token) (t : CreateTable) : Table ts t → Statement ts (.createTable t)
  | index (ts : List Token) (x : CreateIndex) : Index ts x → Statement ts (.createIndex x)

end Ddl.Pg.Written
