import Verif.Spec.Written
import Verif.My.Ast

/-!
# Specification vocabulary: MySQL statements as they are written
-/

set_option autoImplicit false

namespace Ddl.My.Written
open Spec Spec.Written

/-- The names of the types, except `BOOLEAN`. -/
def types : List (List TokType × TokType) :=
  [([.BIT], .BIT), ([.TINYINT], .TINYINT), ([.SMALLINT], .SMALLINT), ([.INTEGER], .INTEGER), ([.BIGINT], .BIGINT), ([.DECIMAL], .DECIMAL),
    ([.NUMERIC], .NUMERIC), ([.REAL], .REAL), ([.DOUBLE], .DOUBLE), ([.DOUBLE, .PRECISION], .DOUBLE_PRECISION), ([.SMALLSERIAL], .SMALLSERIAL),
    ([.SERIAL], .SERIAL), ([.BIGSERIAL], .BIGSERIAL), ([.JSON], .JSON), ([.CHAR], .CHAR), ([.CHARACTER, .VARYING], .VARCHAR),
    ([.VARYING], .VARYING), ([.VARCHAR], .VARCHAR), ([.TEXT], .TEXT), ([.MEDIUMTEXT], .MEDIUMTEXT), ([.LONGTEXT], .LONGTEXT),
    ([.TIMESTAMP], .TIMESTAMP), ([.DATE], .DATE), ([.TIME], .TIME), ([.DATETIME], .DATETIME), ([.ENUM], .ENUM)]

/-- A type; `BOOLEAN` is another name of `TINYINT(1)`. -/
def OfType (ts : List Token) (t : DataType) : Prop :=
  Typed .mysql types ts t.name t.type t.expr ∨ (kinds ts = [.BOOLEAN] ∧ t = ⟨s%"TINYINT", .BOOLEAN, [given s%"1"]⟩)

/-- Columns with their orders. -/
def Columns (ts : List Token) (cols : List ColumnIdent) : Prop := ∃ l, Sorted .mysql ts l ∧ cols = l.map fun p => ⟨p.1, p.2⟩

/-- What the attributes of a column say. -/
structure Attributes where
  characterSet : Option Ident := none
  collate : Option Ident := none
  default : Option (List Ident) := none
  /-- `NOT NULL` is `some true`, `NULL` is `some false`. -/
  nullity : Option Bool := none
  autoIncrement : Bool := false
  onAction : Option Str := none

/-- The attributes of a column, each at most once, in any order.  Behind a default value there may be only `NOT NULL` or `ON`. -/
inductive OfAttributes : List Token → Attributes → Prop
  | nil : OfAttributes [] {}
  | null (k : Token) (r : List Token) (a : Attributes) : k.type = .NULL → a.nullity = none → OfAttributes r a →
      OfAttributes (k :: r) { a with nullity := some false }
  | notNull (k j : Token) (r : List Token) (a : Attributes) : k.type = .NOT → j.type = .NULL → a.nullity = none → OfAttributes r a →
      OfAttributes (k :: j :: r) { a with nullity := some true }
  | default (k : Token) (v r : List Token) (w : List Ident) (a : Attributes) : k.type = .DEFAULT → ValueWords .mysql [.IDENT, .CURRENT_TIMESTAMP] [] true v w →
      a.default = none → (kinds r).head? ∈ [none, some .NOT, some .ON] → OfAttributes r a → OfAttributes (k :: (v ++ r)) { a with default := some w }
  | onAction (k j v : Token) (r : List Token) (a : Attributes) : k.type = .ON → j.type ∈ [.UPDATE, .DELETE] →
      v.type ∈ [.CASCADE, .RESTRICT, .CURRENT_TIMESTAMP] → a.onAction = none → OfAttributes r a →
      OfAttributes (k :: j :: v :: r) { a with onAction := some (s%"ON " ++ j.lit ++ s%" " ++ v.lit) }
  | characterSet (k j v : Token) (r : List Token) (a : Attributes) : k.type = .CHARACTER → j.type = .SET → v.type = .IDENT → a.characterSet = none →
      OfAttributes r a → OfAttributes (k :: j :: v :: r) { a with characterSet := some (word .mysql v) }
  | collate (k v : Token) (r : List Token) (a : Attributes) : k.type = .COLLATE → v.type = .IDENT → a.collate = none → OfAttributes r a →
      OfAttributes (k :: v :: r) { a with collate := some (word .mysql v) }
  | autoIncrement (k : Token) (r : List Token) (a : Attributes) : k.type = .AUTO_INCREMENT → a.autoIncrement = false → OfAttributes r a →
      OfAttributes (k :: r) { a with autoIncrement := true }

/-- A constraint in the definition of the column `col`.  Where the last argument is false, the parser skips a token. -/
inductive OfColumn (tbl : Str) (col : Ident) : List Token → Constraint → Bool → Prop
  | primaryKey (ts : List Token) : kinds ts = [.PRIMARY, .KEY] → OfColumn tbl col ts (.primaryKey (given s%"PRIMARY KEY") [⟨col, none⟩]) true
  | unique (ts : List Token) : kinds ts = [.UNIQUE] → OfColumn tbl col ts (.index (given (tbl ++ s%"_unique_" ++ col.name)) true [⟨col, none⟩]) true
  | references (k ref : Token) (l act : List Token) (cols : List ColumnIdent) : k.type = .REFERENCES → ref.type = .IDENT → Columns l cols →
      (act = [] ∨ OnAction act) →
      OfColumn tbl col (k :: ref :: (l ++ act)) (.foreignKey (given (tbl ++ s%"_" ++ col.name ++ s%"_fkey")) [⟨col, none⟩] (word .mysql ref) cols
        (join s%" " (act.map (·.lit)))) false
  | check (k : Token) (e : List Token) (ws : List Ident) : k.type = .CHECK → Bracketed .mysql e ws →
      OfColumn tbl col (k :: opn :: (e ++ [cls])) (.check (given (tbl ++ s%"_" ++ col.name ++ s%"_check")) (given s%"(" :: (ws ++ [given s%")"]))) false

/-- The constraints in the definition of a column.  Only the last one may be one at which the parser skips a token. -/
inductive OfColumns (tbl : Str) (col : Ident) : List Token → List Constraint → Bool → Prop
  | nil : OfColumns tbl col [] [] true
  | last (ts : List Token) (c : Constraint) : OfColumn tbl col ts c false → OfColumns tbl col ts [c] false
  | cons (ts rest : List Token) (c : Constraint) (cs : List Constraint) (exact : Bool) : OfColumn tbl col ts c true →
      OfColumns tbl col rest cs exact → OfColumns tbl col (ts ++ rest) (c :: cs) exact

/-- `COMMENT text`, or nothing. -/
def Commented (ts : List Token) (text : Str) : Prop := (ts = [] ∧ text = []) ∨ ∃ k v, ts = [k, v] ∧ k.type = .COMMENT ∧ text = v.lit

/-- A constraint of the table.  The name of a primary key is ignored. -/
inductive OfTable (tbl : Str) : List Token → Constraint → Prop
  | primaryKey (a k l : List Token) (s : Str) (n : Ident) (cols : List ColumnIdent) : Named .mysql a s n → kinds k = [.PRIMARY, .KEY] →
      Columns l cols → OfTable tbl (a ++ (k ++ l)) (.primaryKey (given s%"PRIMARY KEY") cols)
  | foreignKey (a k l m act act' : List Token) (r ref : Token) (n : Ident) (cols refs : List ColumnIdent) :
      Named .mysql a (tbl ++ (cols.flatMap fun c => s%"_" ++ c.ident.name ++ (if c.order = some true then s%" DESC" else [])) ++ s%"_fkey") n →
      kinds k = [.FOREIGN, .KEY] → Columns l cols → r.type = .REFERENCES → ref.type = .IDENT → Columns m refs →
      ((act = [] ∧ act' = []) ∨ (OnAction act ∧ (act' = [] ∨ OnAction act'))) →
      OfTable tbl (a ++ (k ++ (l ++ r :: ref :: (m ++ (act ++ act'))))) (.foreignKey n cols (word .mysql ref) refs (join s%" " ((act ++ act').map (·.lit))))
  | index (k l : List Token) (n : Token) (cols : List ColumnIdent) : kinds k = [.KEY] ∨ kinds k = [.INDEX] → n.type = .IDENT → Columns l cols →
      OfTable tbl (k ++ n :: l) (.index (word .mysql n) false cols)
  | unique (k l : List Token) (n : Token) (cols : List ColumnIdent) : kinds k = [.UNIQUE, .KEY] ∨ kinds k = [.UNIQUE, .INDEX] → n.type = .IDENT →
      Columns l cols → OfTable tbl (k ++ n :: l) (.index (word .mysql n) true cols)
  | check (a e : List Token) (k : Token) (n : Ident) (ws : List Ident) : Named .mysql a (tbl ++ s%"_chk") n → k.type = .CHECK → Bracketed .mysql e ws →
      OfTable tbl (a ++ k :: opn :: (e ++ [cls])) (.check n (given s%"(" :: (ws ++ [given s%")"])))

/-- A column or a constraint. -/
inductive Item (tbl : Str) : List Token → List Column → List Constraint → Bool → Prop
  | column (n : Token) (y a r m : List Token) (x : Attributes) (c : Column) (cs : List Constraint) (exact : Bool) : n.type = .IDENT → c.name = word .mysql n →
      OfType y c.dataType → OfAttributes a x → c.characterSet = x.characterSet → c.collate = x.collate → c.default = x.default.map (fun w => ⟨some w⟩) →
      c.notNull = (x.nullity == some true) → c.autoIncrement = x.autoIncrement → c.onAction = x.onAction.getD [] →
      OfColumns tbl c.name r cs exact → Commented m c.comment → (exact = true ∨ m = []) → Item tbl (n :: (y ++ (a ++ (r ++ m)))) [c] cs exact
  | constraint (ts : List Token) (c : Constraint) : OfTable tbl ts c → Item tbl ts [] [c] true

/-- The options of a table: the words and the names. -/
def optionNames : List (List TokType × Str) :=
  [([.ENGINE], s%"ENGINE"), ([.AUTO_INCREMENT], s%"AUTO_INCREMENT"), ([.DEFAULT, .CHARSET], s%"DEFAULT CHARSET"), ([.COLLATE], s%"COLLATE"),
    ([.COMMENT], s%"COMMENT")]

/-- Options with their values. -/
inductive Options : List Token → List TableOption → Prop
  | nil : Options [] []
  | cons (k r : List Token) (e v : Token) (name : Str) (l : List TableOption) : (kinds k, name) ∈ optionNames → e.type = .EQUAL → v.type = .IDENT →
      Options r l → Options (k ++ e :: v :: r) (⟨name, [word .mysql v]⟩ :: l)

/-- Whether a constraint is a primary key. -/
def isKey : Constraint → Bool
  | .primaryKey _ _ => true
  | _ => false

/-- `CREATE TABLE [IF NOT EXISTS] name (items) options`.  Of constraints with the same name the last one counts, at the place of the first one;
the primary key comes first, and nothing else has its name. -/
def Table (ts : List Token) (t : CreateTable) : Prop :=
  ∃ a i n body o cs, ts = a ++ (i ++ n :: opn :: (body ++ cls :: o)) ∧ kinds a = [.CREATE, .TABLE] ∧ Conditional i t.ifNotExists ∧ n.type = .IDENT ∧
    t.name = newObjectName .mysql n.lit ∧ (∀ c ∈ t.name.name.name.head?, c ∉ ['"', '`', '\'']) ∧
    Items (Item t.name.name.name) body t.columns cs ∧ KeyFirst isKey (·.name.name) cs t.constraints ∧
    (∀ a ∈ cs, isKey a = true → ∀ b ∈ cs, b.name.name = a.name.name → isKey b = true) ∧ t.comment = [] ∧
    Options o t.options

/-- `CREATE [UNIQUE] INDEX [IF NOT EXISTS] name ON table [USING method] (columns)`. -/
def Index (ts : List Token) (x : CreateIndex) : Prop :=
  ∃ a i n o tb u l, ts = a ++ (i ++ n :: o :: tb :: (u ++ l)) ∧ kinds a = (if x.isUnique then [.CREATE, .UNIQUE, .INDEX] else [.CREATE, .INDEX]) ∧
    Conditional i x.ifNotExists ∧ n.type = .IDENT ∧ x.name = newObjectName .mysql n.lit ∧ o.type = .ON ∧ tb.type = .IDENT ∧
    x.tableName = newObjectName .mysql tb.lit ∧
    ((u = [] ∧ x.using_ = []) ∨ ∃ k m, u = [k, m] ∧ k.type = .USING ∧ x.using_ = [given m.lit]) ∧ Columns l x.columns ∧ x.comment = []

/-- A statement. -/
inductive Statement : List Token → MStmt → Prop
  | table (ts : List Token) (t : CreateTable) : Table ts t → Statement ts (.createTable t)
  | index (ts : List Token) (x : CreateIndex) : Index ts x → Statement ts (.createIndex x)

end Ddl.My.Written
