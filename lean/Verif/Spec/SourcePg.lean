import Verif.Spec.Source
import Verif.Spec.WrittenPg

/-! # Specification vocabulary: what an accepted PostgreSQL text consists of -/

set_option autoImplicit false

namespace Ddl.Pg.Source
open Spec Spec.Written Spec.Source

/-- A default value, or whether the column may be null. -/
inductive Attribute : List Token → Default ⊕ Bool → Prop
  | notNull (ts : List Token) : kinds ts = [.NOT, .NULL] → Attribute ts (.inr true)
  | null (ts : List Token) : kinds ts = [.NULL] → Attribute ts (.inr false)
  | default (k : Token) (v : List Token) (d : Default) : k.type = .DEFAULT → Spells v (d.value.getD []) → Attribute (k :: v) (.inl d)

/-- The last default value. -/
def lastDefault (l : List (Default ⊕ Bool)) : Option Default := (l.filterMap Sum.getLeft?).getLast?

/-- Is `NOT NULL` the last that is said about null values? -/
def lastNotNull (l : List (Default ⊕ Bool)) : Bool := (l.filterMap Sum.getRight?).getLast?.getD false

/-- A constraint in the definition of the column `col`. -/
inductive OfColumn (tbl : Str) (col : Ident) : List Token → Constraint → Prop
  | primaryKey (ts : List Token) : kinds ts = [.PRIMARY, .KEY] → OfColumn tbl col ts (.primaryKey (newRawIdent .postgres (tbl ++ s%"_pkey")) [col])
  | unique (ts : List Token) : kinds ts = [.UNIQUE] → OfColumn tbl col ts (.unique (newRawIdent .postgres (tbl ++ s%"_unique_" ++ col.name)) [col])
  | references (k ref : Token) (l act : List Token) (cols : List Ident) : k.type = .REFERENCES → ref.type = .IDENT →
      Listing .postgres l cols → OnAction act →
      OfColumn tbl col (k :: ref :: (l ++ act)) (.foreignKey (newRawIdent .postgres (tbl ++ s%"_" ++ col.name ++ s%"_fkey")) [col] (word .postgres ref) cols
        (join s%" " (act.map (·.lit))))
  | refers (k ref : Token) (l skipped : List Token) (cols : List Ident) : k.type = .REFERENCES → ref.type = .IDENT → Listing .postgres l cols →
      skipped.length ≤ 1 →
      OfColumn tbl col (k :: ref :: (l ++ skipped)) (.foreignKey (newRawIdent .postgres (tbl ++ s%"_" ++ col.name ++ s%"_fkey")) [col] (word .postgres ref) cols [])
  | check (k : Token) (e skipped : List Token) (ws : List Ident) : k.type = .CHECK → Spells e ws → skipped.length ≤ 1 →
      OfColumn tbl col (k :: (e ++ skipped)) (.check (newRawIdent .postgres (tbl ++ s%"_" ++ col.name ++ s%"_check")) ws)

/-- A constraint of the table. -/
inductive OfTable (tbl : Str) : List Token → Constraint → Prop
  | primaryKey (a k l : List Token) (n : Ident) (cols : List Ident) : NamedAs .postgres a (tbl ++ s%"_pkey") n → kinds k = [.PRIMARY, .KEY] →
      Listing .postgres l cols → OfTable tbl (a ++ (k ++ l)) (.primaryKey n cols)
  | unique (a k l : List Token) (n : Ident) (cols : List Ident) :
      NamedAs .postgres a (tbl ++ s%"_unique" ++ cols.flatMap fun c => s%"_" ++ c.name) n → kinds k = [.UNIQUE] →
      Listing .postgres l cols → OfTable tbl (a ++ (k ++ l)) (.unique n cols)
  | foreignKey (a k l m : List Token) (r ref : Token) (n : Ident) (cols refs : List Ident) :
      NamedAs .postgres a (tbl ++ (cols.flatMap fun c => s%"_" ++ c.name) ++ s%"_fkey") n → kinds k = [.FOREIGN, .KEY] →
      Listing .postgres l cols → r.type = .REFERENCES → ref.type = .IDENT → Listing .postgres m refs →
      OfTable tbl (a ++ (k ++ (l ++ r :: ref :: m))) (.foreignKey n cols (word .postgres ref) refs [])

/-- A column: its name, its type, attributes, and constraints. -/
def OfName (tbl : Str) (ts : List Token) (c : Column) (cs : List Constraint) : Prop :=
  ∃ n y a r as, ts = n :: (y ++ (a ++ r)) ∧ n.type = .IDENT ∧ c.name = word .postgres n ∧
    TypeName .postgres Written.types y c.dataType.name c.dataType.type c.dataType.expr ∧
    Many Attribute a as ∧ c.default = lastDefault as ∧ c.notNull = lastNotNull as ∧ Many (OfColumn tbl c.name) r cs

/-- `CREATE TABLE [IF NOT EXISTS] name (body)`, up to the closing bracket.  All columns are those of the body; so are the constraints, but of
several with the same name only the last one. -/
def Table (ts : List Token) (t : CreateTable) : Prop :=
  ∃ a i n o body cons, ts = a ++ (i ++ n :: o :: body) ∧ kinds a = [.CREATE, .TABLE] ∧ Conditional i t.ifNotExists ∧ n.type = .IDENT ∧
    o.type = .OPEN_PAREN ∧ t.name = newObjectName .postgres n.lit ∧
    Body (OfName t.name.name.name) (OfTable t.name.name.name) body t.columns cons ∧ (t.constraints.map (·.name.name)).Nodup ∧
    (∀ c, c ∈ t.constraints ↔ Latest (·.name.name) cons c) ∧ t.comment = [] ∧ t.options = []

/-- `CREATE [UNIQUE] INDEX [IF NOT EXISTS] name ON table [USING method] (columns)`.  In place of `INDEX` behind `UNIQUE` there may be
anything. -/
def Index (ts : List Token) (x : CreateIndex) : Prop :=
  ∃ k a i n o tb u l, ts = k :: (a ++ (i ++ n :: o :: tb :: (u ++ l))) ∧ k.type = .CREATE ∧
    ((x.isUnique = false ∧ kinds a = [.INDEX]) ∨ (x.isUnique = true ∧ (kinds a).head? = some .UNIQUE ∧ a.length ≤ 2)) ∧
    Conditional i x.ifNotExists ∧ n.type = .IDENT ∧ x.name = word .postgres n ∧ o.type = .ON ∧ tb.type = .IDENT ∧
    x.tableName = newObjectName .postgres tb.lit ∧
    ((u = [] ∧ x.using_ = []) ∨ ∃ k m, u = [k, m] ∧ k.type = .USING ∧ x.using_ = [given m.lit]) ∧ Listing .postgres l x.columns ∧ x.comment = []

/-- A statement. -/
inductive Statement : List Token → PStmt → Prop
  | table (ts : List Token) (t : CreateTable) : Table ts t → Statement ts (.createTable t)
  | index (ts : List Token) (x : CreateIndex) : Index ts x → Statement ts (.createIndex x)

/-- Does a statement have something unique? -/
def unique : PStmt → Bool
  | .createTable t => t.constraints.any fun
    | .unique _ _ => true
    | _ => false
  | .createIndex x => x.isUnique
  | _ => false

end Ddl.Pg.Source
