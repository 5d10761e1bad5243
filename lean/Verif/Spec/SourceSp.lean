import Verif.Spec.Source
import Verif.Spec.WrittenSp

/-! # Specification vocabulary: what an accepted Spanner text consists of -/

set_option autoImplicit false

namespace Ddl.Sp.Source
open Spec Spec.Written Spec.Source

/-- Columns with their orders. -/
def Columns (ts : List Token) (cols : List ColumnIdent) : Prop := ∃ l, Sorting .spanner ts l ∧ cols = l.map fun p => ⟨p.1, p.2⟩

/-- A default value, or whether the column may be null. -/
inductive Attribute : List Token → Default ⊕ Bool → Prop
  | notNull (ts : List Token) : kinds ts = [.NOT, .NULL] → Attribute ts (.inr true)
  | null (ts : List Token) : kinds ts = [.NULL] → Attribute ts (.inr false)
  | default (k : Token) (v : List Token) (d : Default) : k.type = .DEFAULT → Spells v (d.value.getD []) → Attribute (k :: v) (.inl d)

/-- The last default value. -/
def lastDefault (l : List (Default ⊕ Bool)) : Option Default := (l.filterMap Sum.getLeft?).getLast?

/-- Is `NOT NULL` the last that is said about null values? -/
def lastNotNull (l : List (Default ⊕ Bool)) : Bool := (l.filterMap Sum.getRight?).getLast?.getD false

/-- A constraint in the definition of the column `col`. -/
inductive OfColumn (tbl : Str) (col : Ident) : List Token → Constraint → Prop
  | refers (k ref : Token) (l skipped : List Token) (cols : List ColumnIdent) : k.type = .REFERENCES → ref.type = .IDENT → Columns l cols →
      skipped.length ≤ 1 →
      OfColumn tbl col (k :: ref :: (l ++ skipped)) (.foreignKey (newRawIdent .spanner (tbl ++ s%"_" ++ col.name ++ s%"_fkey")) [⟨col, none⟩] (word .spanner ref) cols)
  | check (k : Token) (e skipped : List Token) (ws : List Ident) : k.type = .CHECK → Spells e ws → skipped.length ≤ 1 →
      OfColumn tbl col (k :: (e ++ skipped)) (.check (some (newRawIdent .spanner (tbl ++ s%"_" ++ col.name ++ s%"_check"))) ws)

/-- A constraint of the table. -/
inductive OfTable (tbl : Str) : List Token → Constraint → Prop
  | foreignKey (a k l m : List Token) (r ref : Token) (n : Ident) (cols refs : List ColumnIdent) :
      NamedAs .spanner a (tbl ++ (cols.flatMap fun c => s%"_" ++ c.ident.name ++ (if c.order = some true then s%" DESC" else s%" ASC")) ++ s%"_fkey") n →
      kinds k = [.FOREIGN, .KEY] → Columns l cols → r.type = .REFERENCES → ref.type = .IDENT → Columns m refs →
      OfTable tbl (a ++ (k ++ (l ++ r :: ref :: m))) (.foreignKey n cols (word .spanner ref) refs)
  | check (a e : List Token) (k : Token) (n : Option Ident) (ws : List Ident) : Written.Labelled a n → k.type = .CHECK → Spells e ws →
      OfTable tbl (a ++ k :: e) (.check n ws)

/-- `OPTIONS` with an expression, or nothing. -/
def Optional (ts : List Token) (o : Option Expr) : Prop :=
  (ts = [] ∧ o = none) ∨ ∃ k e ws, ts = k :: e ∧ k.type = .OPTIONS ∧ Spells e ws ∧ o = some ws

/-- A column: its name, its type, attributes, constraints, and options. -/
def OfName (tbl : Str) (ts : List Token) (c : Column) (cs : List Constraint) : Prop :=
  ∃ n y a r o as, ts = n :: (y ++ (a ++ (r ++ o))) ∧ n.type = .IDENT ∧ c.name = word .spanner n ∧
    TypeName .spanner Written.types y c.dataType.name c.dataType.type c.dataType.expr ∧
    Many Attribute a as ∧ c.default = lastDefault as ∧ c.notNull = lastNotNull as ∧ Many (OfColumn tbl c.name) r cs ∧ Optional o c.options

/-- What is behind the columns, in any order, with or without commas.  Of several row deletion policies the last one counts. -/
inductive Options : List Token → List TableOption → Option TableOption → Prop
  | nil : Options [] [] none
  | comma (k : Token) (r : List Token) (os : List TableOption) (p : Option TableOption) : k.type = .COMMA → Options r os p → Options (k :: r) os p
  | primaryKey (k e r : List Token) (ws : List Ident) (os : List TableOption) (p : Option TableOption) : kinds k = [.PRIMARY, .KEY] → Spells e ws →
      Options r os p → Options (k ++ (e ++ r)) (⟨s%"PRIMARY KEY", ws⟩ :: os) p
  | interleave (k act r : List Token) (t : Token) (x : List Ident) (os : List TableOption) (p : Option TableOption) : kinds k = [.INTERLEAVE, .IN, .PARENT] →
      t.type = .IDENT → Written.Deletes act x → Options r os p →
      Options (k ++ t :: (act ++ r)) (⟨s%"INTERLEAVE IN PARENT", word .spanner t :: x⟩ :: os) p
  | policy (k e r : List Token) (os : List TableOption) (p : Option TableOption) : kinds k = [.ROW, .DELETION, .POLICY] →
      kinds e = [.OPEN_PAREN, .OLDER_THAN, .OPEN_PAREN, .IDENT, .COMMA, .INTERVAL, .IDENT, .DAY, .CLOSE_PAREN, .CLOSE_PAREN] → Options r os p →
      Options (k ++ (e ++ r)) os (p.or (some ⟨s%"ROW DELETION POLICY", e.map (word .spanner)⟩))

/-- `CREATE TABLE [IF NOT EXISTS] name (body) options`.  All columns are those of the body; so are the constraints, but of
several with the same name only the last one. -/
def Table (ts : List Token) (t : CreateTable) : Prop :=
  ∃ a i n o body c opts cons, ts = a ++ (i ++ n :: o :: (body ++ c :: opts)) ∧ kinds a = [.CREATE, .TABLE] ∧ Conditional i t.ifNotExists ∧ n.type = .IDENT ∧
    o.type = .OPEN_PAREN ∧ c.type = .CLOSE_PAREN ∧ t.name = newObjectName .spanner n.lit ∧
    Body (OfName t.name.name.name) (OfTable t.name.name.name) body t.columns cons ∧ (t.constraints.map fun c => c.name.map (·.name)).Nodup ∧
    (∀ c, c ∈ t.constraints ↔ Latest (fun c => c.name.map (·.name)) cons c) ∧ t.comment = [] ∧ Options opts t.options t.rowDeletionPolicy

/-- `CREATE [UNIQUE] INDEX [IF NOT EXISTS] name ON table [USING method] (columns)`.  In place of `INDEX` behind `UNIQUE` there may be
anything. -/
def Index (ts : List Token) (x : CreateIndex) : Prop :=
  ∃ k a i n o tb u l, ts = k :: (a ++ (i ++ n :: o :: tb :: (u ++ l))) ∧ k.type = .CREATE ∧
    ((x.isUnique = false ∧ kinds a = [.INDEX]) ∨ (x.isUnique = true ∧ (kinds a).head? = some .UNIQUE ∧ a.length ≤ 2)) ∧
    Conditional i x.ifNotExists ∧ n.type = .IDENT ∧ x.name = newObjectName .spanner n.lit ∧ o.type = .ON ∧ tb.type = .IDENT ∧
    x.tableName = newObjectName .spanner tb.lit ∧
    ((u = [] ∧ x.using_ = []) ∨ ∃ k m, u = [k, m] ∧ k.type = .USING ∧ x.using_ = [given m.lit]) ∧ Columns l x.columns ∧ x.comment = []

/-- A statement. -/
inductive Statement : List Token → SStmt → Prop
  | table (ts : List Token) (t : CreateTable) : Table ts t → Statement ts (.createTable t)
  | index (ts : List Token) (x : CreateIndex) : Index ts x → Statement ts (.createIndex x)

/-- Does a statement have a default value? -/
def defaults : SStmt → Bool
  | .createTable t => t.columns.any fun c => c.default.isSome
  | _ => false

end Ddl.Sp.Source
