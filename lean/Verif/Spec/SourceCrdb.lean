import Verif.Spec.Source
import Verif.Spec.WrittenCrdb

/-! # Specification vocabulary: what an accepted CockroachDB text consists of -/

set_option autoImplicit false

namespace Ddl.Crdb.Source
open Spec Spec.Written Spec.Source

/-- Columns with their orders. -/
def Columns (ts : List Token) (cols : List ColumnIdent) : Prop := ∃ l, Sorting .cockroachdb ts l ∧ cols = l.map fun p => ⟨p.1, p.2⟩

/-- What an attribute of a column says. -/
inductive Said where
  | default (d : Default)
  | notNull (b : Bool)
  | notVisible
  | computed (a : As)
deriving DecidableEq

/-- The value of a computed column: words, and `STORED` or `VIRTUAL` between them, of which the last one counts. -/
inductive Computed : List Token → List Ident → Option TokType → Prop
  | nil : Computed [] [] none
  | words (v r : List Token) (w w' : List Ident) (t : Option TokType) : Spells v w → Computed r w' t → Computed (v ++ r) (w ++ w') t
  | kind (k : Token) (r : List Token) (w : List Ident) (t : Option TokType) : k.type = .STORED ∨ k.type = .VIRTUAL → Computed r w t →
      Computed (k :: r) w (t.or (some k.type))

/-- An attribute of a column. -/
inductive Attribute : List Token → Said → Prop
  | notNull (ts : List Token) : kinds ts = [.NOT, .NULL] → Attribute ts (.notNull true)
  | null (ts : List Token) : kinds ts = [.NULL] → Attribute ts (.notNull false)
  | notVisible (ts : List Token) : kinds ts = [.NOT, .VISIBLE] → Attribute ts .notVisible
  | default (k : Token) (v : List Token) (d : Default) : k.type = .DEFAULT → Spells v (d.value.getD []) → Attribute (k :: v) (.default d)
  | computed (k : Token) (v : List Token) (a : As) : k.type = .AS → Computed v (a.value.getD []) a.type → Attribute (k :: v) (.computed a)

/-- The last default value. -/
def lastDefault (l : List Said) : Option Default := (l.filterMap fun | .default d => some d | _ => none).getLast?

/-- The last value computed. -/
def lastComputed (l : List Said) : Option As := (l.filterMap fun | .computed a => some a | _ => none).getLast?

/-- Is `NOT NULL` the last that is said about null values? -/
def lastNotNull (l : List Said) : Bool := (l.filterMap fun | .notNull b => some b | _ => none).getLast?.getD false

/-- A constraint in the definition of the column `col`. -/
inductive OfColumn (tbl : Str) (col : Ident) : List Token → Constraint → Prop
  | primaryKey (ts : List Token) : kinds ts = [.PRIMARY, .KEY] →
      OfColumn tbl col ts (.primaryKey (newRawIdent .cockroachdb (tbl ++ s%"_pkey")) [⟨col, none⟩])
  | unique (ts : List Token) : kinds ts = [.UNIQUE] →
      OfColumn tbl col ts (.index (newRawIdent .cockroachdb (tbl ++ s%"_unique_" ++ col.name)) true none [⟨col, none⟩] none)
  | references (k ref : Token) (l act : List Token) (cols : List ColumnIdent) : k.type = .REFERENCES → ref.type = .IDENT →
      Columns l cols → OnAction act →
      OfColumn tbl col (k :: ref :: (l ++ act)) (.foreignKey (newRawIdent .cockroachdb (tbl ++ s%"_" ++ col.name ++ s%"_fkey")) [⟨col, none⟩]
        (word .cockroachdb ref) cols (join s%" " (act.map (·.lit))))
  | refers (k ref : Token) (l skipped : List Token) (cols : List ColumnIdent) : k.type = .REFERENCES → ref.type = .IDENT → Columns l cols →
      skipped.length ≤ 1 →
      OfColumn tbl col (k :: ref :: (l ++ skipped)) (.foreignKey (newRawIdent .cockroachdb (tbl ++ s%"_" ++ col.name ++ s%"_fkey")) [⟨col, none⟩]
        (word .cockroachdb ref) cols [])
  | check (k : Token) (e skipped : List Token) (ws : List Ident) : k.type = .CHECK → Spells e ws → skipped.length ≤ 1 →
      OfColumn tbl col (k :: (e ++ skipped)) (.check (newRawIdent .cockroachdb (tbl ++ s%"_" ++ col.name ++ s%"_check")) ws)

/-- `USING` a method `WITH` parameters: names, and parameters of which the last ones count. -/
inductive Method : List Token → List Ident → Option (List Ident) → Prop
  | nil : Method [] [] none
  | using_ (k : Token) (r : List Token) (w : List Ident) (p : Option (List Ident)) : k.type = .USING → Method r w p → Method (k :: r) w p
  | name (t : Token) (r : List Token) (w : List Ident) (p : Option (List Ident)) : t.type = .IDENT → Method r w p → Method (t :: r) (word .cockroachdb t :: w) p
  | parameters (k : Token) (e r : List Token) (ws w : List Ident) (p : Option (List Ident)) : k.type = .WITH → Spells e ws → Method r w p →
      Method (k :: (e ++ r)) w (p.or (some ws))

/-- A method, with the token behind it skipped; or nothing. -/
def MethodOpt (ts : List Token) (u : Option Using) : Prop :=
  (ts = [] ∧ u = none) ∨ ∃ m skipped x, ts = m ++ skipped ∧ skipped.length ≤ 1 ∧ u = some x ∧ (kinds m).head? = some .USING ∧ Method m (x.value.getD []) x.with_

/-- A constraint of the table.  The name of a foreign key without a name has the order of each column in it. -/
inductive OfTable (tbl : Str) : List Token → Constraint → Prop
  | primaryKey (a k l : List Token) (n : Ident) (cols : List ColumnIdent) : NamedAs .cockroachdb a (tbl ++ s%"_pkey") n → kinds k = [.PRIMARY, .KEY] →
      Columns l cols → OfTable tbl (a ++ (k ++ l)) (.primaryKey n cols)
  | foreignKey (a k l m : List Token) (r ref : Token) (n : Ident) (cols refs : List ColumnIdent) :
      NamedAs .cockroachdb a (tbl ++ (cols.flatMap fun c => s%"_" ++ c.ident.name ++ (if c.order = some true then s%" DESC" else s%" ASC")) ++ s%"_fkey") n →
      kinds k = [.FOREIGN, .KEY] → Columns l cols → r.type = .REFERENCES → ref.type = .IDENT → Columns m refs →
      OfTable tbl (a ++ (k ++ (l ++ r :: ref :: m))) (.foreignKey n cols (word .cockroachdb ref) refs [])
  | index (a k l m : List Token) (s : Str) (i : Ident) (n : Token) (u : Bool) (cols : List ColumnIdent) (x : Option Using) : NamedAs .cockroachdb a s i →
      kinds k = (if u then [.UNIQUE, .INDEX] else [.INDEX]) → n.type = .IDENT → Columns l cols → MethodOpt m x →
      OfTable tbl (a ++ (k ++ n :: (l ++ m))) (.index (word .cockroachdb n) u none cols x)

/-- A column: its name, its type, attributes, and constraints. -/
def OfName (tbl : Str) (ts : List Token) (c : Column) (cs : List Constraint) : Prop :=
  ∃ n y a r as, ts = n :: (y ++ (a ++ r)) ∧ n.type = .IDENT ∧ c.name = word .cockroachdb n ∧
    TypeName .cockroachdb Written.types y c.dataType.name c.dataType.type c.dataType.expr ∧
    Many Attribute a as ∧ c.default = lastDefault as ∧ c.notNull = lastNotNull as ∧ (c.notVisible = true ↔ .notVisible ∈ as) ∧ c.as_ = lastComputed as ∧
    Many (OfColumn tbl c.name) r cs

/-- `CREATE TABLE [IF NOT EXISTS] name (body)`, up to the closing bracket.  All columns are those of the body; so are the constraints, but of
several with the same name only the last one. -/
def Table (ts : List Token) (t : CreateTable) : Prop :=
  ∃ a i n o body cons, ts = a ++ (i ++ n :: o :: body) ∧ kinds a = [.CREATE, .TABLE] ∧ Conditional i t.ifNotExists ∧ n.type = .IDENT ∧
    o.type = .OPEN_PAREN ∧ t.name = newObjectName .cockroachdb n.lit ∧
    Body (OfName t.name.name.name) (OfTable t.name.name.name) body t.columns cons ∧ (t.constraints.map (·.name.name)).Nodup ∧
    (∀ c, c ∈ t.constraints ↔ Latest (·.name.name) cons c) ∧ t.comment = [] ∧ t.options = []

/-- `CREATE [UNIQUE] INDEX [IF NOT EXISTS] name ON table [USING method] (columns) [USING method]`.  In place of `INDEX` behind `UNIQUE` there may be
anything. -/
def Index (ts : List Token) (x : CreateIndex) : Prop :=
  ∃ k a i n o tb u l v, ts = k :: (a ++ (i ++ n :: o :: tb :: (u ++ (l ++ v)))) ∧ k.type = .CREATE ∧
    ((x.isUnique = false ∧ kinds a = [.INDEX]) ∨ (x.isUnique = true ∧ (kinds a).head? = some .UNIQUE ∧ a.length ≤ 2)) ∧
    Conditional i x.ifNotExists ∧ n.type = .IDENT ∧ x.name = word .cockroachdb n ∧ o.type = .ON ∧ tb.type = .IDENT ∧
    x.tableName = newObjectName .cockroachdb tb.lit ∧ MethodOpt u x.usingPre ∧ Columns l x.columns ∧ MethodOpt v x.usingPost ∧ x.comment = []

/-- A statement. -/
inductive Statement : List Token → CStmt → Prop
  | table (ts : List Token) (t : CreateTable) : Table ts t → Statement ts (.createTable t)
  | index (ts : List Token) (x : CreateIndex) : Index ts x → Statement ts (.createIndex x)

/-- Does a statement have something unique? -/
def unique : CStmt → Bool
  | .createTable t => t.constraints.any fun
    | .index _ u _ _ _ => u
    | _ => false
  | .createIndex x => x.isUnique
  | _ => false

end Ddl.Crdb.Source
