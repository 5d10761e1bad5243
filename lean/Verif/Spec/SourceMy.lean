import Verif.Spec.Source
import Verif.Spec.WrittenMy

/-! # Specification vocabulary: what an accepted MySQL text consists of -/

set_option autoImplicit false

namespace Ddl.My.Source
open Spec Spec.Written Spec.Source

/-- Columns with their orders. -/
def Columns (ts : List Token) (cols : List ColumnIdent) : Prop := ∃ l, Sorting .mysql ts l ∧ cols = l.map fun p => ⟨p.1, p.2⟩

/-- A type; `BOOLEAN` is another name of `TINYINT(1)`, to which its own parameters are added. -/
def OfType (ts : List Token) (t : DataType) : Prop :=
  (t.type ≠ .BOOLEAN ∧ TypeName .mysql Written.types ts t.name t.type t.expr) ∨
    ∃ n e, TypeName .mysql [] ts n .BOOLEAN e ∧ t = ⟨s%"TINYINT", .BOOLEAN, newRawIdent .mysql s%"1" :: e⟩

/-- What an attribute of a column says. -/
inductive Said where
  | default (d : Default)
  | notNull (b : Bool)
  | autoIncrement
  | onAction (s : Str)
  | characterSet (i : Ident)
  | collate (i : Ident)
deriving DecidableEq

/-- An attribute of a column. -/
inductive Attribute : List Token → Said → Prop
  | notNull (ts : List Token) : kinds ts = [.NOT, .NULL] → Attribute ts (.notNull true)
  | null (ts : List Token) : kinds ts = [.NULL] → Attribute ts (.notNull false)
  | default (k : Token) (v : List Token) (d : Default) : k.type = .DEFAULT → Spells v (d.value.getD []) → Attribute (k :: v) (.default d)
  | onAction (k j v : Token) : k.type = .ON → j.type ∈ [.UPDATE, .DELETE] → v.type ∈ [.CASCADE, .RESTRICT, .CURRENT_TIMESTAMP] →
      Attribute [k, j, v] (.onAction (s%"ON " ++ j.lit ++ s%" " ++ v.lit))
  | characterSet (k j v : Token) : k.type = .CHARACTER → j.type = .SET → Attribute [k, j, v] (.characterSet (word .mysql v))
  | collate (k v : Token) : k.type = .COLLATE → Attribute [k, v] (.collate (word .mysql v))
  | autoIncrement (k : Token) : k.type = .AUTO_INCREMENT → Attribute [k] .autoIncrement

/-- What is said last about something. -/
def last {A : Type} (f : Said → Option A) (l : List Said) : Option A := (l.filterMap f).getLast?

/-- The default value an attribute gives. -/
def Said.default? : Said → Option Default
  | .default d => some d
  | _ => none

/-- Whether an attribute allows null values. -/
def Said.notNull? : Said → Option Bool
  | .notNull b => some b
  | _ => none

/-- The action of an attribute. -/
def Said.onAction? : Said → Option Str
  | .onAction s => some s
  | _ => none

/-- The character set an attribute gives. -/
def Said.characterSet? : Said → Option Ident
  | .characterSet i => some i
  | _ => none

/-- The collation an attribute gives. -/
def Said.collate? : Said → Option Ident
  | .collate i => some i
  | _ => none

/-- A constraint in the definition of the column `col`.  Of two actions the last one counts. -/
inductive OfColumn (tbl : Str) (col : Ident) : List Token → Constraint → Prop
  | primaryKey (ts : List Token) : kinds ts = [.PRIMARY, .KEY] → OfColumn tbl col ts (.primaryKey (given s%"PRIMARY KEY") [⟨col, none⟩])
  | unique (ts : List Token) : kinds ts = [.UNIQUE] →
      OfColumn tbl col ts (.index (newRawIdent .mysql (tbl ++ s%"_unique_" ++ col.name)) true [⟨col, none⟩])
  | references (k ref : Token) (l skipped : List Token) (acts : List (List Token)) (cols : List ColumnIdent) : k.type = .REFERENCES → ref.type = .IDENT →
      Columns l cols → acts.length ≤ 2 → (∀ a ∈ acts, OnAction a) → skipped.length ≤ 1 →
      OfColumn tbl col (k :: ref :: (l ++ (acts.flatten ++ skipped))) (.foreignKey (newRawIdent .mysql (tbl ++ s%"_" ++ col.name ++ s%"_fkey")) [⟨col, none⟩]
        (word .mysql ref) cols (join s%" " ((acts.getLast?.getD []).map (·.lit))))
  | check (k : Token) (e skipped : List Token) (ws : List Ident) : k.type = .CHECK → Spells e ws → skipped.length ≤ 1 →
      OfColumn tbl col (k :: (e ++ skipped)) (.check (newRawIdent .mysql (tbl ++ s%"_" ++ col.name ++ s%"_check")) ws)

/-- A constraint of the table.  The name of a primary key is ignored, as is one in front of an index. -/
inductive OfTable (tbl : Str) : List Token → Constraint → Prop
  | primaryKey (a k l : List Token) (s : Str) (n : Ident) (cols : List ColumnIdent) : NamedAs .mysql a s n → kinds k = [.PRIMARY, .KEY] →
      Columns l cols → OfTable tbl (a ++ (k ++ l)) (.primaryKey (given s%"PRIMARY KEY") cols)
  | foreignKey (a k l m : List Token) (acts : List (List Token)) (r ref : Token) (n : Ident) (cols refs : List ColumnIdent) :
      NamedAs .mysql a (tbl ++ (cols.flatMap fun c => s%"_" ++ c.ident.name ++ (if c.order = some true then s%" DESC" else [])) ++ s%"_fkey") n →
      kinds k = [.FOREIGN, .KEY] → Columns l cols → r.type = .REFERENCES → ref.type = .IDENT → Columns m refs →
      acts.length ≤ 2 → (∀ a ∈ acts, OnAction a) →
      OfTable tbl (a ++ (k ++ (l ++ r :: ref :: (m ++ acts.flatten)))) (.foreignKey n cols (word .mysql ref) refs (join s%" " (acts.flatten.map (·.lit))))
  | index (a k l : List Token) (s : Str) (i : Ident) (n : Token) (u : Bool) (cols : List ColumnIdent) : NamedAs .mysql a s i →
      kinds k ∈ (if u then [[.UNIQUE, .INDEX], [.UNIQUE, .KEY]] else [[.INDEX], [.KEY]]) → n.type = .IDENT → Columns l cols →
      OfTable tbl (a ++ (k ++ n :: l)) (.index (word .mysql n) u cols)
  | check (a e : List Token) (k : Token) (n : Ident) (ws : List Ident) : NamedAs .mysql a (tbl ++ s%"_chk") n → k.type = .CHECK → Spells e ws →
      OfTable tbl (a ++ k :: e) (.check n ws)

/-- A column: its name, its type, attributes, constraints, and a comment. -/
def OfName (tbl : Str) (ts : List Token) (c : Column) (cs : List Constraint) : Prop :=
  ∃ n y a r m as, ts = n :: (y ++ (a ++ (r ++ m))) ∧ n.type = .IDENT ∧ c.name = word .mysql n ∧ OfType y c.dataType ∧
    Many Attribute a as ∧ c.default = last Said.default? as ∧ c.notNull = (last Said.notNull? as).getD false ∧
    (c.autoIncrement = true ↔ .autoIncrement ∈ as) ∧ c.onAction = (last Said.onAction? as).getD [] ∧
    c.characterSet = last Said.characterSet? as ∧ c.collate = last Said.collate? as ∧
    Many (OfColumn tbl c.name) r cs ∧ Written.Commented m c.comment

/-- `CREATE TABLE [IF NOT EXISTS] name (body) options`.  All columns are those of the body; so are the constraints, but of
several with the same name only the last one. -/
def Table (ts : List Token) (t : CreateTable) : Prop :=
  ∃ a i n o body c opts cons, ts = a ++ (i ++ n :: o :: (body ++ c :: opts)) ∧ kinds a = [.CREATE, .TABLE] ∧ Conditional i t.ifNotExists ∧ n.type = .IDENT ∧
    o.type = .OPEN_PAREN ∧ c.type = .CLOSE_PAREN ∧ t.name = newObjectName .mysql n.lit ∧
    Body (OfName t.name.name.name) (OfTable t.name.name.name) body t.columns cons ∧ (t.constraints.map (·.name.name)).Nodup ∧
    (∀ c, c ∈ t.constraints ↔ Latest (·.name.name) cons c) ∧ t.comment = [] ∧ Written.Options opts t.options

/-- `CREATE [UNIQUE] INDEX [IF NOT EXISTS] name ON table [USING method] (columns)`.  In place of `INDEX` behind `UNIQUE` there may be
anything. -/
def Index (ts : List Token) (x : CreateIndex) : Prop :=
  ∃ k a i n o tb u l, ts = k :: (a ++ (i ++ n :: o :: tb :: (u ++ l))) ∧ k.type = .CREATE ∧
    ((x.isUnique = false ∧ kinds a = [.INDEX]) ∨ (x.isUnique = true ∧ (kinds a).head? = some .UNIQUE ∧ a.length ≤ 2)) ∧
    Conditional i x.ifNotExists ∧ n.type = .IDENT ∧ x.name = newObjectName .mysql n.lit ∧ o.type = .ON ∧ tb.type = .IDENT ∧
    x.tableName = newObjectName .mysql tb.lit ∧
    ((u = [] ∧ x.using_ = []) ∨ ∃ k m, u = [k, m] ∧ k.type = .USING ∧ x.using_ = [given m.lit]) ∧ Columns l x.columns ∧ x.comment = []

/-- A statement. -/
inductive Statement : List Token → MStmt → Prop
  | table (ts : List Token) (t : CreateTable) : Table ts t → Statement ts (.createTable t)
  | index (ts : List Token) (x : CreateIndex) : Index ts x → Statement ts (.createIndex x)

/-- Does a statement have something unique? -/
def unique : MStmt → Bool
  | .createTable t => t.constraints.any fun
    | .index _ u _ => u
    | _ => false
  | .createIndex x => x.isUnique
  | _ => false

end Ddl.My.Source
