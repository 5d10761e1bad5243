import Verif.Spec.Content
import Verif.Spec.Tame
import Verif.Sp.Parser
import Verif.Crdb.Parser
import Verif.My.Parser

/-!
# Specification: executing the alterations of one table (CockroachDB, MySQL, Spanner)

The state is one table, or none.  What the databases check and do is simplified in the same way for the three dialects:

* columns, constraints and indexes are found by their unquoted names;
* the rows of the table and the other tables play no role, in particular not the tables foreign keys refer to;
* a column that a constraint or an index of the table mentions cannot be dropped; a constraint or index needs its columns.
-/

namespace Ddl.Spec
set_option autoImplicit false

/-- The statements succeed one after the other. -/
inductive Runs {S A : Type} (step : S → A → S → Prop) : S → List A → S → Prop where
  | nil (s : S) : Runs step s [] s
  | cons {s s' s'' : S} {a : A} {l : List A} : step s a s' → Runs step s' l s'' → Runs step s (a :: l) s''

/-- Changes one entry. -/
def upd {α : Type} (m : Str → Option α) (k : Str) (v : Option α) : Str → Option α := fun x => if x = k then v else m x

/-- A word without blanks, or a text in single quotes. -/
def OneWord (a : Str) : Prop :=
  (a ≠ [] ∧ ' ' ∉ a ∧ a.head? ≠ some '\'') ∨ ∃ body, '\'' ∉ body ∧ a = '\'' :: (body ++ ['\''])

/-- The words of an expression can be told from its text. -/
def WordsOnly (e : Expr) : Prop := ∀ i ∈ e, OneWord i.name

end Ddl.Spec

namespace Ddl.Sp
open Spec
set_option autoImplicit false

/-- The columns a constraint is about; they have to exist. -/
def Constraint.columnNames : Constraint → List Str
  | .foreignKey _ cs _ _ => cs.map (·.ident.name)
  | .check _ _ => []

/-- The columns a constraint mentions; any word of a condition may be one. -/
def Constraint.mentions : Constraint → List Str
  | .foreignKey _ cs _ _ => cs.map (·.ident.name)
  | .check _ e => e.map (·.name)

/-- The constraint has that name. -/
def Constraint.Named (c : Constraint) (k : Str) : Prop := c.name.map Ident.name = some k

instance (c : Constraint) (k : Str) : Decidable (c.Named k) := by unfold Constraint.Named; infer_instance

/-- Type parameters, default value and options can be told from their text; there is no `DEFAULT` without a value and no empty
list of options. -/
def Column.Tame (c : Column) : Prop :=
  Pg.TameParams c.dataType.expr ∧ (∀ e, c.default = some ⟨some e⟩ → WordsOnly e) ∧ c.default ≠ some ⟨none⟩ ∧
    (∀ e, c.options = some e → WordsOnly e) ∧ c.options ≠ some []

/-- The columns, the referenced table and the condition can be told from their text. -/
def Constraint.Tame : Constraint → Prop
  | .foreignKey _ cs r rcs => (∀ i ∈ cs, Pg.IsWord i.ident.name) ∧ Pg.IsWord r.name ∧ ∀ i ∈ rcs, Pg.IsWord i.ident.name
  | .check _ e => WordsOnly e

/-- The name and the words of a row deletion policy, as the parser makes them. -/
def PolicyTame (o : TableOption) : Prop := o.name = s%"ROW DELETION POLICY" ∧ WordsOnly o.value

/-- Columns, constraints and row deletion policy can be told from their text. -/
def CreateTable.Tame (t : CreateTable) : Prop :=
  (∀ c ∈ t.columns, c.Tame) ∧ (∀ c ∈ t.constraints, c.Tame) ∧ ∀ o, t.rowDeletionPolicy = some o → PolicyTame o

namespace Run

/-- A column. -/
structure Col where
  type : DataType
  default : Option Default
  notNull : Bool
  options : Option Expr
deriving DecidableEq

/-- A constraint; `validated` is false when it was added with `NOT VALID`. -/
structure Con where
  definition : Constraint
  validated : Bool
deriving DecidableEq

/-- A table: its name, columns and constraints by name, the text of its options (primary key, interleaving) without quotes, and
its row deletion policy. -/
structure Tbl where
  name : Str
  cols : Str → Option Col
  cons : Str → Option Con
  options : Str
  policy : Option TableOption

/-- A column as defined. -/
def colOf (c : Column) : Col := ⟨c.dataType.bare, c.default.map Default.bare, c.notNull, c.options.map (·.map Ident.bare)⟩

/-- The text of an option without quotes. -/
def optionText (o : TableOption) : Str := o.name ++ s%" " ++ join s%" " (o.value.map (·.name))

/-- A table as defined. -/
def tableOf (t : CreateTable) : Tbl where
  name := t.name.diffStr
  cols := fun k => (t.columns.find? (fun c => c.name.name == k)).map colOf
  cons := fun k => (t.constraints.find? (fun c => c.Named k)).map fun c => ⟨c.bare, true⟩
  options := join s%", " (t.options.map optionText)
  policy := t.rowDeletionPolicy.map TableOption.bare

/-- What `ALTER TABLE` does.  `DROP OPTIONS` is taken to remove the options. -/
inductive Alter (T : Tbl) : Action → Tbl → Prop where
  | renameTable (n : ObjectName) : Alter T (.renameTable n) { T with name := n.diffStr }
  | addColumn (c : Column) : T.cols c.name.name = none →
      Alter T (.addColumn c) { T with cols := upd T.cols c.name.name (some (colOf c)) }
  | dropColumn (k : Ident) : (T.cols k.name).isSome → (∀ j c, T.cons j = some c → k.name ∉ c.definition.mentions) →
      Alter T (.dropColumn k) { T with cols := upd T.cols k.name none }
  | alterDataType (k : Ident) (ty : DataType) (nn : Bool) (c : Col) : T.cols k.name = some c →
      Alter T (.alterDataType k ty nn) { T with cols := upd T.cols k.name (some { c with type := ty.bare, notNull := nn }) }
  | setDefault (k : Ident) (df : Option Default) (c : Col) : T.cols k.name = some c →
      Alter T (.setDefault k df) { T with cols := upd T.cols k.name (some { c with default := df.map Default.bare }) }
  | dropDefault (k : Ident) (c : Col) : T.cols k.name = some c →
      Alter T (.dropDefault k) { T with cols := upd T.cols k.name (some { c with default := none }) }
  | setOptions (k : Ident) (o : Option Expr) (c : Col) : T.cols k.name = some c →
      Alter T (.setOptions k o) { T with cols := upd T.cols k.name (some { c with options := o.map (·.map Ident.bare) }) }
  | dropOptions (k : Ident) (c : Col) : T.cols k.name = some c →
      Alter T (.dropOptions k) { T with cols := upd T.cols k.name (some { c with options := none }) }
  | addConstraint (c : Constraint) (k : Str) (nv : Bool) : c.Named k → T.cons k = none → (∀ x ∈ c.columnNames, (T.cols x).isSome) →
      Alter T (.addConstraint c nv) { T with cons := upd T.cons k (some ⟨c.bare, !nv⟩) }
  | dropConstraint (k : Ident) : (T.cons k.name).isSome →
      Alter T (.dropConstraint (some k)) { T with cons := upd T.cons k.name none }
  | addRowDeletionPolicy (o : TableOption) : T.policy = none → Alter T (.addRowDeletionPolicy o) { T with policy := some o.bare }
  | replaceRowDeletionPolicy (o : TableOption) : T.policy.isSome → Alter T (.replaceRowDeletionPolicy o) { T with policy := some o.bare }
  | dropRowDeletionPolicy : T.policy.isSome → Alter T .dropRowDeletionPolicy { T with policy := none }

/-- The statement succeeds on the first state and leaves the last one. -/
inductive Step : Option Tbl → SStmt → Option Tbl → Prop where
  | createTable (t : CreateTable) : Step none (.createTable t) (some (tableOf t))
  | dropTable (T : Tbl) (cm : Str) (ie : Bool) (n : ObjectName) : n.diffStr = T.name → Step (some T) (.dropTable cm ie n) none
  | alterTable (T T' : Tbl) (cm : Str) (n : ObjectName) (act : Action) : n.diffStr = T.name → Alter T act T' →
      Step (some T) (.alterTable ⟨cm, n, act⟩) (some T')

/-- The table can be compared: names are distinct, texts unambiguous, and the columns of constraints exist. -/
structure Good (t : CreateTable) : Prop where
  distinct : DistinctNames t
  tame : t.Tame
  columns : ∀ c ∈ t.constraints, ∀ k ∈ c.columnNames, ∃ x ∈ t.columns, x.name.name = k

/-- A column that is dropped is not mentioned by a constraint that stays under its name. -/
def NoHazard (t t' : CreateTable) : Prop :=
  ∀ c ∈ t.columns, (∀ c' ∈ t'.columns, c'.name.name ≠ c.name.name) →
    ∀ p ∈ t.constraints, ∀ p' ∈ t'.constraints, p.name.map Ident.name = p'.name.map Ident.name → c.name.name ∉ p.mentions

end Run
end Ddl.Sp

namespace Ddl.Crdb
open Spec
set_option autoImplicit false

/-- The columns a constraint is about; they have to exist. -/
def Constraint.columnNames : Constraint → List Str
  | .primaryKey _ cs | .foreignKey _ cs _ _ _ | .index _ _ _ cs _ => cs.map (·.ident.name)
  | .check _ _ => []

/-- The columns a constraint mentions; any word of a condition may be one. -/
def Constraint.mentions : Constraint → List Str
  | .primaryKey _ cs | .foreignKey _ cs _ _ _ | .index _ _ _ cs _ => cs.map (·.ident.name)
  | .check _ e => e.map (·.name)

/-- The constraint is an index written in the table. -/
def Constraint.IsIndex : Constraint → Prop
  | .index .. => True
  | _ => False

/-- Type parameters and default value can be told from their text; there is no `DEFAULT` without a value. -/
def Column.Tame (c : Column) : Prop :=
  Pg.TameParams c.dataType.expr ∧ (∀ e, c.default = some ⟨some e⟩ → WordsOnly e) ∧ c.default ≠ some ⟨none⟩

/-- The columns, the referenced table, the condition and the words before the columns of an index can be told from their text. -/
def Constraint.Tame : Constraint → Prop
  | .primaryKey _ cs => ∀ i ∈ cs, Pg.IsWord i.ident.name
  | .foreignKey _ cs r rcs _ => (∀ i ∈ cs, Pg.IsWord i.ident.name) ∧ Pg.IsWord r.name ∧ ∀ i ∈ rcs, Pg.IsWord i.ident.name
  | .index _ _ pre cs _ => '(' ∉ usingStr pre ∧ ∀ i ∈ cs, Pg.IsWord i.ident.name
  | .check _ e => WordsOnly e

namespace Run

/-- A column. -/
structure Col where
  type : DataType
  default : Option Default
  notNull : Bool
  notVisible : Bool
  computed : Option As
deriving DecidableEq

/-- What a constraint or an index is; the words behind `USING` are kept as they are printed. -/
inductive Def where
  | constraint (c : Constraint)
  | index (unique : Bool) (usingPre : Str) (columns : List ColumnIdent) (usingPost : Str)
deriving DecidableEq

/-- The columns a constraint or an index mentions. -/
def Def.mentions : Def → List Str
  | .constraint c => c.mentions
  | .index _ _ cs _ => cs.map (·.ident.name)

/-- A constraint or an index as defined. -/
def defOf : Constraint → Def
  | .index _ uq pre cs post => .index uq (usingStr pre) (cs.map ColumnIdent.bare) (usingStr post)
  | c => .constraint c.bare

/-- An index as created. -/
def indexOf (i : CreateIndex) : Def :=
  .index i.isUnique (usingStr i.usingPre) (i.columns.map ColumnIdent.bare) (usingStr i.usingPost)

/-- A constraint or an index; `validated` is false when it was added with `NOT VALID`. -/
structure Con where
  definition : Def
  validated : Bool
deriving DecidableEq

/-- A table: its name, columns, constraints and indexes by name. -/
structure Tbl where
  name : Str
  cols : Str → Option Col
  cons : Str → Option Con

/-- A column as defined. -/
def colOf (c : Column) : Col := ⟨c.dataType.bare, c.default.map Default.bare, c.notNull, c.notVisible, c.as_.map As.bare⟩

/-- A table as defined. -/
def tableOf (t : CreateTable) : Tbl where
  name := t.name.diffStr
  cols := fun k => (t.columns.find? (fun c => c.name.name == k)).map colOf
  cons := fun k => (t.constraints.find? (fun c => c.name.name == k)).map fun c => ⟨defOf c, true⟩

/-- What `ALTER TABLE` does.  An index is neither added nor dropped this way; a primary key does not make columns `NOT NULL`. -/
inductive Alter (T : Tbl) : Action → Tbl → Prop where
  | renameTable (n : ObjectName) : Alter T (.renameTable n) { T with name := n.diffStr }
  | addColumn (c : Column) : T.cols c.name.name = none →
      Alter T (.addColumn c) { T with cols := upd T.cols c.name.name (some (colOf c)) }
  | dropColumn (k : Ident) : (T.cols k.name).isSome → (∀ j c, T.cons j = some c → k.name ∉ c.definition.mentions) →
      Alter T (.dropColumn k) { T with cols := upd T.cols k.name none }
  | setDataType (k : Ident) (ty : DataType) (c : Col) : T.cols k.name = some c →
      Alter T (.setDataType k ty) { T with cols := upd T.cols k.name (some { c with type := ty.bare }) }
  | setDefault (k : Ident) (df : Option Default) (c : Col) : T.cols k.name = some c →
      Alter T (.setDefault k df) { T with cols := upd T.cols k.name (some { c with default := df.map Default.bare }) }
  | dropDefault (k : Ident) (c : Col) : T.cols k.name = some c →
      Alter T (.dropDefault k) { T with cols := upd T.cols k.name (some { c with default := none }) }
  | setNotNull (k : Ident) (c : Col) : T.cols k.name = some c →
      Alter T (.setNotNull k) { T with cols := upd T.cols k.name (some { c with notNull := true }) }
  | dropNotNull (k : Ident) (c : Col) : T.cols k.name = some c →
      Alter T (.dropNotNull k) { T with cols := upd T.cols k.name (some { c with notNull := false }) }
  | addConstraint (c : Constraint) (nv : Bool) : ¬ c.IsIndex → T.cons c.name.name = none →
      (∀ x ∈ c.columnNames, (T.cols x).isSome) →
      Alter T (.addConstraint c nv) { T with cons := upd T.cons c.name.name (some ⟨defOf c, !nv⟩) }
  | dropConstraint (k : Ident) (c : Constraint) (v : Bool) : T.cons k.name = some ⟨.constraint c, v⟩ →
      Alter T (.dropConstraint k) { T with cons := upd T.cons k.name none }

/-- The statement succeeds on the first state and leaves the last one. -/
inductive Step : Option Tbl → CStmt → Option Tbl → Prop where
  | createTable (t : CreateTable) : Step none (.createTable t) (some (tableOf t))
  | dropTable (T : Tbl) (cm : Str) (ie : Bool) (n : ObjectName) : n.diffStr = T.name → Step (some T) (.dropTable cm ie n) none
  | alterTable (T T' : Tbl) (cm : Str) (n : ObjectName) (act : Action) : n.diffStr = T.name → Alter T act T' →
      Step (some T) (.alterTable ⟨cm, n, act⟩) (some T')
  | createIndex (T : Tbl) (i : CreateIndex) : i.tableName.diffStr = T.name → T.cons i.name.name = none →
      (∀ x ∈ i.columns, (T.cols x.ident.name).isSome) →
      Step (some T) (.createIndex i) (some { T with cons := upd T.cons i.name.name (some ⟨indexOf i, true⟩) })
  | dropIndex (T : Tbl) (cm : Str) (ie : Bool) (k : Ident) (uq : Bool) (pre post : Str) (cs : List ColumnIdent) (v : Bool) :
      T.cons k.name = some ⟨.index uq pre cs post, v⟩ →
      Step (some T) (.dropIndex cm ie k) (some { T with cons := upd T.cons k.name none })

/-- The table can be compared: names are distinct, texts unambiguous, and the columns of constraints exist. -/
structure Good (t : CreateTable) : Prop where
  distinct : DistinctNames t
  columnsTame : ∀ c ∈ t.columns, c.Tame
  constraintsTame : ∀ c ∈ t.constraints, c.Tame
  columns : ∀ c ∈ t.constraints, ∀ k ∈ c.columnNames, ∃ x ∈ t.columns, x.name.name = k

/-- The changes for which the order of the statements matters, or which the code does not see or does not make, do not occur. -/
structure NoHazard (t t' : CreateTable) : Prop where
  /-- A column that is dropped is not mentioned by a constraint or index that stays under its name. -/
  dropped : ∀ c ∈ t.columns, (∀ c' ∈ t'.columns, c'.name.name ≠ c.name.name) →
    ∀ p ∈ t.constraints, ∀ p' ∈ t'.constraints, p.name.name = p'.name.name → c.name.name ∉ p.mentions
  /-- A column that is dropped is not a hidden virtual column. -/
  hidden : ∀ c ∈ t.columns, (∀ c' ∈ t'.columns, c'.name.name ≠ c.name.name) →
    ¬ (c.notVisible = true ∧ ∃ a, c.as_ = some a ∧ a.type = some .VIRTUAL)
  /-- Visibility and computation of a column do not change. -/
  computed : ∀ c ∈ t.columns, ∀ c' ∈ t'.columns, c.name.name = c'.name.name →
    c.notVisible = c'.notVisible ∧ c.as_.map As.bare = c'.as_.map As.bare
  /-- What is an index stays an index. -/
  kind : ∀ p ∈ t.constraints, ∀ p' ∈ t'.constraints, p.name.name = p'.name.name → (p.IsIndex ↔ p'.IsIndex)

end Run
end Ddl.Crdb

namespace Ddl.My
open Spec
set_option autoImplicit false

/-- The columns a constraint is about; they have to exist. -/
def Constraint.columnNames : Constraint → List Str
  | .primaryKey _ cs | .foreignKey _ cs _ _ _ | .index _ _ cs => cs.map (·.ident.name)
  | .check _ _ => []

/-- The columns a constraint mentions; any word of a condition may be one. -/
def Constraint.mentions : Constraint → List Str
  | .primaryKey _ cs | .foreignKey _ cs _ _ _ | .index _ _ cs => cs.map (·.ident.name)
  | .check _ e => e.map (·.name)

/-- The constraint is an index written in the table. -/
def Constraint.IsIndex : Constraint → Prop
  | .index .. => True
  | _ => False

/-- The action of a foreign key. -/
def Constraint.action : Constraint → Str
  | .foreignKey _ _ _ _ act => act
  | _ => []

/-- Type parameters and default value can be told from their text; there is no `DEFAULT` without a value, and character set and
collation are not empty. -/
def Column.Tame (c : Column) : Prop :=
  Pg.TameParams c.dataType.expr ∧ (∀ e, c.default = some ⟨some e⟩ → WordsOnly e) ∧ c.default ≠ some ⟨none⟩ ∧
    (∀ i, c.characterSet = some i → i.name ≠ []) ∧ ∀ i, c.collate = some i → i.name ≠ []

/-- The columns, the referenced table and the condition can be told from their text. -/
def Constraint.Tame : Constraint → Prop
  | .primaryKey _ cs | .index _ _ cs => ∀ i ∈ cs, Pg.IsWord i.ident.name
  | .foreignKey _ cs r rcs _ => (∀ i ∈ cs, Pg.IsWord i.ident.name) ∧ Pg.IsWord r.name ∧ ∀ i ∈ rcs, Pg.IsWord i.ident.name
  | .check _ e => WordsOnly e

/-- The counter of the table; it is not part of the definition. -/
def TableOption.IsCounter (o : TableOption) : Prop := upper o.name = s%"AUTO_INCREMENT"

instance (o : TableOption) : Decidable o.IsCounter := by unfold TableOption.IsCounter; infer_instance

namespace Run

/-- A column. -/
structure Col where
  type : DataType
  characterSet : Option Ident
  collate : Option Ident
  default : Option Default
  notNull : Bool
  autoIncrement : Bool
  onAction : Str
  comment : Str
deriving DecidableEq

/-- A constraint or an index; `validated` is false when it was added with `NOT VALID`. -/
structure Con where
  definition : Constraint
  validated : Bool
deriving DecidableEq

/-- A table: its name; columns, constraints, indexes and options by name. -/
structure Tbl where
  name : Str
  cols : Str → Option Col
  cons : Str → Option Con
  options : Str → Option Expr

/-- An index as created. -/
def indexOf (i : CreateIndex) : Constraint := .index i.name.name.bare i.isUnique (i.columns.map ColumnIdent.bare)

/-- A column as defined. -/
def colOf (c : Column) : Col :=
  ⟨c.dataType.bare, c.characterSet.map Ident.bare, c.collate.map Ident.bare, c.default.map Default.bare, c.notNull, c.autoIncrement,
    c.onAction, c.comment⟩

/-- A table as defined. -/
def tableOf (t : CreateTable) : Tbl where
  name := t.name.diffStr
  cols := fun k => (t.columns.find? (fun c => c.name.name == k)).map colOf
  cons := fun k => (t.constraints.find? (fun c => c.name.name == k)).map fun c => ⟨c.bare, true⟩
  options := fun k => (t.options.find? (fun o => !decide o.IsCounter && o.name == k)).map fun o => o.value.map Ident.bare

/-- What `ALTER TABLE` does.  `MODIFY` gives the whole definition of the column anew.  An index is neither added nor dropped this
way; a primary key does not make columns `NOT NULL`. -/
inductive Alter (T : Tbl) : Action → Tbl → Prop where
  | renameTable (n : ObjectName) : Alter T (.renameTable n) { T with name := n.diffStr }
  | addColumn (c : Column) : T.cols c.name.name = none →
      Alter T (.addColumn c) { T with cols := upd T.cols c.name.name (some (colOf c)) }
  | dropColumn (k : Ident) : (T.cols k.name).isSome → (∀ j c, T.cons j = some c → k.name ∉ c.definition.mentions) →
      Alter T (.dropColumn k) { T with cols := upd T.cols k.name none }
  | modifyColumn (m : Modify) : (T.cols m.name.name).isSome →
      Alter T (.modifyColumn m) { T with cols := upd T.cols m.name.name (some ⟨m.dataType.bare, m.characterSet.map Ident.bare,
        m.collate.map Ident.bare, m.default.map Default.bare, m.notNull, m.autoIncrement, m.onAction, m.comment⟩) }
  | dropDefault (k : Ident) (c : Col) : T.cols k.name = some c →
      Alter T (.dropDefault k) { T with cols := upd T.cols k.name (some { c with default := none }) }
  | addConstraint (c : Constraint) (nv : Bool) : ¬ c.IsIndex → T.cons c.name.name = none →
      (∀ x ∈ c.columnNames, (T.cols x).isSome) →
      Alter T (.addConstraint c nv) { T with cons := upd T.cons c.name.name (some ⟨c.bare, !nv⟩) }
  | dropConstraint (k : Ident) (c : Con) : T.cons k.name = some c → ¬ c.definition.IsIndex →
      Alter T (.dropConstraint k) { T with cons := upd T.cons k.name none }
  | tableOption (o : TableOption) : ¬ o.IsCounter →
      Alter T (.tableOption o) { T with options := upd T.options o.name (some (o.value.map Ident.bare)) }

/-- The statement succeeds on the first state and leaves the last one. -/
inductive Step : Option Tbl → MStmt → Option Tbl → Prop where
  | createTable (t : CreateTable) : Step none (.createTable t) (some (tableOf t))
  | dropTable (T : Tbl) (cm : Str) (ie : Bool) (n : ObjectName) : n.diffStr = T.name → Step (some T) (.dropTable cm ie n) none
  | alterTable (T T' : Tbl) (cm : Str) (n : ObjectName) (act : Action) : n.diffStr = T.name → Alter T act T' →
      Step (some T) (.alterTable ⟨cm, n, act⟩) (some T')
  | createIndex (T : Tbl) (i : CreateIndex) : i.tableName.diffStr = T.name → T.cons i.name.name.name = none →
      (∀ x ∈ i.columns, (T.cols x.ident.name).isSome) →
      Step (some T) (.createIndex i) (some { T with cons := upd T.cons i.name.name.name (some ⟨indexOf i, true⟩) })
  | dropIndex (T : Tbl) (cm : Str) (ie : Bool) (n : ObjectName) (c : Con) : T.cons n.name.name = some c → c.definition.IsIndex →
      Step (some T) (.dropIndex cm ie n) (some { T with cons := upd T.cons n.name.name none })

/-- The table can be compared: names are distinct, texts unambiguous, and the columns of constraints exist. -/
structure Good (t : CreateTable) : Prop where
  distinct : DistinctNames t
  columnsTame : ∀ c ∈ t.columns, c.Tame
  constraintsTame : ∀ c ∈ t.constraints, c.Tame
  optionsTame : ∀ o ∈ t.options, WordsOnly o.value
  columns : ∀ c ∈ t.constraints, ∀ k ∈ c.columnNames, ∃ x ∈ t.columns, x.name.name = k

/-- The changes for which the order of the statements matters, or which the code does not see or does not make, do not occur. -/
structure NoHazard (t t' : CreateTable) : Prop where
  /-- A column that is dropped is not mentioned by a constraint or index that stays under its name. -/
  dropped : ∀ c ∈ t.columns, (∀ c' ∈ t'.columns, c'.name.name ≠ c.name.name) →
    ∀ p ∈ t.constraints, ∀ p' ∈ t'.constraints, p.name.name = p'.name.name → c.name.name ∉ p.mentions
  /-- A column that changes has no character set then. -/
  characterSet : ∀ c ∈ t.columns, ∀ c' ∈ t'.columns, c.name.name = c'.name.name → c.bare = c'.bare ∨ c'.characterSet = none
  /-- What is an index stays an index, and actions of foreign keys do not change. -/
  kind : ∀ p ∈ t.constraints, ∀ p' ∈ t'.constraints, p.name.name = p'.name.name → (p.IsIndex ↔ p'.IsIndex) ∧ p.action = p'.action
  /-- Options are not removed. -/
  options : ∀ o ∈ t.options, o.IsCounter ∨ ∃ o' ∈ t'.options, o'.name = o.name

end Run
end Ddl.My
