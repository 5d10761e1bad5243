import Verif.Spec.Content

/-!
# Specification vocabulary: definitions up to a way of writing them

A `Blur` says what is kept of the texts inside a definition.  Blurring a definition forgets quoting of identifiers, the spelling
of type names, and

* of a word inside an expression (default, CHECK, type parameter, table option) everything but `expr` of its unquoted text,
* of an action (`ON DELETE ...`) everything but `chr` of each character,
* of a text that is stored as written (index method, column comment) everything but `raw` of it.
-/

namespace Ddl

/-- What is kept of the texts inside a definition. -/
structure Blur where
  expr : Str → Str
  chr : Char → Char
  raw : Str → Str

/-- Everything is kept (but quoting of identifiers and spelling of types). -/
def Blur.exact : Blur := ⟨id, id, id⟩

variable (B : Blur)

/-- A word of an expression. -/
def Ident.blur (i : Ident) : Ident := ⟨B.expr i.name, [], []⟩
/-- A word stored as written. -/
def Ident.blurRaw (i : Ident) : Ident := ⟨B.raw i.raw, [], []⟩

/-- Two outcomes are the same up to `R` on the values. -/
def Spec.SameOutcome {α β : Type} (R : α → β → Prop) : Res α → Res β → Prop
  | .ok a, .ok b => R a b
  | .err e, .err e' => e = e'
  | .panic p, .panic p' => p = p'
  | .outOfFuel, .outOfFuel => True
  | _, _ => False

/-- Two lists of the same length whose elements at the same places are related. -/
inductive Spec.Pointwise {α β : Type} (R : α → β → Prop) : List α → List β → Prop where
  | nil : Pointwise R [] []
  | cons {a : α} {b : β} {l : List α} {r : List β} : R a b → Pointwise R l r → Pointwise R (a :: l) (b :: r)

namespace Pg

def DataType.blur (t : DataType) : DataType := ⟨[], t.type, t.expr.map (Ident.blur B)⟩
def Default.blur (d : Default) : Default := ⟨d.value.map (·.map (Ident.blur B))⟩
def Column.blur (c : Column) : Column := ⟨c.name.bare, c.dataType.blur B, c.default.map (Default.blur B), c.notNull⟩
def Constraint.blur : Constraint → Constraint
  | .primaryKey n cs => .primaryKey n.bare (cs.map Ident.bare)
  | .foreignKey n cs r rcs act => .foreignKey n.bare (cs.map Ident.bare) r.bare (rcs.map Ident.bare) (act.map B.chr)
  | .unique n cs => .unique n.bare (cs.map Ident.bare)
  | .check n e => .check n.bare (e.map (Ident.blur B))
def CreateTable.blur (t : CreateTable) : CreateTable :=
  ⟨[], t.ifNotExists, t.name.bare, t.columns.map (Column.blur B), t.constraints.map (Constraint.blur B), []⟩
def CreateIndex.blur (i : CreateIndex) : CreateIndex :=
  ⟨[], i.isUnique, i.ifNotExists, i.name.bare, i.tableName.bare, i.using_.map (Ident.blurRaw B), i.columns.map Ident.bare⟩

end Pg

namespace Crdb

def DataType.blur (t : DataType) : DataType := ⟨[], t.type, t.expr.map (Ident.blur B)⟩
def Default.blur (d : Default) : Default := ⟨d.value.map (·.map (Ident.blur B))⟩
def As.blur (a : As) : As := ⟨a.value.map (·.map (Ident.blur B)), a.type⟩
def Using.blur (u : Using) : Using := ⟨u.value.map (·.map (Ident.blur B)), u.with_.map (·.map (Ident.blur B))⟩
def ColumnIdent.blur (i : ColumnIdent) : ColumnIdent := ⟨i.ident.bare, i.order⟩
def Column.blur (c : Column) : Column :=
  ⟨c.name.bare, c.dataType.blur B, c.default.map (Default.blur B), c.notNull, c.notVisible, c.as_.map (As.blur B)⟩
def Constraint.blur : Constraint → Constraint
  | .primaryKey n cs => .primaryKey n.bare (cs.map ColumnIdent.blur)
  | .foreignKey n cs r rcs act =>
    .foreignKey n.bare (cs.map ColumnIdent.blur) r.bare (rcs.map ColumnIdent.blur) (act.map B.chr)
  | .index n uq pre cs post => .index n.bare uq (pre.map (Using.blur B)) (cs.map ColumnIdent.blur) (post.map (Using.blur B))
  | .check n e => .check n.bare (e.map (Ident.blur B))
def CreateTable.blur (t : CreateTable) : CreateTable :=
  ⟨[], t.ifNotExists, t.name.bare, t.columns.map (Column.blur B), t.constraints.map (Constraint.blur B), []⟩
def CreateIndex.blur (i : CreateIndex) : CreateIndex :=
  ⟨[], i.isUnique, i.ifNotExists, i.name.bare, i.tableName.bare, i.usingPre.map (Using.blur B),
    i.columns.map ColumnIdent.blur, i.usingPost.map (Using.blur B)⟩

end Crdb

namespace My

def DataType.blur (t : DataType) : DataType := ⟨[], t.type, t.expr.map (Ident.blur B)⟩
def Default.blur (d : Default) : Default := ⟨d.value.map (·.map (Ident.blur B))⟩
def ColumnIdent.blur (i : ColumnIdent) : ColumnIdent := ⟨i.ident.bare, i.order⟩
def Column.blur (c : Column) : Column :=
  ⟨c.name.bare, c.dataType.blur B, c.characterSet.map (Ident.blur B), c.collate.map (Ident.blur B),
    c.default.map (Default.blur B), c.notNull, c.autoIncrement, c.onAction.map B.chr, B.raw c.comment⟩
def Constraint.blur : Constraint → Constraint
  | .primaryKey n cs => .primaryKey n.bare (cs.map ColumnIdent.blur)
  | .foreignKey n cs r rcs act =>
    .foreignKey n.bare (cs.map ColumnIdent.blur) r.bare (rcs.map ColumnIdent.blur) (act.map B.chr)
  | .index n uq cs => .index n.bare uq (cs.map ColumnIdent.blur)
  | .check n e => .check n.bare (e.map (Ident.blur B))
def CreateTable.blur (t : CreateTable) : CreateTable :=
  ⟨[], t.ifNotExists, t.name.bare, t.columns.map (Column.blur B), t.constraints.map (Constraint.blur B),
    t.options.map TableOption.bare⟩
def CreateIndex.blur (i : CreateIndex) : CreateIndex :=
  ⟨[], i.isUnique, i.ifNotExists, i.name.bare, i.tableName.bare, i.using_.map (Ident.blurRaw B),
    i.columns.map ColumnIdent.blur⟩

end My

namespace Sp

def DataType.blur (t : DataType) : DataType := ⟨[], t.type, t.expr.map (Ident.blur B)⟩
def Default.blur (d : Default) : Default := ⟨d.value.map (·.map (Ident.blur B))⟩
def ColumnIdent.blur (i : ColumnIdent) : ColumnIdent := ⟨i.ident.bare, i.order⟩
def Column.blur (c : Column) : Column :=
  ⟨c.name.bare, c.dataType.blur B, c.default.map (Default.blur B), c.notNull, c.options.map (·.map (Ident.blur B))⟩
def Constraint.blur : Constraint → Constraint
  | .foreignKey n cs r rcs => .foreignKey n.bare (cs.map ColumnIdent.blur) r.bare (rcs.map ColumnIdent.blur)
  | .check n e => .check (n.map Ident.bare) (e.map (Ident.blur B))
def TableOption.blur (o : TableOption) : TableOption := ⟨o.name, o.value.map (Ident.blur B)⟩
def CreateTable.blur (t : CreateTable) : CreateTable :=
  ⟨[], t.ifNotExists, t.name.bare, t.columns.map (Column.blur B), t.constraints.map (Constraint.blur B),
    t.options.map (TableOption.blur B), t.rowDeletionPolicy.map (TableOption.blur B)⟩
def CreateIndex.blur (i : CreateIndex) : CreateIndex :=
  ⟨[], i.isUnique, i.ifNotExists, i.name.bare, i.tableName.bare, i.using_.map (Ident.blurRaw B),
    i.columns.map ColumnIdent.blur⟩

end Sp

namespace Spec

/-- Two CREATE statements whose definitions are equal after `ft`, `fi`. -/
inductive StmtEq {T I A N : Type} (ft : T → T) (fi : I → I) : Stmt T I A N → Stmt T I A N → Prop where
  | table {t t' : T} : ft t = ft t' → StmtEq ft fi (.createTable t) (.createTable t')
  | index {i i' : I} : fi i = fi i' → StmtEq ft fi (.createIndex i) (.createIndex i')

/-- Two tokens that stand for the same thing after blurring, in dialect `d`. -/
structure TokRel (d : Dialect) (t t' : Token) : Prop where
  type : t'.type = t.type
  ident : t.type = .IDENT → (newRawIdent d t'.lit).bare = (newRawIdent d t.lit).bare ∧
    (newObjectName d t'.lit).bare = (newObjectName d t.lit).bare
  expr : B.expr (newRawIdent d t'.lit).name = B.expr (newRawIdent d t.lit).name
  act : t.type ≠ .IDENT → t'.lit.map B.chr = t.lit.map B.chr
  raw : B.raw t'.lit = B.raw t.lit
  symbol : t.type ∈ [.EQUAL, .GREATER, .LESS] → t'.lit = t.lit

end Spec

end Ddl
