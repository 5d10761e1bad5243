import Mathlib.Data.List.Forall2
import Verif.Stmt

/-!
# Specification vocabulary for diffs: which database objects statements are about

Independent of how `Diff` is computed: only the constructors of statements and the names they carry are used.
-/

namespace Ddl.Spec

/-- A database object: a table or an index, identified by its unquoted name. -/
inductive Obj where
  | table (name : Str)
  | index (name : Str)
deriving DecidableEq, Repr

section
variable {T I A N : Type} (o : Ops T I A N)

/-- The object a statement creates. -/
def creates : Stmt T I A N → Option Obj
  | .createTable t => some (.table (o.tableName t).diffStr)
  | .createIndex i => some (.index (o.nDiffStr (o.indexName i)))
  | _ => none

/-- The object a statement drops. -/
def drops : Stmt T I A N → Option Obj
  | .dropTable _ _ n => some (.table n.diffStr)
  | .dropIndex _ _ n => some (.index (o.nDiffStr n))
  | _ => none

/-- The object a statement alters in place. -/
def alters : Stmt T I A N → Option Obj
  | .alterTable a => some (.table (o.alterName a).diffStr)
  | _ => none

/-- The object a statement is about. -/
def about (s : Stmt T I A N) : Option Obj :=
  match creates o s with
  | some x => some x
  | none => match drops o s with
    | some x => some x
    | none => alters o s

/-- A DDL defines an object when one of its statements creates it. -/
def Defines (l : List (Stmt T I A N)) (x : Obj) : Prop := ∃ s ∈ l, creates o s = some x

/-- A DDL declares an index inside one of its CREATE TABLE statements; `inline t` are the names of the indexes declared in `t`. -/
def DeclaresInline (inline : T → List Str) (l : List (Stmt T I A N)) (x : Obj) : Prop :=
  ∃ t n, .createTable t ∈ l ∧ n ∈ inline t ∧ x = .index n

/-- A DDL made of CREATE TABLE and CREATE INDEX statements. -/
def CreateOnly (l : List (Stmt T I A N)) : Prop := ∀ s ∈ l, (creates o s).isSome

/-- No object is defined twice. -/
def DistinctObjects (l : List (Stmt T I A N)) : Prop := (l.filterMap (creates o)).Nodup

/-- `d` is the plain DROP of the object created by `s`: same name, not `IF EXISTS`, no comment. -/
inductive IsDropFor : Stmt T I A N → Stmt T I A N → Prop where
  | table (t : T) : IsDropFor (.createTable t) (.dropTable [] false (o.tableName t))
  | index (i : I) : IsDropFor (.createIndex i) (.dropIndex [] false (o.indexName i))

/-- C02 for one dialect: creating from nothing is the DDL itself, going to nothing is one plain DROP per statement in order,
nothing to nothing is no difference. -/
def FromToNothing : Prop :=
  (∀ a, diff o none (some a) = .ok a) ∧
  (∀ b, CreateOnly o b → ∃ ds, diff o (some b) none = .ok ds ∧ List.Forall₂ (IsDropFor o) b ds) ∧
  (∀ b, ¬ CreateOnly o b → diff o (some b) none = .err .notSupported) ∧
  diff o none none = .err .noDifference

/-- C09 for one dialect: first a drop of each object that is gone, then the creation of each new object exactly as written in
`after`, then statements about objects that are on both sides (or indexes declared inside tables). -/
def ThreePhases (inline : T → List Str) (b a r : List (Stmt T I A N)) : Prop :=
  ∃ ds cs rest, r = ds ++ cs ++ rest ∧
    (∀ s ∈ ds, ∃ k, drops o s = some k ∧ Defines o b k ∧ ¬ Defines o a k) ∧
    (∀ k, Defines o b k → ¬ Defines o a k → ∃ s ∈ ds, drops o s = some k) ∧
    (∀ s ∈ cs, s ∈ a ∧ ∃ k, creates o s = some k ∧ ¬ Defines o b k) ∧
    (∀ s ∈ a, ∀ k, creates o s = some k → ¬ Defines o b k → s ∈ cs) ∧
    (∀ s ∈ rest, ∃ k, about o s = some k ∧
      ((Defines o b k ∧ Defines o a k) ∨ DeclaresInline inline b k ∨ DeclaresInline inline a k))

/-- C08 for one dialect and one diff: every statement is about an object defined in `b` or `a`, a table or index defined
identically on both sides is not touched. -/
def OnlyDifferences (inline : T → List Str) (b a r : List (Stmt T I A N)) : Prop :=
  (∀ s ∈ r, ∃ k, about o s = some k ∧
    (Defines o b k ∨ Defines o a k ∨ DeclaresInline inline b k ∨ DeclaresInline inline a k)) ∧
  (DistinctObjects o b → DistinctObjects o a →
    (∀ t, .createTable t ∈ b → .createTable t ∈ a → ∀ s ∈ r, about o s ≠ some (.table (o.tableName t).diffStr)) ∧
    (∀ i, .createIndex i ∈ b → .createIndex i ∈ a →
      ¬ DeclaresInline inline b (.index (o.nDiffStr (o.indexName i))) →
      ¬ DeclaresInline inline a (.index (o.nDiffStr (o.indexName i))) →
      ∀ s ∈ r, about o s ≠ some (.index (o.nDiffStr (o.indexName i)))))

/-- Tables of the same name are in the same schema: true unless a quoted name contains a dot. -/
def SameSchemas (b a : List (Stmt T I A N)) : Prop :=
  ∀ t t', .createTable t ∈ b → .createTable t' ∈ a → (o.tableName t).diffStr = (o.tableName t').diffStr →
    (o.tableName t).schema.map Ident.name = (o.tableName t').schema.map Ident.name

/-- Tables with the same text, and schemas with the same text, are the same. -/
def Told (b a : List (Stmt T I A N)) : Prop :=
  (∀ t t', .createTable t ∈ b → .createTable t' ∈ a → o.tableStr t = o.tableStr t' → t = t') ∧ (ddlStr o b = ddlStr o a → b = a)

end

/-- The same table or index: same schema and same name, without quotes. -/
def SameName (n m : ObjectName) : Prop := n.schema.map Ident.name = m.schema.map Ident.name ∧ n.name.name = m.name.name

/-- No dots inside the schema or the name (a dot can only come from a quoted identifier). -/
def Undotted (n : ObjectName) : Prop := '.' ∉ n.name.name ∧ ∀ s, n.schema = some s → '.' ∉ s.name

end Ddl.Spec
