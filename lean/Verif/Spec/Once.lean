import Verif.Spec.Objects
import Verif.Spec.Inline
import Verif.Pg.Ast
import Verif.Sp.Ast

/-!
# Specification vocabulary: what a statement does, to what

Only the constructors of the statements and the names in them are looked at.
-/

namespace Ddl.Spec
set_option autoImplicit false

/-- What is done to a part of a table. -/
inductive Verb where
  | rename | addColumn | dropColumn | setType | setDefault | dropDefault | setNotNull | dropNotNull | setOptions | dropOptions
  | addConstraint | dropConstraint | alterConstraint | renameColumn | renameConstraint | setOption
  | addPolicy | replacePolicy | dropPolicy
deriving DecidableEq, Repr

/-- What a statement does: it creates or drops an object, or does something to a named part of a table. -/
inductive Deed where
  | create (x : Obj)
  | drop (x : Obj)
  | part (table : Str) (v : Verb) (name : Option Str)
deriving DecidableEq, Repr

/-- What a statement does; `part` says it for alterations of a table. -/
def deedOf {T I A N : Type} (o : Ops T I A N) (part : A → Verb × Option Str) : Stmt T I A N → Deed
  | .createTable t => .create (.table (o.tableName t).diffStr)
  | .createIndex i => .create (.index (o.nDiffStr (o.indexName i)))
  | .dropTable _ _ n => .drop (.table n.diffStr)
  | .dropIndex _ _ n => .drop (.index (o.nDiffStr n))
  | .alterTable a => .part (o.alterName a).diffStr (part a).1 (part a).2

/-- What a statement defines; `inline t` are the names of the indexes declared inside the table `t`. -/
def objects {T I A N : Type} (o : Ops T I A N) (inline : T → List Str) : Stmt T I A N → List Obj
  | .createTable t => .table (o.tableName t).diffStr :: (inline t).map Obj.index
  | .createIndex i => [.index (o.nDiffStr (o.indexName i))]
  | _ => []

/-- The tables defined by statements. -/
def tableDefs {T I A N : Type} (l : List (Stmt T I A N)) : List T :=
  l.filterMap fun
    | .createTable t => some t
    | _ => none

/-- No table and no index is defined twice, indexes declared inside tables included. -/
def DistinctIndexes {T I A N : Type} (o : Ops T I A N) (inline : T → List Str) (l : List (Stmt T I A N)) : Prop :=
  (l.flatMap (objects o inline)).Nodup

end Ddl.Spec

namespace Ddl
open Spec
set_option autoImplicit false

/-- What an alteration of a table does to which part. -/
def Pg.deedPart (a : Pg.AlterTable) : Verb × Option Str :=
  match a.action with
  | .renameTable _ => (.rename, none)
  | .renameConstraint n _ => (.renameConstraint, some n.name)
  | .renameColumn n _ => (.renameColumn, some n.name)
  | .addColumn c => (.addColumn, some c.name.name)
  | .dropColumn n => (.dropColumn, some n.name)
  | .setDataType n _ => (.setType, some n.name)
  | .setDefault n _ => (.setDefault, some n.name)
  | .dropDefault n => (.dropDefault, some n.name)
  | .setNotNull n => (.setNotNull, some n.name)
  | .dropNotNull n => (.dropNotNull, some n.name)
  | .addConstraint c _ => (.addConstraint, some c.name.name)
  | .dropConstraint n => (.dropConstraint, some n.name)
  | .alterConstraint n _ _ => (.alterConstraint, some n.name)

/-- What an alteration of a table does to which part. -/
def Crdb.deedPart (a : Crdb.AlterTable) : Verb × Option Str :=
  match a.action with
  | .renameTable _ => (.rename, none)
  | .renameConstraint n _ => (.renameConstraint, some n.name)
  | .renameColumn n _ => (.renameColumn, some n.name)
  | .addColumn c => (.addColumn, some c.name.name)
  | .dropColumn n => (.dropColumn, some n.name)
  | .setDataType n _ => (.setType, some n.name)
  | .setDefault n _ => (.setDefault, some n.name)
  | .dropDefault n => (.dropDefault, some n.name)
  | .setNotNull n => (.setNotNull, some n.name)
  | .dropNotNull n => (.dropNotNull, some n.name)
  | .addConstraint c _ => (.addConstraint, some c.name.name)
  | .dropConstraint n => (.dropConstraint, some n.name)
  | .alterConstraint n _ _ => (.alterConstraint, some n.name)

/-- What an alteration of a table does to which part. -/
def My.deedPart (a : My.AlterTable) : Verb × Option Str :=
  match a.action with
  | .renameTable _ => (.rename, none)
  | .renameConstraint n _ => (.renameConstraint, some n.name)
  | .renameColumn n _ => (.renameColumn, some n.name)
  | .addColumn c => (.addColumn, some c.name.name)
  | .dropColumn n => (.dropColumn, some n.name)
  | .modifyColumn m => (.setType, some m.name.name)
  | .dropDefault n => (.dropDefault, some n.name)
  | .addConstraint c _ => (.addConstraint, some c.name.name)
  | .dropConstraint n => (.dropConstraint, some n.name)
  | .alterConstraint n _ _ => (.alterConstraint, some n.name)
  | .tableOption o => (.setOption, some o.name)

/-- What an alteration of a table does to which part. -/
def Sp.deedPart (a : Sp.AlterTable) : Verb × Option Str :=
  match a.action with
  | .renameTable _ => (.rename, none)
  | .renameConstraint n _ => (.renameConstraint, some n.name)
  | .renameColumn n _ => (.renameColumn, some n.name)
  | .addColumn c => (.addColumn, some c.name.name)
  | .dropColumn n => (.dropColumn, some n.name)
  | .alterDataType n _ _ => (.setType, some n.name)
  | .setDefault n _ => (.setDefault, some n.name)
  | .dropDefault n => (.dropDefault, some n.name)
  | .setOptions n _ => (.setOptions, some n.name)
  | .dropOptions n => (.dropOptions, some n.name)
  | .addConstraint c _ => (.addConstraint, c.name.map Ident.name)
  | .dropConstraint n => (.dropConstraint, n.map Ident.name)
  | .alterConstraint n _ _ => (.alterConstraint, some n.name)
  | .addRowDeletionPolicy _ => (.addPolicy, none)
  | .replaceRowDeletionPolicy _ => (.replacePolicy, none)
  | .dropRowDeletionPolicy => (.dropPolicy, none)

/-- The names of the indexes among constraints. -/
def Crdb.indexNames (l : List Crdb.Constraint) : List Str :=
  l.filterMap fun
    | .index n .. => some n.name
    | _ => none

/-- The names of the indexes among constraints. -/
def My.indexNames (l : List My.Constraint) : List Str :=
  l.filterMap fun
    | .index n .. => some n.name
    | _ => none

/-- A constraint of the new table that is an index was one in the old table, if it was there. -/
def Crdb.KeepsIndexes (b a : List Crdb.CStmt) : Prop :=
  ∀ t ∈ tableDefs b, ∀ t' ∈ tableDefs a, t.name.diffStr = t'.name.diffStr →
    ∀ n ∈ indexNames t'.constraints, n ∈ t.constraints.map (·.name.name) → n ∈ indexNames t.constraints

/-- A constraint of the new table that is an index was one in the old table, if it was there. -/
def My.KeepsIndexes (b a : List My.MStmt) : Prop :=
  ∀ t ∈ tableDefs b, ∀ t' ∈ tableDefs a, t.name.diffStr = t'.name.diffStr →
    ∀ n ∈ indexNames t'.constraints, n ∈ t.constraints.map (·.name.name) → n ∈ indexNames t.constraints

end Ddl
