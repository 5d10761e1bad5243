import Mathlib.Data.List.Forall2
import Verif.Pg.Ast
import Verif.Crdb.Ast
import Verif.My.Ast
import Verif.Sp.Ast

/-!
# Specification vocabulary for table diffs: what each statement does to columns and constraints

Only the constructors of the statements are looked at.
-/

namespace Ddl.Spec

/-- What a statement does inside a table; `C` are column definitions, `K` constraint definitions. -/
inductive Step (C K : Type) where
  | dropColumn (name : Str)
  | addColumn (c : C)
  | alterColumn (name : Str)
  | dropConstraint (name : Str)
  | addConstraint (k : K)
  | other
deriving DecidableEq, Repr

variable {C K : Type}

/-- The column a step drops. -/
def Step.droppedColumn : Step C K → Option Str
  | .dropColumn n => some n
  | _ => none

/-- The column a step adds. -/
def Step.addedColumn : Step C K → Option C
  | .addColumn c => some c
  | _ => none

/-- The column a step alters in place. -/
def Step.alteredColumn : Step C K → Option Str
  | .alterColumn n => some n
  | _ => none

/-- The constraint a step drops. -/
def Step.droppedConstraint : Step C K → Option Str
  | .dropConstraint n => some n
  | _ => none

/-- The constraint a step adds. -/
def Step.addedConstraint : Step C K → Option K
  | .addConstraint k => some k
  | _ => none

/-- The place of a step in a well-ordered table migration: first drop the constraints that go away, then drop and alter columns,
then add columns, then replace constraints that stay, then add new constraints.
`before`, `after` are the constraint names on the two sides. -/
def Step.phase (kn : K → Str) (before after : List Str) : Step C K → Option Nat
  | .dropConstraint n => some (if n ∈ after then 3 else 0)
  | .dropColumn _ => some 1
  | .alterColumn _ => some 1
  | .addColumn _ => some 2
  | .addConstraint k => some (if kn k ∈ before then 3 else 4)
  | .other => none

/-- The columns dropped are exactly those that are gone (and not hidden), in order; the columns added are exactly the new ones,
in order and as defined in `ca`; only columns on both sides are altered. -/
def ColumnsExact (cn : C → Str) (hidden : C → Bool) (cb ca : List C) (st : List (Step C K)) : Prop :=
  st.filterMap Step.droppedColumn = ((cb.filter (fun c => !hidden c)).map cn).filter (fun n => n ∉ ca.map cn) ∧
  st.filterMap Step.addedColumn = ca.filter (fun c => cn c ∉ cb.map cn) ∧
  ∀ n ∈ st.filterMap Step.alteredColumn, n ∈ cb.map cn ∧ n ∈ ca.map cn

/-- A constraint that is gone is dropped, a new one added (and not dropped), only constraints of `ka` are added, and a constraint
on both sides is dropped iff it is added again. -/
def ConstraintsExact (kn : K → Str) (kb ka : List K) (st : List (Step C K)) : Prop :=
  (∀ n, n ∉ ka.map kn → (.dropConstraint n ∈ st ↔ n ∈ kb.map kn)) ∧
  (∀ k, .addConstraint k ∈ st → k ∈ ka) ∧
  ((ka.map kn).Nodup → ∀ k ∈ ka, kn k ∉ kb.map kn → .addConstraint k ∈ st ∧ .dropConstraint (kn k) ∉ st) ∧
  (∀ n, n ∈ kb.map kn → n ∈ ka.map kn → (.dropConstraint n ∈ st ↔ ∃ k, kn k = n ∧ .addConstraint k ∈ st))

/-- The steps come in the order of `Step.phase`. -/
def StepsOrdered (kn : K → Str) (kb ka : List K) (st : List (Step C K)) : Prop :=
  (st.filterMap (Step.phase kn (kb.map kn) (ka.map kn))).Pairwise (· ≤ ·)

end Ddl.Spec

namespace Ddl
open Spec

/-- PostgreSQL statements as steps. -/
def Pg.step : PStmt → Step Pg.Column Pg.Constraint
  | .alterTable a => match a.action with
    | .dropColumn n => .dropColumn n.name
    | .addColumn c => .addColumn c
    | .setDataType n _ | .setDefault n _ | .dropDefault n | .setNotNull n | .dropNotNull n => .alterColumn n.name
    | .dropConstraint n => .dropConstraint n.name
    | .addConstraint k _ => .addConstraint k
    | _ => .other
  | _ => .other

/-- CockroachDB statements as steps; indexes declared in a table count as constraints, as in the syntax tree. -/
def Crdb.step : CStmt → Step Crdb.Column Crdb.Constraint
  | .alterTable a => match a.action with
    | .dropColumn n => .dropColumn n.name
    | .addColumn c => .addColumn c
    | .setDataType n _ | .setDefault n _ | .dropDefault n | .setNotNull n | .dropNotNull n => .alterColumn n.name
    | .dropConstraint n => .dropConstraint n.name
    | .addConstraint k _ => .addConstraint k
    | _ => .other
  | .dropIndex _ _ n => .dropConstraint n.name
  | .createIndex i => .addConstraint (.index i.name i.isUnique i.usingPre i.columns i.usingPost)
  | _ => .other

/-- A hidden computed column, as CockroachDB adds it for hash-sharded indexes: `NOT VISIBLE ... VIRTUAL`. -/
def Crdb.hidden (c : Crdb.Column) : Bool := c.notVisible && c.as_.any (fun a => a.type = some .VIRTUAL)

/-- MySQL statements as steps; indexes declared in a table count as constraints, as in the syntax tree. -/
def My.step : MStmt → Step My.Column My.Constraint
  | .alterTable a => match a.action with
    | .dropColumn n => .dropColumn n.name
    | .addColumn c => .addColumn c
    | .modifyColumn m => .alterColumn m.name.name
    | .dropDefault n => .alterColumn n.name
    | .dropConstraint n => .dropConstraint n.name
    | .addConstraint k _ => .addConstraint k
    | _ => .other
  | .dropIndex _ _ n => .dropConstraint n.name.name
  | .createIndex i => .addConstraint (.index i.name.name i.isUnique i.columns)
  | _ => .other

/-- Spanner statements as steps. -/
def Sp.step : SStmt → Step Sp.Column Sp.Constraint
  | .alterTable a => match a.action with
    | .dropColumn n => .dropColumn n.name
    | .addColumn c => .addColumn c
    | .alterDataType n _ _ | .setDefault n _ | .dropDefault n | .setOptions n _ | .dropOptions n => .alterColumn n.name
    | .dropConstraint (some n) => .dropConstraint n.name
    | .addConstraint k _ => .addConstraint k
    | _ => .other
  | _ => .other

/-- The name of a Spanner constraint, empty for a nameless check. -/
def Sp.Constraint.key (k : Sp.Constraint) : Str := (k.name.map Ident.name).getD []

/-- Table options of Spanner that mean the same: same option names and the same texts up to quoting. -/
def Sp.SameOptions (l r : List Sp.TableOption) : Prop :=
  List.Forall₂ (fun a b => a.name = b.name ∧ a.value.map Ident.name = b.value.map Ident.name) l r

end Ddl
