import Verif.Sp.Diff
import Verif.Pg.Diff
import Verif.My.Diff
import Verif.Crdb.Diff
import Verif.Spec.Db
import Verif.Spec.Tame
import Verif.Spec.Schema
import Verif.Spec.SchemaCrdb
import Verif.Spec.SchemaMy

/-!
# Specification: going from schema to schema, and back
-/

namespace Ddl.Spec
set_option autoImplicit false

/-- The diff from the schema `b` to the schema `a`, executed on the database `d`, works and gives `d'`; if there is no difference, nothing
is executed. -/
def Migrates {S T I A N : Type} (o : Ops T I A N) (run : S → List (Stmt T I A N) → S → Prop) (b a : List (Stmt T I A N)) (d d' : S) : Prop :=
  (∃ l, diff o (some b) (some a) = .ok l ∧ run d l d') ∨ (diff o (some b) (some a) = .err .noDifference ∧ d = d')

/-- The migration from `b` to `a` works on `d`, and the migration from `a` to `b` leads from its result back to `d`, and only there. -/
def Undone {S T I A N : Type} (o : Ops T I A N) (run : S → List (Stmt T I A N) → S → Prop) (b a : List (Stmt T I A N)) (d : S) : Prop :=
  (∃ d', Migrates o run b a d d') ∧ ∀ d', Migrates o run b a d d' → ∀ e, Migrates o run a b d' e ↔ e = d

/-- Going from `b` to `m` and then to `a` gives what going from `b` to `a` gives. -/
def AnyPath {S T I A N : Type} (o : Ops T I A N) (run : S → List (Stmt T I A N) → S → Prop) (b m a : List (Stmt T I A N)) (d : S) : Prop :=
  ∀ e, (∃ d', Migrates o run b m d d' ∧ Migrates o run m a d' e) ↔ Migrates o run b a d e

end Ddl.Spec

namespace Ddl.Pg.Db
open Spec
set_option autoImplicit false

/-- The schema is read from a text, is tame, has no object twice, and gives that database. -/
structure Known (sd : Str → Str → Str) (b : List PStmt) (B : Catalog) : Prop where
  read : ∃ s, ReadFrom s b
  tame : TameSchema b
  distinct : DistinctObjects (ops sd) b
  run : Execs empty b B

end Ddl.Pg.Db

namespace Ddl.Crdb.Run
open Spec
set_option autoImplicit false

/-- The schema consists of CREATE statements, is tame, has no object twice, and gives that database. -/
structure Known (sd : Str → Str → Str) (b : List CStmt) (B : Db) : Prop where
  creates : CreateOnly (ops sd) b
  distinct : DistinctObjects (ops sd) b
  tame : TameSchema b
  run : Runs Exec Db.empty b B

/-- The changes from `b` to `a` are such that the migration works. -/
structure Way (sd : Str → Str → Str) (b a : List CStmt) : Prop where
  told : Told (ops sd) b a
  schemas : SameSchemas (ops sd) b a
  hazard : NoSchemaHazard b a

end Ddl.Crdb.Run

namespace Ddl.My.Run
open Spec
set_option autoImplicit false

/-- The schema consists of CREATE statements, is tame, has no object twice, and gives that database. -/
structure Known (sd : Str → Str → Str) (b : List MStmt) (B : Db) : Prop where
  creates : CreateOnly (ops sd) b
  distinct : DistinctObjects (ops sd) b
  tame : TameSchema b
  run : Runs Exec Db.empty b B

/-- The changes from `b` to `a` are such that the migration works. -/
structure Way (sd : Str → Str → Str) (b a : List MStmt) : Prop where
  told : Told (ops sd) b a
  schemas : SameSchemas (ops sd) b a
  hazard : NoSchemaHazard b a

end Ddl.My.Run

namespace Ddl.Sp.Run
open Spec
set_option autoImplicit false

/-- The schema consists of CREATE statements, is tame, has no object twice, and gives that database. -/
structure Known (sd : Str → Str → Str) (b : List SStmt) (B : Db) : Prop where
  creates : CreateOnly (ops sd) b
  distinct : DistinctObjects (ops sd) b
  tame : TameSchema b
  run : Runs Exec Db.empty b B

/-- The changes from `b` to `a` are such that the migration works. -/
structure Way (sd : Str → Str → Str) (b a : List SStmt) : Prop where
  told : Told (ops sd) b a
  schemas : SameSchemas (ops sd) b a
  hazard : NoSchemaHazard b a

end Ddl.Sp.Run
