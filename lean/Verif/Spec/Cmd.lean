import Verif.Cmd

/-!
# What the commands should do
-/

namespace Ddl.Spec
open Ddl.Cmd

/-- The supported dialects. -/
def dialects : List Str := [s%"postgres", s%"cockroachdb", s%"mysql", s%"spanner"]

/-- The error for a dialect that is not supported. -/
def dialectErr (d : Str) : Err := if d = [] then .dialectIsEmpty else .notSupported

/-- The outcome of parsing both texts in the dialect and diffing them: `r` maps the result of `Diff`, with its printed form. -/
inductive Diffed (sd : Str → Str → Str) : Str → Str → Str → Res Str → Prop
  | pg (s1 s2 : Str) (b a : List Pg.PStmt) : Pg.parse s1 = .ok b → Pg.parse s2 = .ok a →
      Diffed sd s%"postgres" s1 s2 (diff (Pg.ops sd) (some b) (some a) >>= fun l => .ok (ddlStr (Pg.ops sd) l))
  | crdb (s1 s2 : Str) (b a : List Crdb.CStmt) : Crdb.parse s1 = .ok b → Crdb.parse s2 = .ok a →
      Diffed sd s%"cockroachdb" s1 s2 (diff (Crdb.ops sd) (some b) (some a) >>= fun l => .ok (ddlStr (Crdb.ops sd) l))
  | my (s1 s2 : Str) (b a : List My.MStmt) : My.parse s1 = .ok b → My.parse s2 = .ok a →
      Diffed sd s%"mysql" s1 s2 (diff (My.ops sd) (some b) (some a) >>= fun l => .ok (ddlStr (My.ops sd) l))
  | sp (s1 s2 : Str) (b a : List Sp.SStmt) : Sp.parse s1 = .ok b → Sp.parse s2 = .ok a →
      Diffed sd s%"spanner" s1 s2 (diff (Sp.ops sd) (some b) (some a) >>= fun l => .ok (ddlStr (Sp.ops sd) l))

/-- Nothing outside `Diff` reports `ErrNoDifference`. -/
structure Honest (w : World) : Prop where
  readFile : ∀ p, w.readFile p ≠ .err .noDifference
  parseGo : ∀ p, w.parseGo p ≠ .err .noDifference
  openDb : ∀ a b, w.openDb a b ≠ some .noDifference
  showTables : ∀ a b, w.showTables a b ≠ .err .noDifference
  closeDb : ∀ a, w.closeDb a ≠ some .noDifference
  write : ∀ a, w.write a ≠ some .noDifference

/-- Only the imported drivers (`pkg/ddlctl/import.go:4-6`) can be opened. -/
def RealDrivers (w : World) : Prop :=
  ∀ drv dsn, drv ∉ [s%"mysql", s%"spanner", s%"postgres"] → ∃ msg, w.openDb drv dsn = some (.other msg)

end Ddl.Spec
