import Verif.Spec.Cmd

/-!
# What a run of `show` should write
-/

namespace Ddl.Spec
open Ddl.Cmd
set_option autoImplicit false

/-- The drivers of the dialects. -/
def drivers : List (Str × Str) :=
  [(s%"postgres", s%"postgres"), (s%"cockroachdb", s%"postgres"), (s%"mysql", s%"mysql"), (s%"spanner", s%"spanner")]

/-- The schema of the database at `dsn` can be had: it is opened with the driver of the dialect, printed and closed. -/
def DbShows (w : World) (dialect dsn text : Str) : Prop :=
  ∃ driver, (dialect, driver) ∈ drivers ∧ w.openDb driver dsn = none ∧ w.showTables dialect dsn = .ok text ∧ w.closeDb dsn = none

/-- The argument is no path but the data source of a database, which is opened with the driver of the dialect, shown as `r` and closed. -/
structure ShownAs (w : World) (dialect arg : Str) (r : Res Str) : Prop where
  notFile : w.isFile arg = false
  notPath : w.exists? arg = false
  opened : ∃ driver, (dialect, driver) ∈ drivers ∧ w.openDb driver arg = none
  shown : w.showTables dialect arg = r
  closed : w.closeDb arg = none

end Ddl.Spec
