import Verif.My.Show
import Verif.Crdb.Show
import Verif.Spec.Lex

/-!
# Specification vocabulary: servers that print their tables themselves

MySQL and CockroachDB have statements that print the definition of a table.
-/

namespace Ddl.Spec

/-- The text can be followed by other text: its quotes are closed, it does not end within a comment, and the byte 0 does not occur. -/
def Whole (d : Dialect) (s : Str) : Prop := (∃ ts, Writes d false s ts) ∧ ∀ c ∈ s, c ≠ nul

end Ddl.Spec

namespace Ddl.My.Show

/-- A name in backquotes: a backquote within the name is written twice. -/
def quoted (s : Str) : Str := s%"`" ++ (s.flatMap fun c => if c = '`' then s%"``" else [c]) ++ s%"`"

/-- The current database of the server has these tables: their names, and the statements that `SHOW CREATE TABLE` prints. -/
structure Holds (s : Server) (db : List (Str × Str)) : Prop where
  names : s.names s%"SELECT TABLE_NAME FROM information_schema.TABLES WHERE TABLE_SCHEMA = database()" = .ok (db.map (·.1))
  create : ∀ t ∈ db, s.create (s%"SHOW CREATE TABLE " ++ quoted t.1) = .ok t.2
  /-- there is nothing to show for what is not the name of a table -/
  refuse : ∀ q, (∀ t ∈ db, q ≠ s%"SHOW CREATE TABLE " ++ quoted t.1) → ∃ e, s.create q = .err e

/-- The server with these tables. -/
def server (db : List (Str × Str)) : Server where
  names := fun _ => .ok (db.map (·.1))
  create := fun q => match db.find? fun t => q = s%"SHOW CREATE TABLE " ++ quoted t.1 with
    | some t => .ok t.2
    | none => .err (.other s%"no such table")

end Ddl.My.Show
