import Verif.Basic
import Verif.Ident

/-!
# MySQL: `ShowCreateAllTables` (`pkg/show/mysql/show_create_all_tables.go`)

The server is given by its answers to the texts of queries.  Line numbers are those of the file above.
-/

namespace Ddl.My.Show

/-- The server: what it answers to a query.  The error of a query is wrapped with its text (57, 71); the wrapping is not modelled. -/
structure Server where
  /-- for queries that select `TABLE_NAME`, one per row -/
  names : Str → Res (List Str)
  /-- for `SHOW CREATE TABLE`, the column `Create Table` of its row -/
  create : Str → Res Str

/-- `databaseQuoted`: 43-48; `db` is `cfg.database`, empty without the option. -/
def databaseQuoted (db : Str) : Str := if db ≠ [] then s%"`" ++ db ++ s%"`" else s%"database()"

/-- `tableNamesQuery`: 55. -/
def namesQuery (db : Str) : Str :=
  s%"SELECT TABLE_NAME FROM information_schema.TABLES WHERE TABLE_SCHEMA = " ++ databaseQuoted db

/-- `showCreateTableQuery`: 69. -/
def createQuery (table : Str) : Str := s%"SHOW CREATE TABLE `" ++ table ++ s%"`"

/-- The loop over the tables: 67-84. -/
def tableLines (s : Server) : List Str → Res Str
  | [] => .ok []
  | t :: r => do
    let a ← s.create (createQuery t)
    let b ← tableLines s r
    .ok (a ++ s%";\n" ++ b)

/-- `ShowCreateAllTables`: 35-87. -/
def showTables (s : Server) (db : Str) : Res Str := do
  let l ← s.names (namesQuery db)
  tableLines s l

end Ddl.My.Show
