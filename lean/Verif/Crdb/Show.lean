import Verif.Basic
import Verif.Ident

/-!
# CockroachDB: `ShowCreateAllTables` (`pkg/show/cockroachdb/show_create_all_tables.go`)

Line numbers are those of the file above.
-/

namespace Ddl.Crdb.Show

/-- `ShowCreateAllTables`: 23-39; `rows` is the answer of the database to `SHOW CREATE ALL TABLES` (17-20), the column
`create_statement` of each row. -/
def showTables (rows : Res (List Str)) : Res Str := do
  let l ← rows
  .ok (l.flatMap fun r => r ++ s%"\n")

end Ddl.Crdb.Show
