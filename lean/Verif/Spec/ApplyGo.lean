import Verif.Spec.Generate
import Verif.Cmd

/-!
# Specification: a directory of annotated Go sources
-/

namespace Ddl.Spec
open Ddl.Gen
set_option autoImplicit false

/-- `dir` is a directory of Go sources with the annotations `g`, which are complete SQL for the dialect, with a name for every table. -/
structure Annotated (w : Cmd.World) (language dir : Str) (d : Dialect) (f : Flavor) (g : DDL) : Prop where
  go : language = s%"go"
  notFile : w.isFile dir = false
  found : w.exists? dir = true
  parsed : w.parseGo dir = .ok g
  lines : ∀ x, OneLine (w.short x)
  indent : ∀ c ∈ g.indent, Blank c
  header : ∀ c ∈ g.header, OneLine c
  named : ∀ s ∈ g.stmts, Named s
  complete : ∀ s ∈ g.stmts, StmtOk d f s

end Ddl.Spec
