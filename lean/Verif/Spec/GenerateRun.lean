import Verif.Spec.Cmd
import Verif.Spec.Extract
import Verif.Spec.Generate

/-!
# What a run of `generate` should leave behind
-/

namespace Ddl.Spec
open Ddl.Gen Ddl.Cmd
set_option autoImplicit false

/-- The statements annotated at the source: those of the file, which must have an annotation, or those of the Go files of the directory that
are no tests, in the order of the walk, where files without an annotation are left out. -/
def PathStmts (env : Gen.Env) : Path → List Gen.Stmt → Prop
  | .missing, _ => False
  | .file f, l => ¬ Unannotated env.ddlTag f ∧ parseFile env f = .ok l
  | .dir es, l =>
    (∀ e ∈ es, e ≠ .failed ∧ ∀ f, e = .file f → Eligible f.path → Unannotated env.ddlTag f ∨ ∃ l', parseFile env f = .ok l') ∧
    l = es.flatMap (contribution env)

/-- The printer that belongs to a dialect. -/
def printers : List (Str × Flavor) :=
  [(s%"postgres", .postgres), (s%"cockroachdb", .postgres), (s%"mysql", .mysql), (s%"spanner", .spanner)]

/-- The text of a generated file: a note, and the statements, each behind an empty line. -/
def generated (short : Str → Str) (f : Flavor) (l : List Gen.Stmt) : Str :=
  s%"-- Code generated by ddlctl. DO NOT EDIT.\n--\n" ++ l.flatMap (fun s => fprintStmt short f s%"    " s)

/-- Where `generate` writes to: a directory stands for a file in it. -/
def destination (w : World) (dst : Str) : Str := if w.isDir dst = true then w.joinPath dst s%"ddlctl.gen.sql" else dst

/-- The contents of the files behind a run of `generate` (`none`: no such file). -/
def filesAfter (files : Str → Option Str) (o : GenOut) (path : Str) : Option Str :=
  if o.emptied = some path then some o.out.writes.flatten else files path

/-- The surroundings behind a run of `generate`: the destination has become a file with the given text, the sources are the same. -/
structure Afterwards (w w' : World) (src file text : Str) : Prop where
  isFile : w'.isFile file = true
  readFile : w'.readFile file = .ok text
  parseGo : w'.parseGo src = w.parseGo src
  short : w'.short = w.short

end Ddl.Spec
