import Verif.Lemmas.Flavors

/-! # The dialects get the same generated DDL: C80

`SameButQuotes`, `SameTextResult` and `NoKeys` are in `Verif/Spec/Flavors.lean`. -/

namespace Ddl.Props
open Ddl Gen Spec
set_option autoImplicit false

/-- C80: what `generate` writes from the same annotations is the same text for PostgreSQL and CockroachDB, the same up to the quotes for MySQL, and for
Spanner the same as for MySQL if no table has a tagged key; or it fails in the same way. -/
theorem C80_generate (w : Cmd.World) (src language : Str) :
    Cmd.generateText w src s%"cockroachdb" language = Cmd.generateText w src s%"postgres" language ∧
    SameTextResult SameButQuotes (Cmd.generateText w src s%"postgres" language) (Cmd.generateText w src s%"mysql" language) ∧
    ((∀ d, w.parseGo src = .ok d → NoKeys d) → Cmd.generateText w src s%"spanner" language = Cmd.generateText w src s%"mysql" language) := by
  have hc (g : DDL) : Cmd.genText w s%"cockroachdb" g = .ok (fprint w.short .postgres g) := rfl
  have hp (g : DDL) : Cmd.genText w s%"postgres" g = .ok (fprint w.short .postgres g) := rfl
  have hm (g : DDL) : Cmd.genText w s%"mysql" g = .ok (fprint w.short .mysql g) := rfl
  have hs (g : DDL) : Cmd.genText w s%"spanner" g = .ok (fprint w.short .spanner g) := rfl
  simp only [Cmd.generateText, hc, hp, hm, hs, Cmd.parseLang]
  refine ⟨trivial, ?_, fun hk => ?_⟩
  · split
    · cases w.parseGo src with
      | ok d => exact fprint_sbq w.short d
      | _ => exact rfl
    · exact rfl
  · split
    · cases hd : w.parseGo src with
      | ok d => simp only [Res.ok_bind, fprint_spanner w.short (hk d hd)]
      | _ => rfl
    · rfl

private def keyedTable (key : List Str) : Table :=
  { sourceFile := s%"a.go", sourceLine := 3, comments := [s%"User is a user."]
    createTable := s%"CREATE TABLE users"
    columns := [⟨[], s%"id", s%"INTEGER NOT NULL"⟩, ⟨[s%"the name"], s%"name", s%"TEXT"⟩]
    constraints := [⟨[], s%"CHECK (id > 0)"⟩]
    options := []
    primaryKey := key }

private def keyedDdl (key : List Str) : DDL := newDDL [.table (keyedTable key)]

/-- A table with two columns and a key, in which the texts differ. -/
example : fprint id .postgres (keyedDdl [s%"id"]) = s%"-- Code generated by ddlctl. DO NOT EDIT.\n--\n\n-- source: a.go:3\n-- User is a user.\nCREATE TABLE users (\n    \"id\"   INTEGER NOT NULL,\n    -- the name\n    \"name\" TEXT,\n    PRIMARY KEY (\"id\"),\n    CHECK (id > 0)\n);\n" ∧
    fprint id .mysql (keyedDdl [s%"id"]) = s%"-- Code generated by ddlctl. DO NOT EDIT.\n--\n\n-- source: a.go:3\n-- User is a user.\nCREATE TABLE users (\n    `id`   INTEGER NOT NULL,\n    -- the name\n    `name` TEXT,\n    PRIMARY KEY (`id`),\n    CHECK (id > 0)\n);\n" := by
  decide +kernel

/-- A table without a key. -/
example : NoKeys (keyedDdl []) ∧ (keyedDdl []).stmts.length = 1 :=
  ⟨fun t h => by simp only [keyedDdl, newDDL, List.mem_singleton, Gen.Stmt.table.injEq] at h; rw [h]; rfl, rfl⟩

/-- C80, the condition for Spanner is needed: the key of a table stands in another place, as it must in Spanner. -/
example : fprint id .spanner (keyedDdl [s%"id"]) ≠ fprint id .mysql (keyedDdl [s%"id"]) := by decide +kernel

end Ddl.Props
