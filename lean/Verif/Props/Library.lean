import Verif.Lemmas.Library
import Verif.Pg.Parser
import Verif.Crdb.Parser
import Verif.My.Parser
import Verif.Sp.Parser

/-! # The comparison of two tables as a function of the library: C74 and C75

`diffCreateTable sd nv b a` is `DiffCreateTable`; `nv` says whether the option `DiffCreateTableUseAlterTableAddConstraintNotValid(true)` is
given, and `sd` is `simplediff.Diff(a, b).String()`, arbitrary.  `notValid` and `movedName` are in `Verif/Spec/Library.lean`. -/

namespace Ddl.Props
open Ddl Spec
set_option autoImplicit false

/-! ## C74: the option NOT VALID -/

/-- C74 (PostgreSQL): with the option every added constraint is `NOT VALID`, without it none is, and the option changes nothing else: not
the other statements, not their order and not whether there is an error. In the text, ` NOT VALID` is put in front of the `;`. -/
theorem C74_postgres (sd : Str → Str → Str) (b a : Option Pg.CreateTable) :
    (∃ r : Res (List Pg.PStmt), ∀ nv, Pg.diffCreateTable sd nv b a = r >>= fun l => .ok (l.map (Pg.notValid nv))) ∧
    ∀ c n k, ∃ p, (Pg.AlterTable.mk c n (.addConstraint k false)).str = p ++ s%";\n" ∧
      (Pg.AlterTable.mk c n (.addConstraint k true)).str = p ++ s%" NOT VALID;\n" := by
  refine ⟨⟨Pg.diffCreateTable sd false b a, fun nv => Pg.diff_notValid⟩, fun c n k => ?_⟩
  exact ⟨commentStr c ++ s%"ALTER TABLE " ++ n.str ++ s%" " ++ (s%"ADD " ++ k.str),
    by simp [Pg.AlterTable.str, Pg.Action.str], by simp [Pg.AlterTable.str, Pg.Action.str]⟩

set_option maxRecDepth 8000 in
example : ∃ t t' l l', Pg.parse s%"CREATE TABLE s.t (a INT NOT NULL, b TEXT, CONSTRAINT k FOREIGN KEY (a) REFERENCES x (y), CONSTRAINT gone FOREIGN KEY (b) REFERENCES x (z))" = .ok [.createTable t] ∧
    Pg.parse s%"CREATE TABLE u (a INT NOT NULL, c INT, CONSTRAINT k FOREIGN KEY (a, c) REFERENCES x (y, z), CONSTRAINT new FOREIGN KEY (c) REFERENCES x (z))" = .ok [.createTable t'] ∧
    Pg.diffCreateTable (fun _ _ => []) false (some t) (some t') = .ok l ∧
    Pg.diffCreateTable (fun _ _ => []) true (some t) (some t') = .ok l' ∧ l.length = 7 ∧
    (List.zip l l').countP (fun x => x.1 ≠ x.2) = 2 :=
  ⟨_, _, _, _, rfl, rfl, rfl, rfl, by decide +kernel, by decide +kernel⟩

/-- C74 (CockroachDB): with the option every added constraint is `NOT VALID`, without it none is, and the option changes nothing else: not
the other statements, not their order and not whether there is an error. In the text, ` NOT VALID` is put in front of the `;`. -/
theorem C74_cockroachdb (sd : Str → Str → Str) (b a : Option Crdb.CreateTable) :
    (∃ r : Res (List Crdb.CStmt), ∀ nv, Crdb.diffCreateTable sd nv b a = r >>= fun l => .ok (l.map (Crdb.notValid nv))) ∧
    ∀ c n k, ∃ p, (Crdb.AlterTable.mk c n (.addConstraint k false)).str = p ++ s%";\n" ∧
      (Crdb.AlterTable.mk c n (.addConstraint k true)).str = p ++ s%" NOT VALID;\n" := by
  refine ⟨⟨Crdb.diffCreateTable sd false b a, fun nv => Crdb.diff_notValid⟩, fun c n k => ?_⟩
  exact ⟨commentStr c ++ s%"ALTER TABLE " ++ n.str ++ s%" " ++ (s%"ADD " ++ k.str),
    by simp [Crdb.AlterTable.str, Crdb.Action.str], by simp [Crdb.AlterTable.str, Crdb.Action.str]⟩

set_option maxRecDepth 8000 in
example : ∃ t t' l l', Crdb.parse s%"CREATE TABLE s.t (a INT NOT NULL, b TEXT, CONSTRAINT k FOREIGN KEY (a) REFERENCES x (y), CONSTRAINT gone FOREIGN KEY (b) REFERENCES x (z))" = .ok [.createTable t] ∧
    Crdb.parse s%"CREATE TABLE u (a INT NOT NULL, c INT, CONSTRAINT k FOREIGN KEY (a, c) REFERENCES x (y, z), CONSTRAINT new FOREIGN KEY (c) REFERENCES x (z))" = .ok [.createTable t'] ∧
    Crdb.diffCreateTable (fun _ _ => []) false (some t) (some t') = .ok l ∧
    Crdb.diffCreateTable (fun _ _ => []) true (some t) (some t') = .ok l' ∧ l.length = 7 ∧
    (List.zip l l').countP (fun x => x.1 ≠ x.2) = 2 :=
  ⟨_, _, _, _, rfl, rfl, rfl, rfl, by decide +kernel, by decide +kernel⟩

/-- C74 (MySQL): with the option every added constraint is `NOT VALID`, without it none is, and the option changes nothing else: not
the other statements, not their order and not whether there is an error. In the text, ` NOT VALID` is put in front of the `;`. -/
theorem C74_mysql (sd : Str → Str → Str) (b a : Option My.CreateTable) :
    (∃ r : Res (List My.MStmt), ∀ nv, My.diffCreateTable sd nv b a = r >>= fun l => .ok (l.map (My.notValid nv))) ∧
    ∀ c n k, ∃ p, (My.AlterTable.mk c n (.addConstraint k false)).str = p ++ s%";\n" ∧
      (My.AlterTable.mk c n (.addConstraint k true)).str = p ++ s%" NOT VALID;\n" := by
  refine ⟨⟨My.diffCreateTable sd false b a, fun nv => My.diff_notValid⟩, fun c n k => ?_⟩
  exact ⟨commentStr c ++ s%"ALTER TABLE " ++ n.str ++ s%" " ++ (s%"ADD " ++ k.str),
    by simp [My.AlterTable.str, My.Action.str], by simp [My.AlterTable.str, My.Action.str]⟩

set_option maxRecDepth 8000 in
example : ∃ t t' l l', My.parse s%"CREATE TABLE s.t (a INT NOT NULL, b TEXT, CONSTRAINT k FOREIGN KEY (a) REFERENCES x (y), CONSTRAINT gone CHECK (a > 0))" = .ok [.createTable t] ∧
    My.parse s%"CREATE TABLE u (a INT NOT NULL, c INT, CONSTRAINT k FOREIGN KEY (a, c) REFERENCES x (y, z), CONSTRAINT new CHECK (c > 0))" = .ok [.createTable t'] ∧
    My.diffCreateTable (fun _ _ => []) false (some t) (some t') = .ok l ∧
    My.diffCreateTable (fun _ _ => []) true (some t) (some t') = .ok l' ∧ l.length = 7 ∧
    (List.zip l l').countP (fun x => x.1 ≠ x.2) = 2 :=
  ⟨_, _, _, _, rfl, rfl, rfl, rfl, by decide +kernel, by decide +kernel⟩

/-- C74 (Spanner): with the option every added constraint is `NOT VALID`, without it none is, and the option changes nothing else: not
the other statements, not their order and not whether there is an error. In the text, ` NOT VALID` is put in front of the `;`. -/
theorem C74_spanner (sd : Str → Str → Str) (b a : Option Sp.CreateTable) :
    (∃ r : Res (List Sp.SStmt), ∀ nv, Sp.diffCreateTable sd nv b a = r >>= fun l => .ok (l.map (Sp.notValid nv))) ∧
    ∀ c n k, ∃ p, (Sp.AlterTable.mk c n (.addConstraint k false)).str = p ++ s%";\n" ∧
      (Sp.AlterTable.mk c n (.addConstraint k true)).str = p ++ s%" NOT VALID;\n" := by
  refine ⟨⟨Sp.diffCreateTable sd false b a, fun nv => Sp.diff_notValid⟩, fun c n k => ?_⟩
  exact ⟨commentStr c ++ s%"ALTER TABLE " ++ n.str ++ s%" " ++ (s%"ADD " ++ k.str),
    by simp [Sp.AlterTable.str, Sp.Action.str], by simp [Sp.AlterTable.str, Sp.Action.str]⟩

set_option maxRecDepth 8000 in
example : ∃ t t' l l', Sp.parse s%"CREATE TABLE s.t (a INT64 NOT NULL, b STRING(10), CONSTRAINT k FOREIGN KEY (a) REFERENCES x (y), CONSTRAINT gone CHECK (a > 0)) PRIMARY KEY (a)" = .ok [.createTable t] ∧
    Sp.parse s%"CREATE TABLE u (a INT64 NOT NULL, c INT64, CONSTRAINT k FOREIGN KEY (a, c) REFERENCES x (y, z), CONSTRAINT new CHECK (c > 0)) PRIMARY KEY (a)" = .ok [.createTable t'] ∧
    Sp.diffCreateTable (fun _ _ => []) false (some t) (some t') = .ok l ∧
    Sp.diffCreateTable (fun _ _ => []) true (some t) (some t') = .ok l' ∧ l.length = 7 ∧
    (List.zip l l').countP (fun x => x.1 ≠ x.2) = 2 :=
  ⟨_, _, _, _, rfl, rfl, rfl, rfl, by decide +kernel, by decide +kernel⟩

/-! ## C75: a table under another name is renamed first -/

/-- C75 (PostgreSQL): given two tables of different names that are printed differently, the first statement renames
the table, and the others are those for turning the renamed table into the new one. -/
theorem C75_postgres (sd : Str → Str → Str) (nv : Bool) {t t' : Pg.CreateTable} (hn : t.name.diffStr ≠ t'.name.diffStr) (hs : t.str ≠ t'.str) :
    ∃ rest, Pg.diffCreateTable sd nv (some t) (some t') =
        .ok (.alterTable ⟨sd t.name.diffStr (movedName t.name t'.name).diffStr, t.name, .renameTable (movedName t.name t'.name)⟩ :: rest) ∧
      (({ t with name := movedName t.name t'.name } : Pg.CreateTable).str ≠ ({ t' with name := movedName t.name t'.name } : Pg.CreateTable).str →
        Pg.diffCreateTable sd nv (some { t with name := movedName t.name t'.name }) (some { t' with name := movedName t.name t'.name }) =
          if rest.isEmpty then .err .noDifference else .ok rest) :=
  Pg.diff_rename hn hs

set_option maxRecDepth 8000 in
example : ∃ t t', Pg.parse s%"CREATE TABLE s.t (a INT NOT NULL, b TEXT, CONSTRAINT k FOREIGN KEY (a) REFERENCES x (y), CONSTRAINT gone FOREIGN KEY (b) REFERENCES x (z))" = .ok [.createTable t] ∧
    Pg.parse s%"CREATE TABLE u (a INT NOT NULL, c INT, CONSTRAINT k FOREIGN KEY (a, c) REFERENCES x (y, z), CONSTRAINT new FOREIGN KEY (c) REFERENCES x (z))" = .ok [.createTable t'] ∧
    t.name.diffStr ≠ t'.name.diffStr ∧ t.str ≠ t'.str ∧ (movedName t.name t'.name).str = s%"s.u" ∧
    ({ t with name := movedName t.name t'.name } : Pg.CreateTable).str ≠ ({ t' with name := movedName t.name t'.name } : Pg.CreateTable).str :=
  ⟨_, _, rfl, rfl, by decide +kernel, by decide +kernel, by decide +kernel, by decide +kernel⟩

/-- C75 (CockroachDB): given two tables of different names that are printed differently, the first statement renames
the table, and the others are those for turning the renamed table into the new one. -/
theorem C75_cockroachdb (sd : Str → Str → Str) (nv : Bool) {t t' : Crdb.CreateTable} (hn : t.name.diffStr ≠ t'.name.diffStr) (hs : t.str ≠ t'.str) :
    ∃ rest, Crdb.diffCreateTable sd nv (some t) (some t') =
        .ok (.alterTable ⟨sd t.name.diffStr (movedName t.name t'.name).diffStr, t.name, .renameTable (movedName t.name t'.name)⟩ :: rest) ∧
      (({ t with name := movedName t.name t'.name } : Crdb.CreateTable).str ≠ ({ t' with name := movedName t.name t'.name } : Crdb.CreateTable).str →
        Crdb.diffCreateTable sd nv (some { t with name := movedName t.name t'.name }) (some { t' with name := movedName t.name t'.name }) =
          if rest.isEmpty then .err .noDifference else .ok rest) :=
  Crdb.diff_rename hn hs

set_option maxRecDepth 8000 in
example : ∃ t t', Crdb.parse s%"CREATE TABLE s.t (a INT NOT NULL, b TEXT, CONSTRAINT k FOREIGN KEY (a) REFERENCES x (y), CONSTRAINT gone FOREIGN KEY (b) REFERENCES x (z))" = .ok [.createTable t] ∧
    Crdb.parse s%"CREATE TABLE u (a INT NOT NULL, c INT, CONSTRAINT k FOREIGN KEY (a, c) REFERENCES x (y, z), CONSTRAINT new FOREIGN KEY (c) REFERENCES x (z))" = .ok [.createTable t'] ∧
    t.name.diffStr ≠ t'.name.diffStr ∧ t.str ≠ t'.str ∧ (movedName t.name t'.name).str = s%"s.u" ∧
    ({ t with name := movedName t.name t'.name } : Crdb.CreateTable).str ≠ ({ t' with name := movedName t.name t'.name } : Crdb.CreateTable).str :=
  ⟨_, _, rfl, rfl, by decide +kernel, by decide +kernel, by decide +kernel, by decide +kernel⟩

/-- C75 (MySQL), partial: given two tables of different names that are printed differently, the first statement renames
the table, and the others are those for turning the renamed table into the new one. Missing: a table that is moved to another schema, see `C75_mysql_fails`. -/
theorem C75_mysql_partial (sd : Str → Str → Str) (nv : Bool) {t t' : My.CreateTable} (hn : t.name.diffStr ≠ t'.name.diffStr) (hs : t.str ≠ t'.str) :
    ∃ rest, My.diffCreateTable sd nv (some t) (some t') =
        .ok (.alterTable ⟨sd t.name.diffStr (movedName t.name t'.name).diffStr, t.name, .renameTable (movedName t.name t'.name)⟩ :: rest) ∧
      ((movedName t.name t'.name).schema = t.name.schema → ({ t with name := movedName t.name t'.name } : My.CreateTable).str ≠ ({ t' with name := movedName t.name t'.name } : My.CreateTable).str →
        My.diffCreateTable sd nv (some { t with name := movedName t.name t'.name }) (some { t' with name := movedName t.name t'.name }) =
          if rest.isEmpty then .err .noDifference else .ok rest) :=
  My.diff_rename hn hs

set_option maxRecDepth 8000 in
example : ∃ t t', My.parse s%"CREATE TABLE s.t (a INT NOT NULL, b TEXT, CONSTRAINT k FOREIGN KEY (a) REFERENCES x (y), CONSTRAINT gone CHECK (a > 0))" = .ok [.createTable t] ∧
    My.parse s%"CREATE TABLE u (a INT NOT NULL, c INT, CONSTRAINT k FOREIGN KEY (a, c) REFERENCES x (y, z), CONSTRAINT new CHECK (c > 0))" = .ok [.createTable t'] ∧
    t.name.diffStr ≠ t'.name.diffStr ∧ t.str ≠ t'.str ∧ (movedName t.name t'.name).str = s%"s.u" ∧
    ({ t with name := movedName t.name t'.name } : My.CreateTable).str ≠ ({ t' with name := movedName t.name t'.name } : My.CreateTable).str :=
  ⟨_, _, rfl, rfl, by decide +kernel, by decide +kernel, by decide +kernel, by decide +kernel⟩

set_option maxRecDepth 8000 in
/-- C75 is violated (MySQL): a table is moved to another schema, and one of its indexes is dropped. The statement names the index in the old
schema, where the table no longer is. -/
theorem C75_mysql_fails : ∃ t t' r, My.parse s%"CREATE TABLE s.t (a INT, INDEX i (a))" = .ok [.createTable t] ∧
    My.parse s%"CREATE TABLE r.t (a INT)" = .ok [.createTable t'] ∧
    (∀ sd, ∃ c c', My.diffCreateTable sd false (some t) (some t') = .ok [.alterTable ⟨c, t.name, .renameTable t'.name⟩, .dropIndex c' false r]) ∧
    r.str = s%"s.i" ∧ movedName t.name t'.name = t'.name ∧
    ∀ sd, ∃ c r', My.diffCreateTable sd false (some { t with name := t'.name }) (some t') = .ok [.dropIndex c false r'] ∧ r'.str = s%"r.i" :=
  ⟨_, _, _, rfl, rfl, fun _ => ⟨_, _, rfl⟩, by decide +kernel, by decide +kernel, fun _ => ⟨_, _, rfl, by decide +kernel⟩⟩

/-- C75 (Spanner), partial: given two tables of different names that are printed differently, if the options are the same (else the table is made anew), the first statement renames
the table, and the others are those for turning the renamed table into the new one. Missing: tables with an unnamed CHECK, see `C75_spanner_fails`. -/
theorem C75_spanner_partial (sd : Str → Str → Str) (nv : Bool) {t t' : Sp.CreateTable} (hb : ∀ c ∈ t.constraints, c.name ≠ none)
    (ha : ∀ c ∈ t'.constraints, c.name ≠ none) (ho : Sp.optionsDiffStr t.options = Sp.optionsDiffStr t'.options)
    (hn : t.name.diffStr ≠ t'.name.diffStr) (hs : t.str ≠ t'.str) :
    ∃ rest, Sp.diffCreateTable sd nv (some t) (some t') =
        .ok (.alterTable ⟨sd t.name.diffStr (movedName t.name t'.name).diffStr, t.name, .renameTable (movedName t.name t'.name)⟩ :: rest) ∧
      (({ t with name := movedName t.name t'.name } : Sp.CreateTable).str ≠ ({ t' with name := movedName t.name t'.name } : Sp.CreateTable).str →
        Sp.diffCreateTable sd nv (some { t with name := movedName t.name t'.name }) (some { t' with name := movedName t.name t'.name }) =
          if rest.isEmpty then .err .noDifference else .ok rest) :=
  Sp.diff_rename hb ha ho hn hs

set_option maxRecDepth 8000 in
example : ∃ t t', Sp.parse s%"CREATE TABLE s.t (a INT64 NOT NULL, b STRING(10), CONSTRAINT k FOREIGN KEY (a) REFERENCES x (y), CONSTRAINT gone CHECK (a > 0)) PRIMARY KEY (a)" = .ok [.createTable t] ∧
    Sp.parse s%"CREATE TABLE u (a INT64 NOT NULL, c INT64, CONSTRAINT k FOREIGN KEY (a, c) REFERENCES x (y, z), CONSTRAINT new CHECK (c > 0)) PRIMARY KEY (a)" = .ok [.createTable t'] ∧
    t.name.diffStr ≠ t'.name.diffStr ∧ t.str ≠ t'.str ∧ (movedName t.name t'.name).str = s%"s.u" ∧
    (∀ c ∈ t.constraints, c.name ≠ none) ∧ (∀ c ∈ t'.constraints, c.name ≠ none) ∧ Sp.optionsDiffStr t.options = Sp.optionsDiffStr t'.options ∧ ({ t with name := movedName t.name t'.name } : Sp.CreateTable).str ≠ ({ t' with name := movedName t.name t'.name } : Sp.CreateTable).str :=
  ⟨_, _, rfl, rfl, by decide +kernel, by decide +kernel, by decide +kernel, by decide +kernel, by decide +kernel, by decide +kernel, by decide +kernel⟩

set_option maxRecDepth 8000 in
/-- C75 is violated (Spanner): with an unnamed CHECK there is no answer but a crash. -/
theorem C75_spanner_fails : ∃ t t', Sp.parse s%"CREATE TABLE t (a INT64, CHECK (a > 0)) PRIMARY KEY (a)" = .ok [.createTable t] ∧
    Sp.parse s%"CREATE TABLE u (a INT64) PRIMARY KEY (a)" = .ok [.createTable t'] ∧
    ∀ sd, Sp.diffCreateTable sd false (some t) (some t') = .panic .nilDeref :=
  ⟨_, _, rfl, rfl, fun _ => rfl⟩

end Ddl.Props
