import Verif.Lemmas.Options
import Verif.Pg.Parser
import Verif.Crdb.Parser
import Verif.My.Parser
import Verif.Sp.Parser

/-! # Attributes of columns, foreign keys and tables: C31-C34

`sd` is `simplediff.Diff(a, b).String()`, arbitrary.  The vocabulary is in `Verif/Spec/Attr.lean`. -/

set_option autoImplicit false

namespace Ddl.Props
open Ddl Spec
open Ddl.Pg (PStmt)
open Ddl.Crdb (CStmt)
open Ddl.My (MStmt)
open Ddl.Sp (SStmt)

variable {sd : Str → Str → Str}

/-- The first table of a text, for examples. -/
private def firstTable {T I A N : Type} (dflt : T) : Res (List (Stmt T I A N)) → T
  | .ok (.createTable t :: _) => t
  | _ => dflt

private def noTable {E : Type} (f : ObjectName → E) : E := f ⟨none, ⟨[], [], []⟩⟩

private def pgT (s : Str) : Pg.CreateTable := firstTable (noTable fun n => ⟨[], false, n, [], [], []⟩) (Pg.parse s)
private def crT (s : Str) : Crdb.CreateTable := firstTable (noTable fun n => ⟨[], false, n, [], [], []⟩) (Crdb.parse s)
private def myT (s : Str) : My.CreateTable := firstTable (noTable fun n => ⟨[], false, n, [], [], []⟩) (My.parse s)

/-! ## C31 -/

/-- C31, partial: whatever the two tables, running the emitted statements on a kept column gives it all attributes of the new
definition, provided the new definition has no CHARACTER SET.  `l` is the list of emitted statements, empty if there is no difference.
The column definitions are `Plain`: arguments are separated by commas and contain none, default words contain no blank.
Missing: a new CHARACTER SET, see `C31_charset_fails`; and tables whose texts coincide, for which nothing is compared. -/
theorem C31_complete_partial {nv : Bool} {t t' : My.CreateTable} {l : List MStmt}
    (h : My.diffCreateTable sd nv (some t) (some t') = .ok l ∨
      My.diffCreateTable sd nv (some t) (some t') = .err .noDifference ∧ t.str ≠ t'.str ∧ l = [])
    (hd : (t.columns.map (·.name.name)).Nodup) (hd' : (t'.columns.map (·.name.name)).Nodup)
    {c c' : My.Column} (hc : c ∈ t.columns) (hc' : c' ∈ t'.columns) (hn : c.name.name = c'.name.name)
    (hp : c.Plain) (hp' : c'.Plain) (hcs : My.optName c'.characterSet = []) :
    My.SameColumn (l.foldl (My.runColumn c.name.name) c) c' := by
  rw [My.foldl_runColumn' h hd hd' hc hc' hn]
  exact My.sameColumn_runAlter hn hp hp' hcs

private def myOld : My.CreateTable := myT s%"CREATE TABLE t (a INT, b VARCHAR(10,2) COLLATE x DEFAULT 'p', c INT);"
private def myNew : My.CreateTable := myT s%"CREATE TABLE t (a BIGINT AUTO_INCREMENT, b VARCHAR(20) COLLATE y NOT NULL, c INT DEFAULT 5);"

example : (match My.diffCreateTable (fun _ _ => []) false (some myOld) (some myNew) with
    | .ok l => some (l.map (stmtStr (My.ops (fun _ _ => []))))
    | _ => none) = some [s%"ALTER TABLE t MODIFY a BIGINT NULL AUTO_INCREMENT;\n",
      s%"ALTER TABLE t MODIFY b VARCHAR(20) COLLATE y NOT NULL;\n", s%"ALTER TABLE t ALTER b DROP DEFAULT;\n",
      s%"ALTER TABLE t MODIFY c INT NULL DEFAULT 5;\n"] := by decide +kernel

example : (∀ c ∈ myOld.columns ++ myNew.columns, c.Plain ∧ My.optName c.characterSet = []) ∧
    (myOld.columns.map (·.name.name)).Nodup ∧ (myNew.columns.map (·.name.name)).Nodup ∧ myOld.columns.length = 3 := by
  refine ⟨?_, by decide +kernel, by decide +kernel, by decide +kernel⟩
  have hx : ∀ c ∈ myOld.columns ++ myNew.columns, (c.dataType.expr.map Ident.name ∈ [[], [s%"10", s%",", s%"2"], [s%"20"]] ∧
      (∀ w ∈ c.defaultWords.getD [], w ≠ [] ∧ ' ' ∉ w)) ∧ My.optName c.characterSet = [] := by decide +kernel
  intro c hc
  refine ⟨⟨?_, (hx c hc).1.2⟩, (hx c hc).2⟩
  have := (hx c hc).1.1
  simp only [List.mem_cons, List.not_mem_nil, or_false] at this
  rcases this with h | h | h <;> rw [h]
  · exact ⟨[], rfl, by simp⟩
  · exact ⟨[s%"10", s%"2"], rfl, by decide⟩
  · exact ⟨[s%"20"], rfl, by decide⟩

/-- C31, the text: every attribute of a MODIFY is printed. -/
theorem C31_printed (m : My.Modify) :
    s%"MODIFY " ++ m.name.str ++ s%" " ++ m.dataType.str <:+: m.str ∧
    (∀ i, m.characterSet = some i → s%" CHARACTER SET " ++ i.str <:+: m.str) ∧
    (∀ i, m.collate = some i → s%" COLLATE " ++ i.str <:+: m.str) ∧
    ((if m.notNull then s%" NOT NULL" else s%" NULL") <:+: m.str) ∧
    (m.autoIncrement → s%" AUTO_INCREMENT" <:+: m.str) ∧
    (∀ e, m.default = some ⟨some e⟩ → s%" DEFAULT " ++ My.exprStr e <:+: m.str) ∧
    (m.onAction ≠ [] → s%" " ++ m.onAction <:+: m.str) ∧
    (m.comment ≠ [] → s%" COMMENT " ++ m.comment <:+: m.str) := by
  refine ⟨?_, fun i h => ?_, fun i h => ?_, ?_, fun h => ?_, fun e h => ?_,
    fun h => ?_, fun h => ?_⟩
  · exact My.modify_clause (List.mem_cons_self ..)
  · exact My.modify_clause (by simp [h, My.identStr])
  · exact My.modify_clause (by simp [h, My.identStr])
  · exact My.modify_clause (by simp)
  · exact My.modify_clause (by simp [h])
  · exact My.modify_clause (by simp [h, My.defaultStr])
  · exact My.modify_clause (by simp [h])
  · exact My.modify_clause (by simp [h])

example : (My.Modify.mk ⟨s%"a", [], s%"a"⟩ ⟨s%"INT", .INTEGER, []⟩ (some ⟨s%"utf8", [], s%"utf8"⟩) (some ⟨s%"x", [], s%"x"⟩) true true
    (some ⟨some [⟨s%"1", [], s%"1"⟩]⟩) s%"ON UPDATE y" s%"'c'").str =
    s%"MODIFY a INT CHARACTER SET utf8 COLLATE x NOT NULL AUTO_INCREMENT DEFAULT 1 ON UPDATE y COMMENT 'c'" := by decide

/-- C31 fails for character sets: whenever the new definition of a kept column names another character set, the statements do not give it
to the column. -/
theorem C31_charset_fails {nv : Bool} {t t' : My.CreateTable} {l : List MStmt}
    (h : My.diffCreateTable sd nv (some t) (some t') = .ok l ∨
      My.diffCreateTable sd nv (some t) (some t') = .err .noDifference ∧ t.str ≠ t'.str ∧ l = [])
    (hd : (t.columns.map (·.name.name)).Nodup) (hd' : (t'.columns.map (·.name.name)).Nodup)
    {c c' : My.Column} (hc : c ∈ t.columns) (hc' : c' ∈ t'.columns) (hn : c.name.name = c'.name.name)
    (hne : My.optName c.characterSet ≠ My.optName c'.characterSet) (hcs : My.optName c'.characterSet ≠ []) :
    My.optName (l.foldl (My.runColumn c.name.name) c).characterSet ≠ My.optName c'.characterSet := by
  rw [My.foldl_runColumn' h hd hd' hc hc' hn, My.charset_runAlter hne]
  exact hcs.symm

/-- The witness: the character set of a column changes, the statement does not mention it. -/
example : (match My.diffCreateTable (fun _ _ => []) false (some (myT s%"CREATE TABLE t (a TEXT CHARACTER SET latin1);"))
      (some (myT s%"CREATE TABLE t (a TEXT CHARACTER SET utf8);")) with
    | .ok l => some (l.map (stmtStr (My.ops (fun _ _ => []))))
    | _ => none) = some [s%"ALTER TABLE t MODIFY a TEXT NULL;\n"] := by decide +kernel

/-! ## C32 -/

/-- C32, PostgreSQL: if two tables differ in the actions of one foreign key only, the diff drops the constraint and adds it with the new
actions, and does nothing else. -/
theorem C32_postgres {nv : Bool} {t : Pg.CreateTable} {p s : List Pg.Constraint} {n r : Ident} {cs rcs : List Ident}
    {act act' : Str} (hcd : (t.columns.map (·.name.name)).Nodup)
    (hd : ((p ++ .foreignKey n cs r rcs act :: s).map (·.name.name)).Nodup) (h : act ≠ act') :
    Pg.diffCreateTable sd nv (some { t with constraints := p ++ .foreignKey n cs r rcs act :: s })
      (some { t with constraints := p ++ .foreignKey n cs r rcs act' :: s }) =
    .ok [.alterTable ⟨sd (Pg.Constraint.foreignKey n cs r rcs act).str [], t.name, .dropConstraint n⟩,
      .alterTable ⟨sd [] (Pg.Constraint.foreignKey n cs r rcs act').str, t.name, .addConstraint (.foreignKey n cs r rcs act') nv⟩] := by
  have hs := Pg.fk_str_ne (n := n) (cs := cs) (r := r) (rcs := rcs) h
  have hne := Pg.fk_diffStr_ne (n := n) (cs := cs) (r := r) (rcs := rcs) h rfl
  rw [Pg.diffTable_oneConstraint (k' := .foreignKey n cs r rcs act') hcd hd rfl hs hne]
  simp [Pg.replaceConstraints, Pg.findConstraint, Pg.Constraint.name, hne]

/-- C32, PostgreSQL: whatever else changes, a kept foreign key whose actions change is dropped and added again. -/
theorem C32_postgres_replaced {nv : Bool} {t t' : Pg.CreateTable} {l : List PStmt}
    (h : Pg.diffCreateTable sd nv (some t) (some t') = .ok l) (hd' : (t'.constraints.map (·.name.name)).Nodup)
    {n n' r r' : Ident} {cs cs' rcs rcs' : List Ident} {act act' : Str}
    (hk : .foreignKey n cs r rcs act ∈ t.constraints) (hk' : .foreignKey n' cs' r' rcs' act' ∈ t'.constraints)
    (hb : (Pg.Constraint.foreignKey n cs r rcs act').bare = (Pg.Constraint.foreignKey n' cs' r' rcs' act').bare) (hne : act ≠ act') :
    ∃ c₁ c₂ tn, [.alterTable ⟨c₁, tn, .dropConstraint n⟩,
      .alterTable ⟨c₂, tn, .addConstraint (.foreignKey n' cs' r' rcs' act') nv⟩] <:+: l := by
  have hne' := Pg.fk_diffStr_ne hne hb
  have hn : n.name = n'.name := (Pg.Constraint.diffStr_of_bare hb).2
  have hf : Pg.findConstraint n.name t'.constraints = some (.foreignKey n' cs' r' rcs' act') := by
    rw [hn]
    exact find?_of_nodup (f := fun c : Pg.Constraint => c.name.name) hd' hk'
  obtain ⟨rfl, -, -⟩ := Pg.diffTable_ok h
  refine ⟨sd (Pg.Constraint.foreignKey n cs r rcs act).str [], sd [] (Pg.Constraint.foreignKey n' cs' r' rcs' act').str,
    Pg.renamedName t.name t'.name, ?_⟩
  obtain ⟨p, s, e⟩ := Pg.replaceConstraints_infix (sd := sd) (nv := nv) (tn := Pg.renamedName t.name t'.name) hk hf hne'
  refine ⟨(Pg.renameTable sd t.name t'.name ++ Pg.dropConstraints sd (Pg.renamedName t.name t'.name) t.constraints t'.constraints ++
      Pg.diffColumns sd (Pg.renamedName t.name t'.name) t.columns t'.columns ++ p).map Stmt.alterTable,
    (s ++ Pg.addConstraints sd nv (Pg.renamedName t.name t'.name) t.constraints t'.constraints).map Stmt.alterTable, ?_⟩
  rw [← e]
  simp [Pg.Constraint.name]

private def pgFk (a : Str) : Pg.CreateTable :=
  pgT (s%"CREATE TABLE t (a INT REFERENCES u (x) " ++ a ++ s%", b INT UNIQUE);")

example : (match Pg.diffCreateTable (fun _ _ => []) false (some (pgFk s%"ON DELETE CASCADE")) (some (pgFk s%"ON DELETE NO ACTION")) with
    | .ok l => some (l.map (stmtStr (Pg.ops (fun _ _ => []))))
    | _ => none) = some [s%"ALTER TABLE t DROP CONSTRAINT t_a_fkey;\n",
      s%"ALTER TABLE t ADD CONSTRAINT t_a_fkey FOREIGN KEY (a) REFERENCES u (x) ON DELETE NO ACTION;\n"] := by decide +kernel

example : ((pgFk s%"ON DELETE CASCADE").constraints.map (·.name.name)).Nodup ∧
    ((pgFk []).constraints.map (·.name.name)).Nodup ∧ (pgFk []).constraints.length = 2 := by decide +kernel

/-- C32, CockroachDB: if two tables differ in the actions of one foreign key only, the diff drops the constraint and adds it with the new
actions, and does nothing else. -/
theorem C32_cockroachdb {nv : Bool} {t : Crdb.CreateTable} {p s : List Crdb.Constraint} {n r : Ident} {cs rcs : List Crdb.ColumnIdent}
    {act act' : Str} (hcd : (t.columns.map (·.name.name)).Nodup)
    (hd : ((p ++ .foreignKey n cs r rcs act :: s).map (·.name.name)).Nodup) (h : act ≠ act') :
    Crdb.diffCreateTable sd nv (some { t with constraints := p ++ .foreignKey n cs r rcs act :: s })
      (some { t with constraints := p ++ .foreignKey n cs r rcs act' :: s }) =
    .ok [.alterTable ⟨sd (Crdb.Constraint.foreignKey n cs r rcs act).str [], t.name, .dropConstraint n⟩,
      .alterTable ⟨sd [] (Crdb.Constraint.foreignKey n cs r rcs act').str, t.name, .addConstraint (.foreignKey n cs r rcs act') nv⟩] := by
  have hs := Crdb.fk_str_ne (n := n) (cs := cs) (r := r) (rcs := rcs) h
  have hne := Crdb.fk_diffStr_ne (n := n) (cs := cs) (r := r) (rcs := rcs) h rfl
  rw [Crdb.diffTable_oneConstraint (k' := .foreignKey n cs r rcs act') hcd hd rfl hs hne]
  simp [Crdb.replaceConstraints, Crdb.findConstraint, Crdb.Constraint.name, hne]

/-- C32, CockroachDB: whatever else changes, a kept foreign key whose actions change is dropped and added again. -/
theorem C32_cockroachdb_replaced {nv : Bool} {t t' : Crdb.CreateTable} {l : List CStmt}
    (h : Crdb.diffCreateTable sd nv (some t) (some t') = .ok l) (hd' : (t'.constraints.map (·.name.name)).Nodup)
    {n n' r r' : Ident} {cs cs' rcs rcs' : List Crdb.ColumnIdent} {act act' : Str}
    (hk : .foreignKey n cs r rcs act ∈ t.constraints) (hk' : .foreignKey n' cs' r' rcs' act' ∈ t'.constraints)
    (hb : (Crdb.Constraint.foreignKey n cs r rcs act').bare = (Crdb.Constraint.foreignKey n' cs' r' rcs' act').bare) (hne : act ≠ act') :
    ∃ c₁ c₂ tn, [.alterTable ⟨c₁, tn, .dropConstraint n⟩,
      .alterTable ⟨c₂, tn, .addConstraint (.foreignKey n' cs' r' rcs' act') nv⟩] <:+: l := by
  have hne' := Crdb.fk_diffStr_ne hne hb
  have hn : n.name = n'.name := (Crdb.Constraint.diffStr_of_bare hb).2
  have hf : Crdb.findConstraint n.name t'.constraints = some (.foreignKey n' cs' r' rcs' act') := by
    rw [hn]
    exact find?_of_nodup (f := fun c : Crdb.Constraint => c.name.name) hd' hk'
  obtain ⟨rfl, -, -⟩ := Crdb.diffTable_ok h
  refine ⟨sd (Crdb.Constraint.foreignKey n cs r rcs act).str [], sd [] (Crdb.Constraint.foreignKey n' cs' r' rcs' act').str,
    Crdb.renamedName t.name t'.name, ?_⟩
  refine (Crdb.replaceConstraints_infix hk hf hne').trans ?_
  exact ⟨_, _, rfl⟩

private def crFk (a : Str) : Crdb.CreateTable :=
  crT (s%"CREATE TABLE t (a INT REFERENCES u (x) " ++ a ++ s%", INDEX i (a));")

example : (match Crdb.diffCreateTable (fun _ _ => []) false (some (crFk s%"ON DELETE CASCADE")) (some (crFk s%"ON UPDATE CASCADE")) with
    | .ok l => some (l.map (stmtStr (Crdb.ops (fun _ _ => []))))
    | _ => none) = some [s%"ALTER TABLE t DROP CONSTRAINT t_a_fkey;\n",
      s%"ALTER TABLE t ADD CONSTRAINT t_a_fkey FOREIGN KEY (a) REFERENCES u (x) ON UPDATE CASCADE;\n"] := by decide +kernel

/-- C32 fails for MySQL: whatever the tables, a change of the actions alone is never a difference; the actions are not even printed. -/
theorem C32_mysql_fails {nv : Bool} {t : My.CreateTable} {p s : List My.Constraint} {n r : Ident} {cs rcs : List My.ColumnIdent}
    {act act' : Str} :
    My.diffCreateTable sd nv (some { t with constraints := p ++ .foreignKey n cs r rcs act :: s })
      (some { t with constraints := p ++ .foreignKey n cs r rcs act' :: s }) = .err .noDifference := by
  have : ({ t with constraints := p ++ .foreignKey n cs r rcs act :: s } : My.CreateTable).str =
      ({ t with constraints := p ++ .foreignKey n cs r rcs act' :: s } : My.CreateTable).str := by
    simp [My.CreateTable.str, My.Constraint.str]
  simp only [My.diffCreateTable, this, if_true]

private def myFk (a : Str) : My.CreateTable :=
  myT (s%"CREATE TABLE t (a INT, CONSTRAINT k FOREIGN KEY (a) REFERENCES u (x) " ++ a ++ s%");")

/-- The witness: both tables parse, their foreign keys have different actions, there is no difference. -/
example : (myFk s%"ON DELETE CASCADE").constraints ≠ (myFk s%"ON DELETE NO ACTION").constraints ∧
    My.diffCreateTable (fun _ _ => []) false (some (myFk s%"ON DELETE CASCADE")) (some (myFk s%"ON DELETE NO ACTION")) =
      .err .noDifference := by decide +kernel

/-! ## C33 -/

/-- C33, PostgreSQL: wherever a word in the default of a column becomes the literal with the same text, or the other way round, the diff is
exactly one SET DEFAULT with the new default. -/
theorem C33_postgres {nv : Bool} {t : Pg.CreateTable} {p s : List Pg.Column} {c : Pg.Column} {e f : Expr} {x : Str} (hx : IsWord x)
    (hkd : (t.constraints.map (·.name.name)).Nodup) (hd : ((p ++ c :: s).map (·.name.name)).Nodup) :
    let cw := { c with default := some ⟨some (e ++ newRawIdent .postgres x :: f)⟩ }
    let cl := { c with default := some ⟨some (e ++ newRawIdent .postgres (quoted x) :: f)⟩ }
    Pg.diffCreateTable sd nv (some { t with columns := p ++ cw :: s }) (some { t with columns := p ++ cl :: s }) =
      .ok [.alterTable ⟨sd cw.str cl.str, t.name, .setDefault c.name cl.default⟩] ∧
    Pg.diffCreateTable sd nv (some { t with columns := p ++ cl :: s }) (some { t with columns := p ++ cw :: s }) =
      .ok [.alterTable ⟨sd cl.str cw.str, t.name, .setDefault c.name cw.default⟩] := by
  have hq : x ≠ quoted x := by
    intro h
    have := congrArg List.length h
    simp [quoted] at this
    omega
  have ho := Pg.ordinary_word hx
  have ho' := Pg.ordinary_quoted x
  simp only [word_ident .postgres hx, pg_quoted_ident .postgres (by simp)]
  constructor
  · have ha := Pg.alterColumn_default (sd := sd) (tn := t.name) (c := c) (p := e) (s := f) (i := ⟨x, [], x⟩) (j := ⟨quoted x, [], quoted x⟩) hq
    have hs := Pg.columnStr_default_ne (c := c) (p := e) (s := f) (i := ⟨x, [], x⟩) (j := ⟨quoted x, [], quoted x⟩) ho ho' hq
    have := Pg.diffTable_oneColumn (sd := sd) (nv := nv) (p := p) (s := s) (c := { c with default := some ⟨some (e ++ ⟨x, [], x⟩ :: f)⟩ })
      (c' := { c with default := some ⟨some (e ++ ⟨quoted x, [], quoted x⟩ :: f)⟩ }) hkd (by simpa using hd) rfl hs (by rw [ha]; simp)
    rw [ha] at this
    exact this
  · have ha := Pg.alterColumn_default (sd := sd) (tn := t.name) (c := c) (p := e) (s := f) (j := ⟨x, [], x⟩) (i := ⟨quoted x, [], quoted x⟩) hq.symm
    have hs := Pg.columnStr_default_ne (c := c) (p := e) (s := f) (j := ⟨x, [], x⟩) (i := ⟨quoted x, [], quoted x⟩) ho' ho hq.symm
    have := Pg.diffTable_oneColumn (sd := sd) (nv := nv) (p := p) (s := s) (c := { c with default := some ⟨some (e ++ ⟨quoted x, [], quoted x⟩ :: f)⟩ })
      (c' := { c with default := some ⟨some (e ++ ⟨x, [], x⟩ :: f)⟩ }) hkd (by simpa using hd) rfl hs (by rw [ha]; simp)
    rw [ha] at this
    exact this

example : IsWord s%"null" ∧ IsWord s%"5" := by constructor <;> exact ⟨by decide, by decide⟩

example : (match Pg.diffCreateTable (fun _ _ => []) false (some (pgT s%"CREATE TABLE t (a TEXT DEFAULT x, b INT);"))
      (some (pgT s%"CREATE TABLE t (a TEXT DEFAULT 'x', b INT);")) with
    | .ok l => some (l.map (stmtStr (Pg.ops (fun _ _ => []))))
    | _ => none) = some [s%"ALTER TABLE t ALTER COLUMN a SET DEFAULT 'x';\n"] := by decide +kernel

/-- C33, CockroachDB: wherever a word in the default of a column becomes the literal with the same text, or the other way round, the diff is
exactly one SET DEFAULT with the new default. -/
theorem C33_cockroachdb {nv : Bool} {t : Crdb.CreateTable} {p s : List Crdb.Column} {c : Crdb.Column} {e f : Expr} {x : Str} (hx : IsWord x)
    (hkd : (t.constraints.map (·.name.name)).Nodup) (hd : ((p ++ c :: s).map (·.name.name)).Nodup) :
    let cw := { c with default := some ⟨some (e ++ newRawIdent .cockroachdb x :: f)⟩ }
    let cl := { c with default := some ⟨some (e ++ newRawIdent .cockroachdb (quoted x) :: f)⟩ }
    Crdb.diffCreateTable sd nv (some { t with columns := p ++ cw :: s }) (some { t with columns := p ++ cl :: s }) =
      .ok [.alterTable ⟨sd cw.str cl.str, t.name, .setDefault c.name cl.default⟩] ∧
    Crdb.diffCreateTable sd nv (some { t with columns := p ++ cl :: s }) (some { t with columns := p ++ cw :: s }) =
      .ok [.alterTable ⟨sd cl.str cw.str, t.name, .setDefault c.name cw.default⟩] := by
  have hq : x ≠ quoted x := by
    intro h
    have := congrArg List.length h
    simp [quoted] at this
    omega
  have ho := Crdb.ordinary_word hx
  have ho' := Crdb.ordinary_quoted x
  simp only [word_ident .cockroachdb hx, pg_quoted_ident .cockroachdb (by simp)]
  constructor
  · have ha := Crdb.alterColumn_default (sd := sd) (tn := t.name) (c := c) (p := e) (s := f) (i := ⟨x, [], x⟩) (j := ⟨quoted x, [], quoted x⟩) hq
    have hs := Crdb.columnStr_default_ne (c := c) (p := e) (s := f) (i := ⟨x, [], x⟩) (j := ⟨quoted x, [], quoted x⟩) ho ho' hq
    have := Crdb.diffTable_oneColumn (sd := sd) (nv := nv) (p := p) (s := s) (c := { c with default := some ⟨some (e ++ ⟨x, [], x⟩ :: f)⟩ })
      (c' := { c with default := some ⟨some (e ++ ⟨quoted x, [], quoted x⟩ :: f)⟩ }) hkd (by simpa using hd) rfl hs (by rw [ha]; simp)
    rw [ha] at this
    exact this
  · have ha := Crdb.alterColumn_default (sd := sd) (tn := t.name) (c := c) (p := e) (s := f) (j := ⟨x, [], x⟩) (i := ⟨quoted x, [], quoted x⟩) hq.symm
    have hs := Crdb.columnStr_default_ne (c := c) (p := e) (s := f) (j := ⟨x, [], x⟩) (i := ⟨quoted x, [], quoted x⟩) ho' ho hq.symm
    have := Crdb.diffTable_oneColumn (sd := sd) (nv := nv) (p := p) (s := s) (c := { c with default := some ⟨some (e ++ ⟨quoted x, [], quoted x⟩ :: f)⟩ })
      (c' := { c with default := some ⟨some (e ++ ⟨x, [], x⟩ :: f)⟩ }) hkd (by simpa using hd) rfl hs (by rw [ha]; simp)
    rw [ha] at this
    exact this

/-- C33 fails for MySQL: whatever the table, a default that changes between a word and the literal with the same text is never a difference. -/
theorem C33_mysql_fails {nv : Bool} {t : My.CreateTable} {p s : List My.Column} {c : My.Column} {e f : Expr} {x : Str} (hx : IsWord x)
    (hd : My.DistinctNames { t with columns := p ++ c :: s }) :
    let cw := { c with default := some ⟨some (e ++ newRawIdent .mysql x :: f)⟩ }
    let cl := { c with default := some ⟨some (e ++ newRawIdent .mysql (quoted x) :: f)⟩ }
    My.diffCreateTable sd nv (some { t with columns := p ++ cw :: s }) (some { t with columns := p ++ cl :: s }) =
      .err .noDifference := by
  intro cw cl
  have hb : cw.bare = cl.bare := by
    simp [cw, cl, My.Column.bare, My.Default.bare, word_ident .mysql hx, my_quoted_ident .mysql (by simp) hx, Ident.bare]
  refine My.diffTable_same ?_ ⟨rfl, ?_, fun _ => Iff.rfl, fun _ => Iff.rfl⟩
  · refine ⟨?_, hd.2⟩
    simpa [cl] using hd.1
  · simp only [List.map_append, List.map_cons, hb]
    exact fun _ => Iff.rfl

/-- The witness: both texts parse to different tables, there is no difference. -/
example : (myT s%"CREATE TABLE t (a TEXT DEFAULT NULL);").columns ≠ (myT s%"CREATE TABLE t (a TEXT DEFAULT 'NULL');").columns ∧
    My.diffCreateTable (fun _ _ => []) false (some (myT s%"CREATE TABLE t (a TEXT DEFAULT NULL);"))
      (some (myT s%"CREATE TABLE t (a TEXT DEFAULT 'NULL');")) = .err .noDifference := by decide +kernel

/-- C33 fails for Spanner: whatever the table, a default that changes between a word and the literal with the same text is never a difference. -/
theorem C33_spanner_fails {nv : Bool} {t : Sp.CreateTable} {p s : List Sp.Column} {c : Sp.Column} {e f : Expr} {x : Str} (hx : IsWord x)
    (hd : Sp.DistinctNames { t with columns := p ++ c :: s }) :
    let cw := { c with default := some ⟨some (e ++ newRawIdent .spanner x :: f)⟩ }
    let cl := { c with default := some ⟨some (e ++ newRawIdent .spanner (quoted x) :: f)⟩ }
    Sp.diffCreateTable sd nv (some { t with columns := p ++ cw :: s }) (some { t with columns := p ++ cl :: s }) =
      .err .noDifference := by
  intro cw cl
  have hb : cw.bare = cl.bare := by
    simp [cw, cl, Sp.Column.bare, Sp.Default.bare, word_ident .spanner hx, my_quoted_ident .spanner (by simp) hx, Ident.bare]
  refine Sp.diffTable_same ?_ ⟨rfl, ?_, fun _ => Iff.rfl, rfl, rfl⟩
  · refine ⟨?_, hd.2⟩
    simpa [cl] using hd.1
  · simp only [List.map_append, List.map_cons, hb]
    exact fun _ => Iff.rfl

/-! ## C34 -/

/-- C34: tables that agree in everything but the AUTO_INCREMENT option have no difference. -/
theorem C34_auto_increment {nv : Bool} {t t' : My.CreateTable} (hd : My.DistinctNames t') (h : My.SameBody t t')
    (ho : SameElems ((My.countless t.options).map My.TableOption.bare) ((My.countless t'.options).map My.TableOption.bare)) :
    My.diffCreateTable sd nv (some t) (some t') = .err .noDifference :=
  My.diffTable_countless hd h ho

private def myOpt (o : Str) : My.CreateTable := myT (s%"CREATE TABLE t (a INT, b INT, INDEX i (b)) " ++ o ++ s%";")

example : My.SameBody (myOpt s%"ENGINE=x AUTO_INCREMENT=5") (myOpt s%"AUTO_INCREMENT=7 ENGINE='x'") ∧
    (myOpt s%"ENGINE=x AUTO_INCREMENT=5").options ≠ (myOpt s%"AUTO_INCREMENT=7 ENGINE='x'").options ∧
    (My.countless (myOpt s%"ENGINE=x AUTO_INCREMENT=5").options).map My.TableOption.bare =
      (My.countless (myOpt s%"AUTO_INCREMENT=7 ENGINE='x'").options).map My.TableOption.bare ∧
    My.DistinctNames (myOpt s%"AUTO_INCREMENT=7 ENGINE='x'") := by
  have h1 : (myOpt s%"ENGINE=x AUTO_INCREMENT=5").columns = (myOpt s%"AUTO_INCREMENT=7 ENGINE='x'").columns := by decide +kernel
  have h2 : (myOpt s%"ENGINE=x AUTO_INCREMENT=5").constraints = (myOpt s%"AUTO_INCREMENT=7 ENGINE='x'").constraints := by decide +kernel
  refine ⟨⟨by decide +kernel, ?_, ?_⟩, by decide +kernel, by decide +kernel, by constructor <;> decide +kernel⟩
  · rw [h1]; exact fun _ => Iff.rfl
  · rw [h2]; exact fun _ => Iff.rfl

/-- C34: whatever else changes, the emitted statements set exactly those options of the new table that are not AUTO_INCREMENT and that the
old table does not have with the same value, each exactly once. -/
theorem C34_options {nv : Bool} {t t' : My.CreateTable} {l : List MStmt}
    (h : My.diffCreateTable sd nv (some t) (some t') = .ok l)
    (hd : (t.options.map (·.name)).Nodup) (hd' : (t'.options.map (·.name)).Nodup)
    (hp : ∀ o ∈ t.options, o.Parsed) (hp' : ∀ o ∈ t'.options, o.Parsed) :
    (∀ o, o ∈ l.filterMap My.setsOption ↔
      o ∈ t'.options ∧ o.name ≠ s%"AUTO_INCREMENT" ∧ o.bare ∉ t.options.map My.TableOption.bare) ∧
    ((l.filterMap My.setsOption).map (·.name)).Nodup := by
  rw [My.sets_diffTable h]
  exact ⟨fun o => My.mem_sets hd' hp hp' hd, My.sets_nodup hd hd'⟩

/-- C34: one option changes its value and nothing else changes. -/
theorem C34_changed {nv : Bool} {t : My.CreateTable} {p s : List My.TableOption} {o o' : My.TableOption}
    (hc : (t.columns.map (·.name.name)).Nodup) (hk : (t.constraints.map (·.name.name)).Nodup)
    (hd : ((p ++ o :: s).map (·.name)).Nodup) (hn : o.name = o'.name) (ho : o.Parsed) (ho' : o'.Parsed) (hne : o.bare ≠ o'.bare)
    (hai : o.name ≠ s%"AUTO_INCREMENT") :
    My.diffCreateTable sd nv (some { t with options := p ++ o :: s }) (some { t with options := p ++ o' :: s }) =
      .ok [.alterTable ⟨sd o.str o'.str, t.name, .tableOption o'⟩] :=
  My.diffTable_optionChanged hc hk hd hn ho ho' hne hai

/-- C34: one option is added and nothing else changes. -/
theorem C34_added {nv : Bool} {t : My.CreateTable} {p s : List My.TableOption} {o : My.TableOption}
    (hc : (t.columns.map (·.name.name)).Nodup) (hk : (t.constraints.map (·.name.name)).Nodup)
    (hd : ((p ++ o :: s).map (·.name)).Nodup) (ho : o.Parsed) (hai : o.name ≠ s%"AUTO_INCREMENT") :
    My.diffCreateTable sd nv (some { t with options := p ++ s }) (some { t with options := p ++ o :: s }) =
      .ok [.alterTable ⟨sd [] o.str, t.name, .tableOption o⟩] :=
  My.diffTable_optionAdded hc hk hd ho hai

example : ∀ o ∈ (myOpt s%"ENGINE=x AUTO_INCREMENT=5 DEFAULT CHARSET=utf8 COLLATE=y COMMENT='z z'").options, o.Parsed := by
  have : (myOpt s%"ENGINE=x AUTO_INCREMENT=5 DEFAULT CHARSET=utf8 COLLATE=y COMMENT='z z'").options =
    [⟨s%"ENGINE", [newRawIdent .mysql s%"x"]⟩, ⟨s%"AUTO_INCREMENT", [newRawIdent .mysql s%"5"]⟩,
      ⟨s%"DEFAULT CHARSET", [newRawIdent .mysql s%"utf8"]⟩, ⟨s%"COLLATE", [newRawIdent .mysql s%"y"]⟩,
      ⟨s%"COMMENT", [newRawIdent .mysql s%"'z z'"]⟩] := by decide +kernel
  rw [this]
  intro o ho
  simp only [List.mem_cons, List.not_mem_nil, or_false] at ho
  rcases ho with rfl | rfl | rfl | rfl | rfl <;> exact ⟨by decide, _, rfl⟩

example : (match My.diffCreateTable (fun _ _ => []) false (some (myOpt s%"ENGINE=x AUTO_INCREMENT=5"))
      (some (myOpt s%"ENGINE=y COMMENT='a b' AUTO_INCREMENT=9")) with
    | .ok l => some (l.map (stmtStr (My.ops (fun _ _ => []))))
    | _ => none) = some [s%"ALTER TABLE t ENGINE=y;\n", s%"ALTER TABLE t COMMENT='a b';\n"] := by decide +kernel

end Ddl.Props
