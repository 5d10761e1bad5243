import Verif.Lemmas.Shape
import Verif.Lemmas.Join
import Verif.Lemmas.TableOptions
import Verif.Pg.Parser
import Verif.Crdb.Parser
import Verif.My.Parser
import Verif.Sp.Parser

/-!
# Properties of `Diff` and `DiffCreateTable` in all dialects: C01, C02, C06-C09, C30, C38, C41

`sd` is `simplediff.Diff(a, b).String()`, arbitrary.  `diff (Pg.ops sd)` etc. is the dialect's `Diff`; the vocabulary
(`Defines`, `about`, `creates`, `drops`, steps) is in `Verif/Spec/Objects.lean` and `Verif/Spec/Steps.lean`.
-/

set_option autoImplicit false

namespace Ddl.Props
open Ddl Spec
open Ddl.Pg (PStmt)
open Ddl.Crdb (CStmt)
open Ddl.My (MStmt)
open Ddl.Sp (SStmt)

variable {sd : Str → Str → Str}

/-! ## Sample schemas for the non-vacuity examples -/

/-- The statements of a text, for examples. -/
private def okList {α : Type} : Res (List α) → List α
  | .ok l => l
  | _ => []

private def noSd : Str → Str → Str := fun _ _ => []

private def pgB : List PStmt := okList (Pg.parse s%"CREATE TABLE t (a INT, b INT UNIQUE); CREATE TABLE u (x INT); CREATE INDEX i ON t (a); CREATE TABLE k (z INT);")
private def pgA : List PStmt := okList (Pg.parse s%"CREATE TABLE t (a INT NOT NULL, c INT UNIQUE); CREATE TABLE v (x INT); CREATE INDEX i ON t (c); CREATE TABLE k (z INT);")
private def crB : List CStmt := okList (Crdb.parse s%"CREATE TABLE t (a INT, b INT, INDEX ib (b)); CREATE TABLE k (z INT);")
private def crA : List CStmt := okList (Crdb.parse s%"CREATE TABLE t (a INT NOT NULL, c INT, INDEX ic (c)); CREATE TABLE k (z INT);")
private def myB : List MStmt := okList (My.parse s%"CREATE TABLE t (a INT, b INT, INDEX ib (b)); CREATE TABLE k (z INT);")
private def myA : List MStmt := okList (My.parse s%"CREATE TABLE t (a INT NOT NULL, c INT, INDEX ic (c)); CREATE TABLE k (z INT);")
private def spB : List SStmt := okList (Sp.parse s%"CREATE TABLE t (a INT64, b INT64) PRIMARY KEY (a); CREATE TABLE k (z BOOL) PRIMARY KEY (z);")
private def spA : List SStmt := okList (Sp.parse s%"CREATE TABLE t (a INT64, b INT64) PRIMARY KEY (b); CREATE TABLE k (z BOOL) PRIMARY KEY (z);")

/-! ## C01 -/

/-- C01: a DDL compared with itself has no difference, in every dialect, for every list of statements whatsoever. -/
theorem C01_no_self_difference :
    (∀ d : List PStmt, diff (Pg.ops sd) (some d) (some d) = .err .noDifference) ∧
    (∀ d : List CStmt, diff (Crdb.ops sd) (some d) (some d) = .err .noDifference) ∧
    (∀ d : List MStmt, diff (My.ops sd) (some d) (some d) = .err .noDifference) ∧
    (∀ d : List SStmt, diff (Sp.ops sd) (some d) (some d) = .err .noDifference) := by
  refine ⟨?_, ?_, ?_, ?_⟩ <;> intro d <;> simp [diff]

example : pgB.length = 4 ∧ spB.length = 2 := by decide

/-! ## C02 -/

/-- C02: see `FromToNothing`; it holds for every dialect. -/
theorem C02_from_and_to_nothing :
    FromToNothing (Pg.ops sd) ∧ FromToNothing (Crdb.ops sd) ∧ FromToNothing (My.ops sd) ∧ FromToNothing (Sp.ops sd) :=
  ⟨fromToNothing _, fromToNothing _, fromToNothing _, fromToNothing _⟩

example : CreateOnly (Pg.ops noSd) pgB ∧ ¬ CreateOnly (Pg.ops noSd) (okList (diff (Pg.ops noSd) (some pgB) (some pgA))) := by
  unfold CreateOnly; decide

/-! ## C06 -/

/-- C06: `Diff` never drops a table that exists in `after`, and drops only tables of `before`
(PostgreSQL, CockroachDB, MySQL). -/
theorem C06_kept_table_not_dropped (x : Str) :
    (∀ b a r : List PStmt, diff (Pg.ops sd) (some b) (some a) = .ok r → (∃ s ∈ r, drops (Pg.ops sd) s = some (.table x)) →
      ¬ Defines (Pg.ops sd) a (.table x) ∧ Defines (Pg.ops sd) b (.table x)) ∧
    (∀ b a r : List CStmt, diff (Crdb.ops sd) (some b) (some a) = .ok r → (∃ s ∈ r, drops (Crdb.ops sd) s = some (.table x)) →
      ¬ Defines (Crdb.ops sd) a (.table x) ∧ Defines (Crdb.ops sd) b (.table x)) ∧
    (∀ b a r : List MStmt, diff (My.ops sd) (some b) (some a) = .ok r → (∃ s ∈ r, drops (My.ops sd) s = some (.table x)) →
      ¬ Defines (My.ops sd) a (.table x) ∧ Defines (My.ops sd) b (.table x)) :=
  ⟨fun _ _ _ h hx => diff_drops h (fun _ _ _ h => Pg.no_drops h) hx,
   fun _ _ _ h hx => diff_drops h (fun _ _ _ h => Crdb.no_drops h) hx,
   fun _ _ _ h hx => diff_drops h (fun _ _ _ h => My.no_drops h) hx⟩

/-- A diff that drops a table (u) and keeps others. -/
example : ∃ r, diff (Pg.ops noSd) (some pgB) (some pgA) = .ok r ∧
    (∃ s ∈ r, drops (Pg.ops noSd) s = some (.table s%"u")) ∧ ¬ ∃ s ∈ r, drops (Pg.ops noSd) s = some (.table s%"t") :=
  ⟨okList (diff (Pg.ops noSd) (some pgB) (some pgA)), by decide⟩

/-- C06 (Spanner): `Diff` drops only tables of `before`, and if it drops a table that is defined in `after`, then the options
(primary key, interleaving) differ between the two definitions and the very next statement creates the table as defined in
`after`. -/
theorem C06_spanner (b a r : List SStmt) (h : diff (Sp.ops sd) (some b) (some a) = .ok r) (p q : List SStmt) (c : Str)
    (ie : Bool) (n : ObjectName) (hr : r = p ++ .dropTable c ie n :: q) :
    Defines (Sp.ops sd) b (.table n.diffStr) ∧
      (Defines (Sp.ops sd) a (.table n.diffStr) →
        ∃ t t' q', .createTable t ∈ b ∧ .createTable t' ∈ a ∧ t.name = n ∧ t'.name.diffStr = n.diffStr ∧
          ¬ Sp.SameOptions t.options t'.options ∧ q = .createTable t' :: q') := by
  have hT : ∀ t t' l, .createTable t ∈ b → .createTable t' ∈ a → t.name.diffStr = t'.name.diffStr →
      (Sp.ops sd).diffTable t t' = .ok l → ∀ x ∈ l, TableDiffAbout (Sp.ops sd) (fun _ => []) t t' x :=
    fun t t' l _ _ hn hl => Sp.tableDiffAbout hn hl
  obtain ⟨ds, cs, rs, hd, rfl, hco, hrs, hr', _⟩ := diff_ok h
  constructor
  · obtain ⟨ds', cs', rest, hr'', h1, _, h3, _, h5⟩ := diff_phases h hT
    have hm : Stmt.dropTable c ie n ∈ r := by rw [hr]; simp
    rw [hr''] at hm
    simp only [List.mem_append] at hm
    rcases hm with (hm | hm) | hm
    · obtain ⟨k, hk, hb, _⟩ := h1 _ hm
      simp only [drops, Option.some.injEq] at hk
      subst hk; exact hb
    · obtain ⟨_, k, hk, _⟩ := h3 _ hm
      simp [creates] at hk
    · obtain ⟨k, hk, hb⟩ := h5 _ hm
      simp only [about, creates, drops, Option.some.injEq] at hk
      subst hk
      rcases hb with hb | ⟨_, _, _, hn, _⟩ | ⟨_, _, _, hn, _⟩
      · exact hb.1
      · simp at hn
      · simp at hn
  · intro hda
    have hF : Followed (fun x : SStmt => x = .dropTable c ie n)
        (fun _ y => ∃ t t', .createTable t ∈ b ∧ .createTable t' ∈ a ∧ t.name = n ∧ t'.name.diffStr = n.diffStr ∧
          ¬ Sp.SameOptions t.options t'.options ∧ y = .createTable t') r := by
      rw [hr']
      refine (Followed.append (Followed.of_not ?_) (Followed.of_not ?_)).append (Followed.flatten ?_)
      · rintro x hx rfl
        obtain ⟨s, hs, hds⟩ := forall₂_mem_right hd _ hx
        have hk : creates (Sp.ops sd) s = some (.table n.diffStr) := by
          rw [← isDropFor_drops hds]; rfl
        exact ((mem_onlyLeft hk).1 hs).2 hda
      · rintro x hx rfl
        have := hco _ hx
        simp [creates] at this
      · intro l hl
        obtain ⟨s, hs, hal⟩ := forall₂_mem_right hrs l hl
        rcases alterOf_ok hal with rfl | ⟨t, t', rfl, k1, k2, k3⟩ | ⟨i, i', rfl, k1, k2, k3, rfl⟩
        · exact Followed.of_not (by simp)
        · rcases Sp.diffTable_ok k3 with ⟨ho, rfl⟩ | ⟨_, _, _, _, _, _, _, _, _, rfl⟩
          · intro p x q he hx
            subst hx
            cases p with
            | nil =>
              simp only [List.nil_append, List.cons.injEq, Stmt.dropTable.injEq] at he
              obtain ⟨⟨_, _, rfl⟩, rfl⟩ := he
              exact ⟨_, [], rfl, t, t', hs, k1, rfl, k2.symm, fun h => ho (Sp.sameOptions_diffStr h), rfl⟩
            | cons y p =>
              cases p with
              | nil => simp at he
              | cons z p => simp at he
          · refine Followed.of_not (fun x hx he => ?_)
            obtain ⟨_, _, h⟩ := List.mem_map.1 hx
            rw [he] at h; cases h
        · exact Followed.of_not (by simp)
    obtain ⟨y, q', rfl, t, t', h1, h2, h3, h4, h5, rfl⟩ := hF p _ q hr rfl
    exact ⟨t, t', q', h1, h2, h3, h4, h5, rfl⟩

/-- The sample changes a primary key: the table is dropped and created again. -/
example : diff (Sp.ops noSd) (some spB) (some spA) =
    .ok (.dropTable [] false (newObjectName .spanner s%"t") :: spA.take 1) := by decide

/-! ## C07, C38, C41: columns and constraints inside one table -/

/-- The table named `n` of a list of statements, for examples. -/
private def tableOf {T I A N : Type} (o : Ops T I A N) (n : Str) (l : List (Stmt T I A N)) : Option T :=
  l.findSome? fun
    | .createTable t => if (o.tableName t).diffStr = n then some t else none
    | _ => none

/-- C07: in the alteration of a table the dropped columns are exactly the columns that are gone, the added columns exactly the new
ones, each once and in order; columns on both sides are only altered in place.  CockroachDB leaves hidden columns alone (C38).
In Spanner this holds unless the table is recreated (C30). -/
theorem C07_columns_exact {nv : Bool} :
    (∀ t t' l, Pg.diffCreateTable sd nv (some t) (some t') = .ok l →
      ColumnsExact (fun c => c.name.name) (fun _ => false) t.columns t'.columns (l.map Pg.step)) ∧
    (∀ t t' l, Crdb.diffCreateTable sd nv (some t) (some t') = .ok l →
      ColumnsExact (fun c => c.name.name) Crdb.hidden t.columns t'.columns (l.map Crdb.step)) ∧
    (∀ t t' l, My.diffCreateTable sd nv (some t) (some t') = .ok l →
      ColumnsExact (fun c => c.name.name) (fun _ => false) t.columns t'.columns (l.map My.step)) ∧
    (∀ t t' l, Sp.diffCreateTable sd nv (some t) (some t') = .ok l → (∀ s ∈ l, drops (Sp.ops sd) s = none) →
      ColumnsExact (fun c => c.name.name) (fun _ => false) t.columns t'.columns (l.map Sp.step)) :=
  ⟨fun _ _ _ h => (Pg.shape h).columnsExact, fun _ _ _ h => (Crdb.shape h).columnsExact,
   fun _ _ _ h => (My.shape h).columnsExact, fun _ _ _ h hn => (Sp.shape (Sp.not_recreated h hn) h).columnsExact⟩

/-- A table diff that drops, adds and alters columns. -/
example : ∃ l, Pg.diffCreateTable noSd false (tableOf (Pg.ops noSd) s%"t" pgB) (tableOf (Pg.ops noSd) s%"t" pgA) = .ok l ∧
    (l.map Pg.step).filterMap Step.droppedColumn = [s%"b"] ∧
    ((l.map Pg.step).filterMap Step.addedColumn).map (fun c => c.name.name) = [s%"c"] ∧
    (l.map Pg.step).filterMap Step.alteredColumn = [s%"a"] :=
  ⟨okList (Pg.diffCreateTable noSd false (tableOf (Pg.ops noSd) s%"t" pgB) (tableOf (Pg.ops noSd) s%"t" pgA)), by decide⟩

/-- C38: of the columns missing in the target a CockroachDB table diff drops exactly those that are not hidden (`NOT VISIBLE` and
`VIRTUAL`, as hash-sharded indexes have them). -/
theorem C38_hidden_columns_kept {nv : Bool} (t t' : Crdb.CreateTable) (l : List CStmt)
    (h : Crdb.diffCreateTable sd nv (some t) (some t') = .ok l) (n : Str) :
    .dropColumn n ∈ l.map Crdb.step ↔
      (∃ c ∈ t.columns, c.name.name = n ∧ ¬ (c.notVisible = true ∧ ∃ a, c.as_ = some a ∧ a.type = some .VIRTUAL)) ∧
      ∀ c ∈ t'.columns, c.name.name ≠ n := by
  have h1 : .dropColumn n ∈ l.map Crdb.step ↔ n ∈ (l.map Crdb.step).filterMap Step.droppedColumn := by
    rw [List.mem_filterMap]
    constructor
    · intro h; exact ⟨_, h, rfl⟩
    · rintro ⟨s, hs, hd⟩
      cases s <;> simp [Step.droppedColumn] at hd
      subst hd; exact hs
  rw [h1, (Crdb.shape h).dropped]
  simp only [List.mem_filter, List.mem_map, decide_eq_true_eq]
  constructor
  · rintro ⟨⟨c, ⟨hc, hh⟩, rfl⟩, h3⟩
    refine ⟨⟨c, hc, rfl, ?_⟩, fun d hd he => h3 ⟨d, hd, he⟩⟩
    rintro ⟨hv, a, ha, hat⟩
    simp [Crdb.hidden, hv, ha, hat] at hh
  · rintro ⟨⟨c, hc, rfl, hh⟩, h3⟩
    refine ⟨⟨c, ⟨hc, ?_⟩, rfl⟩, fun ⟨d, hd, he⟩ => h3 d hd he⟩
    cases hx : Crdb.hidden c with
    | false => rfl
    | true =>
      exfalso; apply hh
      simp only [Crdb.hidden, Bool.and_eq_true, Option.any_eq_true, decide_eq_true_eq] at hx
      exact ⟨hx.1, hx.2⟩

private def crHidden : List CStmt := okList (Crdb.parse s%"CREATE TABLE t (a INT, h INT NOT VISIBLE NOT NULL AS (a) VIRTUAL, b INT);")

/-- Both columns `h` (hidden) and `b` are missing in the target; only `b` is dropped. -/
example : ∃ l, Crdb.diffCreateTable noSd false (tableOf (Crdb.ops noSd) s%"t" crHidden)
      (tableOf (Crdb.ops noSd) s%"t" (okList (Crdb.parse s%"CREATE TABLE t (a INT);"))) = .ok l ∧
    l.map Crdb.step = [.dropColumn s%"b"] :=
  ⟨okList (Crdb.diffCreateTable noSd false (tableOf (Crdb.ops noSd) s%"t" crHidden)
      (tableOf (Crdb.ops noSd) s%"t" (okList (Crdb.parse s%"CREATE TABLE t (a INT);")))), by decide⟩

/-- C41: in the alteration of a table exactly the constraints that are gone are dropped, exactly the new ones are added as defined
in the target, and a constraint on both sides is dropped iff it is added again (indexes declared in the table count as constraints
in CockroachDB and MySQL). -/
theorem C41_constraints_exact {nv : Bool} :
    (∀ t t' l, Pg.diffCreateTable sd nv (some t) (some t') = .ok l →
      ConstraintsExact (fun k => k.name.name) t.constraints t'.constraints (l.map Pg.step)) ∧
    (∀ t t' l, Crdb.diffCreateTable sd nv (some t) (some t') = .ok l →
      ConstraintsExact (fun k => k.name.name) t.constraints t'.constraints (l.map Crdb.step)) ∧
    (∀ t t' l, My.diffCreateTable sd nv (some t) (some t') = .ok l →
      ConstraintsExact (fun k => k.name.name) t.constraints t'.constraints (l.map My.step)) ∧
    (∀ t t' l, Sp.diffCreateTable sd nv (some t) (some t') = .ok l → (∀ s ∈ l, drops (Sp.ops sd) s = none) →
      ConstraintsExact Sp.Constraint.key t.constraints t'.constraints (l.map Sp.step)) :=
  ⟨fun _ _ _ h => (Pg.shape h).constraintsExact, fun _ _ _ h => (Crdb.shape h).constraintsExact,
   fun _ _ _ h => (My.shape h).constraintsExact, fun _ _ _ h hn => (Sp.shape (Sp.not_recreated h hn) h).constraintsExact⟩

/-- A table diff that drops one constraint and adds another. -/
example : ∃ l, Pg.diffCreateTable noSd false (tableOf (Pg.ops noSd) s%"t" pgB) (tableOf (Pg.ops noSd) s%"t" pgA) = .ok l ∧
    (l.map Pg.step).filterMap Step.droppedConstraint = [s%"t_unique_b"] ∧
    ((l.map Pg.step).filterMap Step.addedConstraint).map (fun c => c.name.name) = [s%"t_unique_c"] :=
  ⟨okList (Pg.diffCreateTable noSd false (tableOf (Pg.ops noSd) s%"t" pgB) (tableOf (Pg.ops noSd) s%"t" pgA)), by decide⟩

/-! ## C08 -/

/-- C08, what it is for two statements to be about the same object (here and in C02, C06, C09): the schema and the name are the same, without
quotes.  Index names of PostgreSQL and CockroachDB have no schema. -/
theorem C08_identity :
    (∀ n m : ObjectName, Undotted n → Undotted m → (n.diffStr = m.diffStr ↔ SameName n m)) ∧
    (∀ n m : Ident, ((Pg.ops sd).nDiffStr n = (Pg.ops sd).nDiffStr m ↔ n.name = m.name) ∧
      ((Crdb.ops sd).nDiffStr n = (Crdb.ops sd).nDiffStr m ↔ n.name = m.name)) ∧
    (∀ n m : ObjectName, Undotted n → Undotted m → ((My.ops sd).nDiffStr n = (My.ops sd).nDiffStr m ↔ SameName n m) ∧
      ((Sp.ops sd).nDiffStr n = (Sp.ops sd).nDiffStr m ↔ SameName n m)) :=
  ⟨fun _ _ => sameName_iff, fun _ _ => ⟨Iff.rfl, Iff.rfl⟩, fun _ _ hn hm => ⟨sameName_iff hn hm, sameName_iff hn hm⟩⟩

example : Undotted (newObjectName .postgres s%"s.t") ∧ Undotted (newObjectName .postgres s%"t") ∧
    ¬ SameName (newObjectName .postgres s%"s.t") (newObjectName .postgres s%"t") := by
  refine ⟨⟨by decide, ?_⟩, ⟨by decide, ?_⟩, fun h => absurd h.1 (by decide)⟩ <;> intro s h <;> cases h
  decide

/-- C08: see `OnlyDifferences`. In CockroachDB and MySQL a diff may also name an index declared inside a table. -/
theorem C08_only_differences :
    (∀ b a r : List PStmt, diff (Pg.ops sd) (some b) (some a) = .ok r → OnlyDifferences (Pg.ops sd) (fun _ => []) b a r) ∧
    (∀ b a r : List CStmt, diff (Crdb.ops sd) (some b) (some a) = .ok r →
      OnlyDifferences (Crdb.ops sd) Crdb.inlineIndexes b a r) ∧
    (∀ b a r : List MStmt, SameSchemas (My.ops sd) b a → diff (My.ops sd) (some b) (some a) = .ok r →
      OnlyDifferences (My.ops sd) My.inlineIndexes b a r) ∧
    (∀ b a r : List SStmt, diff (Sp.ops sd) (some b) (some a) = .ok r → OnlyDifferences (Sp.ops sd) (fun _ => []) b a r) := by
  refine ⟨fun b a r h => onlyDifferences h (fun _ _ _ _ _ hn hl => Pg.tableDiffAbout hn hl) ?_,
    fun b a r h => onlyDifferences h (fun _ _ _ _ _ hn hl => Crdb.tableDiffAbout hn hl) ?_,
    fun b a r hs h => onlyDifferences h (fun t t' _ h1 h2 hn hl => My.tableDiffAbout hn (hs t t' h1 h2 hn) hl) ?_,
    fun b a r h => onlyDifferences h (fun _ _ _ _ _ hn hl => Sp.tableDiffAbout hn hl) ?_⟩
  · exact fun t l h => (Pg.diffTable_ok h).2.1 rfl
  · exact fun t l h => (Crdb.diffTable_ok h).2.1 rfl
  · exact fun t l h => (My.diffTable_ok h).2.1 rfl
  · intro t l h
    rcases Sp.diffTable_ok h with ⟨h, _⟩ | ⟨_, h, _⟩ <;> exact h rfl

/-- Tables `k` are the same on both sides, `t` differs. -/
example : DistinctObjects (My.ops noSd) myB ∧ DistinctObjects (My.ops noSd) myA ∧ myB.drop 1 = myA.drop 1 ∧
    (∃ s ∈ okList (diff (My.ops noSd) (some myB) (some myA)), about (My.ops noSd) s = some (.table s%"t")) ∧
    (∃ s ∈ okList (diff (My.ops noSd) (some myB) (some myA)), about (My.ops noSd) s = some (.index s%"ib")) := by
  unfold DistinctObjects; decide

/-! ## C09 -/

/-- C09 (whole diff): see `ThreePhases`. -/
theorem C09_three_phases :
    (∀ b a r : List PStmt, diff (Pg.ops sd) (some b) (some a) = .ok r → ThreePhases (Pg.ops sd) (fun _ => []) b a r) ∧
    (∀ b a r : List CStmt, diff (Crdb.ops sd) (some b) (some a) = .ok r → ThreePhases (Crdb.ops sd) Crdb.inlineIndexes b a r) ∧
    (∀ b a r : List MStmt, SameSchemas (My.ops sd) b a → diff (My.ops sd) (some b) (some a) = .ok r →
      ThreePhases (My.ops sd) My.inlineIndexes b a r) ∧
    (∀ b a r : List SStmt, diff (Sp.ops sd) (some b) (some a) = .ok r → ThreePhases (Sp.ops sd) (fun _ => []) b a r) :=
  ⟨fun _ _ _ h => threePhases h (fun _ _ _ _ _ hn hl => Pg.tableDiffAbout hn hl),
   fun _ _ _ h => threePhases h (fun _ _ _ _ _ hn hl => Crdb.tableDiffAbout hn hl),
   fun _ _ _ hs h => threePhases h (fun t t' _ h1 h2 hn hl => My.tableDiffAbout hn (hs t t' h1 h2 hn) hl),
   fun _ _ _ h => threePhases h (fun _ _ _ _ _ hn hl => Sp.tableDiffAbout hn hl)⟩

/-- All three parts are inhabited in the sample. -/
example : (okList (diff (Pg.ops noSd) (some pgB) (some pgA))).map (about (Pg.ops noSd)) =
    [some (.table s%"u"), some (.table s%"v"), some (.table s%"t"), some (.table s%"t"), some (.table s%"t"),
     some (.table s%"t"), some (.table s%"t"), some (.index s%"i"), some (.index s%"i")] := by decide

/-- C09 (one table): constraints that go away are dropped first, then columns are dropped or altered, then columns are added, then
changed constraints are replaced, then new constraints are added. -/
theorem C09_table_order {nv : Bool} :
    (∀ t t' l, Pg.diffCreateTable sd nv (some t) (some t') = .ok l →
      StepsOrdered (fun k => k.name.name) t.constraints t'.constraints (l.map Pg.step)) ∧
    (∀ t t' l, Crdb.diffCreateTable sd nv (some t) (some t') = .ok l →
      StepsOrdered (fun k => k.name.name) t.constraints t'.constraints (l.map Crdb.step)) ∧
    (∀ t t' l, My.diffCreateTable sd nv (some t) (some t') = .ok l →
      StepsOrdered (fun k => k.name.name) t.constraints t'.constraints (l.map My.step)) ∧
    (∀ t t' l, Sp.diffCreateTable sd nv (some t) (some t') = .ok l → (∀ s ∈ l, drops (Sp.ops sd) s = none) →
      StepsOrdered Sp.Constraint.key t.constraints t'.constraints (l.map Sp.step)) :=
  ⟨fun _ _ _ h => (Pg.shape h).stepsOrdered, fun _ _ _ h => (Crdb.shape h).stepsOrdered,
   fun _ _ _ h => (My.shape h).stepsOrdered, fun _ _ _ h hn => (Sp.shape (Sp.not_recreated h hn) h).stepsOrdered⟩

/-- Phases 0, 1, 2 and 4 in one table diff. -/
example : ((okList (Pg.diffCreateTable noSd false (tableOf (Pg.ops noSd) s%"t" pgB) (tableOf (Pg.ops noSd) s%"t" pgA))).map
    Pg.step).filterMap (Step.phase (fun k => k.name.name) [s%"t_unique_b"] [s%"t_unique_c"]) = [0, 1, 1, 2, 4] := by decide

/-! ## C30 -/

/-- C30: a Spanner table whose options stay the same is only altered in place. -/
theorem C30_same_options_in_place {nv : Bool} (t t' : Sp.CreateTable) (l : List SStmt)
    (hn : t.name.diffStr = t'.name.diffStr) (ho : Sp.SameOptions t.options t'.options)
    (h : Sp.diffCreateTable sd nv (some t) (some t') = .ok l) :
    ∀ s ∈ l, ∃ a : Sp.AlterTable, s = .alterTable a ∧ a.name.diffStr = t.name.diffStr :=
  Sp.diffTable_alters hn (Sp.sameOptions_diffStr ho) h

/-- C30 for tables with one option (the primary key) whose tokens contain no blank: the table is dropped and created again exactly
when the option changed, and then nothing else is done. -/
theorem C30_recreate_iff_partial {nv : Bool} (t t' : Sp.CreateTable) (o o' : Sp.TableOption)
    (ht : t.options = [o]) (ht' : t'.options = [o']) (hname : o.name = o'.name)
    (hc : ∀ i ∈ o.value ++ o'.value, i.name ≠ [] ∧ ' ' ∉ i.name) :
    (∃ c, Sp.diffCreateTable sd nv (some t) (some t') = .ok [.dropTable c false t.name, .createTable t']) ↔
      o.value.map Ident.name ≠ o'.value.map Ident.name := by
  have hiff : Sp.optionsDiffStr t.options = Sp.optionsDiffStr t'.options ↔ o.value.map Ident.name = o'.value.map Ident.name := by
    constructor
    · intro h
      simp only [ht, ht', Sp.optionsDiffStr, List.map_cons, List.map_nil, join, Sp.TableOption.diffStr, hname, Sp.exprDiffStr] at h
      have h := List.append_cancel_left h
      refine join_inj (c := ' ') ?_ ?_ h
      · intro a ha
        obtain ⟨i, hi, rfl⟩ := List.mem_map.1 ha
        exact hc i (List.mem_append_left _ hi)
      · intro a ha
        obtain ⟨i, hi, rfl⟩ := List.mem_map.1 ha
        exact hc i (List.mem_append_right _ hi)
    · intro h
      refine Sp.sameOptions_diffStr ?_
      rw [ht, ht']
      exact .cons ⟨hname, h⟩ .nil
  rw [Ne, ← hiff]
  constructor
  · rintro ⟨c, h⟩ he
    rcases Sp.diffTable_ok h with ⟨h1, _⟩ | ⟨_, _, _, _, _, _, _, _, _, h1⟩
    · exact h1 he
    · have : (Stmt.dropTable c false t.name : SStmt) ∈ [.dropTable c false t.name, .createTable t'] := by simp
      rw [h1] at this
      obtain ⟨_, _, h⟩ := List.mem_map.1 this
      cases h
  · intro he
    exact ⟨sd (Sp.optionsStr t.options) (Sp.optionsStr t'.options), by simp only [Sp.diffCreateTable]; exact if_pos he⟩

/-- The sample meets the hypotheses with a changed key. -/
example : ∃ t t' o o', tableOf (Sp.ops noSd) s%"t" spB = some t ∧ tableOf (Sp.ops noSd) s%"t" spA = some t' ∧
    t.options = [o] ∧ t'.options = [o'] ∧ o.name = o'.name ∧ (∀ i ∈ o.value ++ o'.value, i.name ≠ [] ∧ ' ' ∉ i.name) ∧
    o.value.map Ident.name ≠ o'.value.map Ident.name := by
  refine ⟨_, _, _, _, rfl, rfl, rfl, rfl, ?_⟩; decide

/-- C30 for all tables that were read from texts: the table is dropped and created again exactly when an option changed, and then
nothing else is done.  Missing: options with words that, without quotes, have blanks or commas in them, see `C30_recreate_iff_fails`. -/
theorem C30_read_recreate_iff_partial {nv : Bool} (s s' : Str) (b a : List SStmt) (t t' : Sp.CreateTable) (hs : Sp.parse s = .ok b)
    (hs' : Sp.parse s' = .ok a) (ht : .createTable t ∈ b) (ht' : .createTable t' ∈ a) (hc : Sp.ClearOptions t.options)
    (hc' : Sp.ClearOptions t'.options) :
    (∃ c, Sp.diffCreateTable sd nv (some t) (some t') = .ok [.dropTable c false t.name, .createTable t']) ↔
      ¬ Sp.SameOptions t.options t'.options := by
  have hiff : Sp.SameOptions t.options t'.options ↔ Sp.optionsDiffStr t.options = Sp.optionsDiffStr t'.options :=
    ⟨Sp.sameOptions_diffStr, Sp.tableOptions_inj (Sp.named_of_parse hs ht) (Sp.named_of_parse hs' ht') hc hc'⟩
  rw [hiff]
  constructor
  · rintro ⟨c, h⟩ he
    rcases Sp.diffTable_ok h with ⟨h1, _⟩ | ⟨_, _, _, _, _, _, _, _, _, h1⟩
    · exact h1 he
    · have : (Stmt.dropTable c false t.name : SStmt) ∈ [.dropTable c false t.name, .createTable t'] := by simp
      rw [h1] at this
      obtain ⟨_, _, h⟩ := List.mem_map.1 this
      cases h
  · intro he
    exact ⟨sd (Sp.optionsStr t.options) (Sp.optionsStr t'.options), by simp only [Sp.diffCreateTable]; exact if_pos he⟩

set_option maxRecDepth 4000 in
/-- The hypotheses can be met by tables with two options, one of which changes, and with a policy. -/
example : ∃ t t' : Sp.CreateTable,
    Sp.parse s%"CREATE TABLE t (a INT64, b INT64) PRIMARY KEY (a, b DESC), INTERLEAVE IN PARENT `p` ON DELETE CASCADE" = .ok [.createTable t] ∧
    Sp.parse s%"CREATE TABLE t (a INT64, b INT64) PRIMARY KEY (a, `b` DESC), INTERLEAVE IN PARENT p, ROW DELETION POLICY (OLDER_THAN(a, INTERVAL 3 DAY))"
      = .ok [.createTable t'] ∧
    Sp.ClearOptions t.options ∧ Sp.ClearOptions t'.options ∧ t.options.length = 2 ∧ ¬ Sp.SameOptions t.options t'.options := by
  unfold Sp.ClearOptions Sp.SameOptions
  exact ⟨_, _, rfl, rfl, by decide +kernel, by decide +kernel, by decide +kernel, by decide +kernel⟩

/-- C30, as stated for all tables, fails for quoted names with blanks: key (`a , b`) and key (a, b) give the same text, the table
is not recreated although the key changed. -/
theorem C30_recreate_iff_fails : ∃ b a : List SStmt,
    Sp.parse s%"CREATE TABLE t (a INT64, b INT64, `a , b` INT64) PRIMARY KEY (a, b);" = .ok b ∧
    Sp.parse s%"CREATE TABLE t (a INT64, b INT64, `a , b` INT64) PRIMARY KEY (`a , b`);" = .ok a ∧
    (∃ t t', b = [.createTable t] ∧ a = [.createTable t'] ∧ ¬ Sp.SameOptions t.options t'.options) ∧
    ∀ sd, diff (Sp.ops sd) (some b) (some a) = .err .noDifference := by
  refine ⟨okList (Sp.parse s%"CREATE TABLE t (a INT64, b INT64, `a , b` INT64) PRIMARY KEY (a, b);"),
    okList (Sp.parse s%"CREATE TABLE t (a INT64, b INT64, `a , b` INT64) PRIMARY KEY (`a , b`);"), by decide, by decide, ?_, ?_⟩
  · refine ⟨_, _, rfl, rfl, ?_⟩
    intro h
    have := congrArg List.length (List.forall₂_cons.1 h).1.2
    revert this; decide
  · intro sd; rfl

end Ddl.Props
