import Verif.Spec.Converge
import Verif.Lemmas.NoDiffTo
import Verif.Lemmas.DbDiff
import Verif.Lemmas.SchemaCrdb
import Verif.Lemmas.SchemaMy
import Verif.Lemmas.SchemaSp
import Verif.Lemmas.ApplyDb

/-! # Schemas of the same database -/

namespace Ddl.Pg.Db
open Ddl Spec
set_option autoImplicit false
variable {sd : Str → Str → Str}

theorem Catalog.Alike.symm {B A : Catalog} (h : B.Alike A) : A.Alike B := ⟨h.tables.symm, fun n => (h.indexes n).symm⟩

theorem Catalog.Alike.refl (D : Catalog) : D.Alike D := ⟨rfl, fun _ => rfl⟩

theorem holds_same {b a : List PStmt} {B A : Catalog} (hb : Holds (· ∈ b) B) (ha : Holds (· ∈ a) A) (hD : B.Alike A) (lb : Loadable b)
    (la : Loadable a) (cb : ∀ s ∈ b, (obj s).isSome) (ca : ∀ s ∈ a, (obj s).isSome) (hn : SameNotNull b a) :
    SameSchema (fun t t' => t.name.diffStr = t'.name.diffStr ∧ SameElems (t.columns.map Column.bare) (t'.columns.map Column.bare) ∧
      SameElems (t.constraints.map Constraint.bare) (t'.constraints.map Constraint.bare)) SameIndexButMethod b a := by
  have dn : ∀ {l : List PStmt}, Loadable l → ∀ t, .createTable t ∈ l → DistinctNames t := by
    intro l hl t ht
    obtain ⟨p, q, e⟩ := List.append_of_mem ht
    exact (hl p _ q e).1
  have cols : ∀ {b a : List PStmt}, SameNotNull b a → ∀ t t', .createTable t ∈ b → .createTable t' ∈ a → t.name.diffStr = t'.name.diffStr →
      DistinctNames t → DistinctNames t' → tableOf t = tableOf t' →
      (∀ y ∈ t.columns.map Column.bare, y ∈ t'.columns.map Column.bare) ∧
      ∀ y ∈ t.constraints.map Constraint.bare, y ∈ t'.constraints.map Constraint.bare := by
    intro b a hn t t' ht ht' e d d' eT
    constructor
    · intro y hy
      obtain ⟨c, hc, rfl⟩ := List.mem_map.1 hy
      have h1 := tableOf_col d hc
      have h2 : HasColumn t' c.name.name := tableOf_cols.1 (by rw [← eT, h1]; rfl)
      obtain ⟨c', hc', en⟩ := h2
      have h3 := tableOf_col d' hc'
      rw [en, ← eT, h1, Option.some.injEq] at h3
      have e4 := hn t t' c c' ⟨ht, ht', e⟩ hc hc' en.symm
      refine List.mem_map.2 ⟨c', hc', ?_⟩
      simp only [colOf, Col.mk.injEq] at h3
      simp only [Column.bare, Ident.bare, en, h3.1, h3.2.1, e4]
    · intro y hy
      obtain ⟨c, hc, rfl⟩ := List.mem_map.1 hy
      have h1 := tableOf_con d hc
      rw [eT] at h1
      obtain ⟨c', hc', -, e⟩ := tableOf_con_some h1
      simp only [Con.mk.injEq, and_true] at e
      exact List.mem_map.2 ⟨c', hc', e.symm⟩
  have half : ∀ {b a : List PStmt} {B A : Catalog}, Holds (· ∈ b) B → Holds (· ∈ a) A → B.Alike A → (∀ s ∈ b, (obj s).isSome) →
      ∀ s ∈ b, ∃ s' ∈ a, SameStmt (fun t t' => t.name.diffStr = t'.name.diffStr ∧ tableOf t = tableOf t' ∧
        .createTable t ∈ b ∧ .createTable t' ∈ a) SameIndexButMethod s s' := by
    intro b a B A hb ha hD cb s hs
    cases s with
    | createTable t =>
      have h1 := (hb.tabs _ _).2 ⟨t, hs, rfl, rfl⟩
      rw [hD.tables] at h1
      obtain ⟨t', ht', e1, e2⟩ := (ha.tabs _ _).1 h1
      exact ⟨_, ht', .table ⟨e1.symm, e2.symm, hs, ht'⟩⟩
    | createIndex i =>
      have h1 := (hb.idxs _ _).2 ⟨i, hs, rfl, rfl⟩
      have h2 := hD.indexes i.name.name
      rw [h1, Option.map_some] at h2
      obtain ⟨x, hx, e⟩ := Option.map_eq_some_iff.1 h2.symm
      obtain ⟨i', hi', e1, rfl⟩ := (ha.idxs _ _).1 hx
      exact ⟨_, hi', .index e.symm⟩
    | _ => exact absurd (cb _ hs) (by simp [obj, creates])
  have hn' : SameNotNull a b := fun t t' c c' h hc hc' e => (hn t' t c' c ⟨h.2.1, h.1, h.2.2.symm⟩ hc' hc e.symm).symm
  have up : ∀ t t', .createTable t ∈ b → .createTable t' ∈ a → t.name.diffStr = t'.name.diffStr → tableOf t = tableOf t' →
      t.name.diffStr = t'.name.diffStr ∧ SameElems (t.columns.map Column.bare) (t'.columns.map Column.bare) ∧
      SameElems (t.constraints.map Constraint.bare) (t'.constraints.map Constraint.bare) := by
    intro t t' ht ht' e eT
    have h1 := cols hn t t' ht ht' e (dn lb t ht) (dn la t' ht') eT
    have h2 := cols hn' t' t ht' ht e.symm (dn la t' ht') (dn lb t ht) eT.symm
    exact ⟨e, fun y => ⟨h1.1 y, h2.1 y⟩, fun y => ⟨h1.2 y, h2.2 y⟩⟩
  constructor
  · intro s hs
    obtain ⟨s', hs', r⟩ := half hb ha hD cb s hs
    refine ⟨s', hs', ?_⟩
    cases r with
    | table r => exact .table (up _ _ r.2.2.1 r.2.2.2 r.1 r.2.1)
    | index r => exact .index r
  · intro s hs
    obtain ⟨s', hs', r⟩ := half ha hb hD.symm ca s hs
    refine ⟨s', hs', ?_⟩
    cases r with
    | table r => exact .table (up _ _ r.2.2.2 r.2.2.1 r.1.symm r.2.1.symm)
    | index r => exact .index (Eq.symm r)

theorem diffTable_same' {nv : Bool} {t t' : CreateTable} (hd : DistinctNames t') (h1 : t.name.diffStr = t'.name.diffStr)
    (h2 : SameElems (t.columns.map Column.bare) (t'.columns.map Column.bare))
    (h3 : SameElems (t.constraints.map Constraint.bare) (t'.constraints.map Constraint.bare)) :
    diffCreateTable sd nv (some t) (some t') = .err .noDifference := by
  obtain ⟨h4, h5⟩ := sameElems_of h3
  simp only [diffCreateTable]
  split
  · rfl
  · rw [renameTable_same h1, diffColumns_same hd.1 h2,
      dropConstraints_same (fun k hk => ?_), replaceConstraints_same hd.2 (fun k hk => ?_),
      addConstraints_same (fun k hk => ?_)]
    · rfl
    · obtain ⟨k', hk', e⟩ := h5 k hk
      exact ⟨k', hk', (Constraint.diffStr_of_bare e).2.symm⟩
    · obtain ⟨k', hk', e⟩ := h4 k hk
      exact ⟨k', hk', (Constraint.diffStr_of_bare e).2, (Constraint.diffStr_of_bare e).1⟩
    · obtain ⟨k', hk', e⟩ := h4 k hk
      exact ⟨k', hk', (Constraint.diffStr_of_bare e).2⟩

theorem index_but_method {i i' : CreateIndex} (h : SameIndexButMethod i i') :
    i.name.diffStr = i'.name.diffStr ∧ i.diffStr = i'.diffStr :=
  index_same (i := { i with using_ := [] }) (i' := { i' with using_ := [] }) h

/-- Schemas of databases that are alike have no difference, if they are written with `NOT NULL` alike. -/
theorem same_state_to {b a : List PStmt} {B A : Catalog} (cb : CreateOnly (ops sd) b) (ca : CreateOnly (ops sd) a)
    (db : DistinctObjects (ops sd) b) (da : DistinctObjects (ops sd) a) (hB : Execs empty b B) (hA : Execs empty a A) (hD : B.Alike A)
    (hn : SameNotNull b a) : diff (ops sd) (some b) (some a) = .err .noDifference := by
  have ho : creates (ops sd) = obj := funext (obj_eq sd)
  have da' := da
  unfold DistinctObjects at db da
  unfold CreateOnly at cb ca
  rw [ho] at db da cb ca
  obtain ⟨lb, hb⟩ := load cb db hB
  obtain ⟨la, ha⟩ := load ca da hA
  have dn : ∀ t, .createTable t ∈ a → DistinctNames t := by
    intro t ht
    obtain ⟨p, q, e⟩ := List.append_of_mem ht
    exact (la p _ q e).1
  exact noDiff_to da' (fun _ _ r => r.1) (fun _ _ r => (index_but_method r).1)
    (fun t t' _ ht' r => diffTable_same' (dn t' ht') r.1 r.2.1 r.2.2) (fun _ _ _ _ r => (index_but_method r).2)
    (holds_same hb ha hD lb la cb ca hn)

theorem same_state {b a : List PStmt} {D : Catalog} (okb : ∀ x ∈ b, StmtOk x) (oka : ∀ x ∈ a, StmtOk x) (tb : TameSchema b)
    (ta : TameSchema a) (db : DistinctObjects (ops sd) b) (da : DistinctObjects (ops sd) a) (hB : Execs empty b D) (hA : Execs empty a D) :
    diff (ops sd) (some b) (some a) = .err .noDifference ↔ SameNotNull b a := by
  have ho : creates (ops sd) = obj := funext (obj_eq sd)
  have db' := db
  have da' := da
  unfold DistinctObjects at db da
  rw [ho] at db da
  obtain ⟨lb, hb⟩ := load (fun s hs => obj_of_ok (okb s hs)) db hB
  obtain ⟨la, ha⟩ := load (fun s hs => obj_of_ok (oka s hs)) da hA
  have dn : ∀ t, .createTable t ∈ a → DistinctNames t := by
    intro t ht
    obtain ⟨p, q, e⟩ := List.append_of_mem ht
    exact (la p _ q e).1
  constructor
  · intro h t t' c c' ⟨ht, ht', e⟩ hc hc' en
    obtain ⟨s, hs, r⟩ := (noDiff_same okb oka tb ta da' dn h).1 _ ht
    cases r with
    | table r =>
      cases unique_table da ht' hs (e.symm.trans (ObjectName.diffStr_of_bare r.1))
      have h1 := (r.2.1 c.bare).1 (List.mem_map.2 ⟨c, hc, rfl⟩)
      obtain ⟨c'', hc'', e2⟩ := List.mem_map.1 h1
      have e3 : c''.name.name = c'.name.name := by
        have := congrArg (fun c : Column => c.name.name) e2
        exact this.trans en
      have e4 : c'' = c' := by
        have := find?_of_nodup (f := fun c : Column => c.name.name) (dn t' ht').1 hc''
        rw [e3, find?_of_nodup (f := fun c : Column => c.name.name) (dn t' ht').1 hc'] at this
        exact (Option.some.inj this).symm
      subst e4
      exact (congrArg Column.notNull e2).symm
  · exact same_state_to (fun s hs => by rw [ho]; exact obj_of_ok (okb s hs)) (fun s hs => by rw [ho]; exact obj_of_ok (oka s hs)) db' da' hB hA
      (.refl D)

end Ddl.Pg.Db

namespace Ddl.Crdb.Run
open Ddl Spec
set_option autoImplicit false
variable {sd : Str → Str → Str}

theorem Tbl.Same.symm {T T' : Tbl} (h : T.Same T') : T'.Same T :=
  ⟨h.name.symm, h.cons.symm, fun k => (h.cols k).symm, fun k c c' hc hc' hk => (h.notNull k c' c hc' hc fun hk' => hk (by
    simpa only [Tbl.IsKey, h.cons] using hk')).symm⟩

theorem Db.Same.symm {D D' : Db} (h : D.Same D') : D'.Same D :=
  fun n => ⟨(h n).1.symm, fun T T' e e' => ((h n).2 T' T e' e).symm⟩

theorem SameNotNull.symm {b a : List CStmt} (h : SameNotNull b a) : SameNotNull a b :=
  fun t t' c c' hs hc hc' e => (h t' t c' c ⟨hs.2.1, hs.1, hs.2.2.symm⟩ hc' hc e.symm).symm

theorem SameForm.symm {b a : List CStmt} (h : SameForm b a) : SameForm a b :=
  fun t t' k hs => (h t' t k ⟨hs.2.1, hs.1, hs.2.2.symm⟩).symm

theorem tableOf_col {t : CreateTable} (hd : DistinctNames t) {c : Column} (hc : c ∈ t.columns) :
    (tableOf t).cols c.name.name = some (colOf c) := by
  simp only [tableOf, find?_of_nodup (f := fun c : Column => c.name.name) hd.1 hc, Option.map_some]

theorem tableOf_con {t : CreateTable} (hd : DistinctNames t) {c : Constraint} (hc : c ∈ t.constraints) :
    (tableOf t).cons c.name.name = some ⟨defOf c, true⟩ := by
  simp only [tableOf, find?_of_nodup (f := fun c : Constraint => c.name.name) hd.2 hc, Option.map_some]

/-- The columns of a table are alike those of the same table. -/
theorem cols_alike {b a : List CStmt} {t t' : CreateTable} {E E' : Str → Option Con} (hn : SameNotNull b a) (hs : Stays b a t t')
    (d : DistinctNames t) (d' : DistinctNames t') (h : (ext (tableOf t) E).Same (ext (tableOf t') E')) {c : Column} (hc : c ∈ t.columns) :
    ∃ c' ∈ t'.columns, c.Alike c' := by
  have h1 := h.cols c.name.name
  simp only [ext, tableOf_col d hc, Option.map_some] at h1
  have h2 : HasColumn t' c.name.name := tableOf_cols.1 (by
    cases e : (tableOf t').cols c.name.name with
    | none => rw [e] at h1; cases h1
    | some _ => rfl)
  obtain ⟨c', hc', en⟩ := h2
  rw [← en, tableOf_col d' hc', Option.map_some, Option.some.injEq] at h1
  simp only [colOf, Col.mk.injEq] at h1
  exact ⟨c', hc', en.symm, h1.1, h1.2.1, hn t t' c c' hs hc hc' en.symm⟩

/-- The constraints of a table are alike those of the same table. -/
theorem cons_alike {b a : List CStmt} {t t' : CreateTable} {E E' : Str → Option Con} (hf : SameForm b a) (hs : Stays b a t t')
    (d : DistinctNames t) (d' : DistinctNames t') (h : (ext (tableOf t) E).Same (ext (tableOf t') E')) {c : Constraint}
    (hc : c ∈ t.constraints) : ∃ c' ∈ t'.constraints, c.Alike c' := by
  obtain ⟨c', hc', en⟩ := (hf t t' c.name.name hs).1 ⟨c, hc, rfl⟩
  have h1 := congrFun h.cons c.name.name
  simp only [ext, tableOf_con d hc] at h1
  rw [← en, tableOf_con d' hc'] at h1
  simp only [Option.some_or, Option.some.injEq, Con.mk.injEq, and_true] at h1
  exact ⟨c', hc', en.symm, h1⟩

/-- Every statement of a schema has an alike one in a schema of the same database. -/
theorem stmt_alike {b a : List CStmt} (cb : CreateOnly (ops sd) b) (db : DistinctObjects (ops sd) b)
    (da : DistinctObjects (ops sd) a) (nb : ∀ t, .createTable t ∈ b → DistinctNames t) (na : ∀ t, .createTable t ∈ a → DistinctNames t)
    (sb : NoStray b) (ob : OneForm b) (hD : (st b).Same (st a)) (hn : SameNotNull b a) (hf : SameForm b a) :
    ∀ s ∈ b, ∃ s' ∈ a, SameStmt CreateTable.Alike CreateIndex.Alike s s' := by
  have table : ∀ t, .createTable t ∈ b → ∃ t', Stays b a t t' ∧
      (ext (tableOf t) (ixs b t.name.diffStr)).Same (ext (tableOf t') (ixs a t.name.diffStr)) := by
    intro t ht
    have h1 := st_of_mem db ht
    cases e : st a t.name.diffStr with
    | none => rw [(hD _).1.2 e] at h1; cases h1
    | some T =>
      obtain ⟨t', ht', en, rfl⟩ := st_some e
      exact ⟨t', ⟨ht, ht', en.symm⟩, (hD _).2 _ _ h1 e⟩
  intro s hs
  cases s with
  | createTable t =>
    obtain ⟨t', hst, hT⟩ := table t hs
    have d := nb t hs
    have d' := na t' hst.2.1
    have hst' : Stays a b t' t := ⟨hst.2.1, hst.1, hst.2.2.symm⟩
    refine ⟨_, hst.2.1, .table ⟨hst.2.2, fun c hc => .inl (cols_alike hn hst d d' hT hc), ?_, ?_, ?_⟩⟩
    · intro c' hc'
      obtain ⟨c, hc, r⟩ := cols_alike hn.symm hst' d' d hT.symm hc'
      exact ⟨c, hc, r.1.symm, r.2.1.symm, r.2.2.1.symm, r.2.2.2.symm⟩
    · exact fun c hc => cons_alike hf hst d d' hT hc
    · intro c' hc'
      obtain ⟨c, hc, r⟩ := cons_alike hf.symm hst' d' d hT.symm hc'
      exact ⟨c, hc, r.1.symm, r.2.symm⟩
  | createIndex i =>
    obtain ⟨t, ht, en⟩ := sb i hs
    obtain ⟨t', hst, hT⟩ := table t ht
    have hnone : (tableOf t).cons i.name.name = none := tableOf_cons_none.2 (ob t i ht hs en.symm)
    have hnone' : (tableOf t').cons i.name.name = none := by
      refine tableOf_cons_none.2 fun c' hc' e => ?_
      obtain ⟨c, hc, e'⟩ := (hf t t' i.name.name hst).2 ⟨c', hc', e⟩
      exact ob t i ht hs en.symm c hc e'
    have h1 := congrFun hT.cons i.name.name
    simp only [ext, hnone, hnone', Option.none_or, ixs] at h1
    rw [(idx_iff db).2 ⟨hs, en.symm, rfl⟩, Option.map_some] at h1
    cases e : idx a t.name.diffStr i.name.name with
    | none => rw [e] at h1; cases h1
    | some i' =>
      obtain ⟨hi', e1, e2⟩ := idx_mem e
      rw [e, Option.map_some, Option.some.injEq, Con.mk.injEq] at h1
      exact ⟨_, hi', .index ⟨e2.symm, en.symm.trans e1.symm, h1.1⟩⟩
  | _ => exact absurd (cb _ hs) (by simp [creates])

theorem noStray_of {l : List CStmt} (h : ∀ q₁ s q₂, l = q₁ ++ s :: q₂ → OkAfter ([] ++ q₁) s) : NoStray l := by
  intro i hi
  obtain ⟨p, q, e⟩ := List.append_of_mem hi
  obtain ⟨t, ht, en, -⟩ := h p _ q e
  exact ⟨t, by rw [e]; exact List.mem_append_left _ ht, en⟩

theorem distinctNames_of {l : List CStmt} (h : ∀ q₁ s q₂, l = q₁ ++ s :: q₂ → OkAfter ([] ++ q₁) s) :
    ∀ t, .createTable t ∈ l → DistinctNames t := by
  intro t ht
  obtain ⟨p, q, e⟩ := List.append_of_mem ht
  exact (h p _ q e).1

/-- Schemas of the same database are alike, if they are written with `NOT NULL` alike and their indexes are written at the same places. -/
theorem alike_state {b a : List CStmt} {B A : Db} (cb : CreateOnly (ops sd) b) (ca : CreateOnly (ops sd) a) (db : DistinctObjects (ops sd) b)
    (da : DistinctObjects (ops sd) a) (ob : OneForm b) (oa : OneForm a)
    (hB : Runs Exec Db.empty b B) (hA : Runs Exec Db.empty a A) (hD : B.Same A) (hn : SameNotNull b a) (hf : SameForm b a) :
    SameSchema CreateTable.Alike CreateIndex.Alike b a := by
  rw [← st_nil] at hB hA
  have hns : NoStray [] := fun i hi => by cases hi
  obtain ⟨rfl, okb⟩ := created (sd := sd) (p := []) cb db ob hns hB
  obtain ⟨rfl, oka⟩ := created (sd := sd) (p := []) ca da oa hns hA
  simp only [List.nil_append] at hD
  have nb := distinctNames_of okb
  have na := distinctNames_of oka
  refine ⟨stmt_alike cb db da nb na (noStray_of okb) ob hD hn hf, fun s hs => ?_⟩
  obtain ⟨s', hs', r⟩ := stmt_alike ca da db na nb (noStray_of oka) oa hD.symm hn.symm hf.symm s hs
  refine ⟨s', hs', ?_⟩
  cases r with
  | table r =>
    obtain ⟨s'', hs'', r'⟩ := stmt_alike cb db da nb na (noStray_of okb) ob hD hn hf _ hs'
    cases r' with
    | table r' =>
      cases table_eq da hs'' hs (r'.name.symm.trans r.name.symm)
      exact .table r'
  | index r => exact .index ⟨r.name.symm, r.table.symm, r.definition.symm⟩

/-- Schemas of the same database have no difference, if they are written with `NOT NULL` alike and their indexes are written at the same places. -/
theorem same_state_to {b a : List CStmt} {B A : Db} (cb : CreateOnly (ops sd) b) (ca : CreateOnly (ops sd) a) (db : DistinctObjects (ops sd) b)
    (da : DistinctObjects (ops sd) a) (ob : OneForm b) (oa : OneForm a)
    (hB : Runs Exec Db.empty b B) (hA : Runs Exec Db.empty a A) (hD : B.Same A) (hn : SameNotNull b a) (hf : SameForm b a) :
    diff (ops sd) (some b) (some a) = .err .noDifference := by
  refine noDiff_of_alike da ?_ (alike_state cb ca db da ob oa hB hA hD hn hf)
  rw [← st_nil] at hA
  exact distinctNames_of (created (sd := sd) (p := []) ca da oa (fun i hi => by cases hi) hA).2

theorem same_state {b a : List CStmt} {B A : Db} (cb : CreateOnly (ops sd) b) (ca : CreateOnly (ops sd) a) (db : DistinctObjects (ops sd) b)
    (da : DistinctObjects (ops sd) a) (tb : Comparable b) (ta : Comparable a) (told : Told (ops sd) b a) (ob : OneForm b) (oa : OneForm a)
    (hB : Runs Exec Db.empty b B) (hA : Runs Exec Db.empty a A) (hD : B.Same A) :
    diff (ops sd) (some b) (some a) = .err .noDifference ↔ SameNotNull b a ∧ SameForm b a := by
  have hB' := hB
  have hA' := hA
  have hD' := hD
  rw [← st_nil] at hB hA
  have hns : NoStray [] := fun i hi => by cases hi
  obtain ⟨rfl, okb⟩ := created (sd := sd) (p := []) cb db ob hns hB
  obtain ⟨rfl, oka⟩ := created (sd := sd) (p := []) ca da oa hns hA
  simp only [List.nil_append] at hD
  have nb := distinctNames_of okb
  have na := distinctNames_of oka
  rw [noDiff_iff cb ca da tb ta na told]
  constructor
  · intro h
    have key : ∀ t t', Stays b a t t' → t.Alike t' := by
      intro t t' hst
      obtain ⟨s, hs, r⟩ := h.1 _ hst.1
      cases r with
      | table r =>
        cases table_eq da hst.2.1 hs (hst.2.2.symm.trans r.name)
        exact r
    constructor
    · intro t t' c c' hst hc hc' en
      obtain ⟨x, hx, r⟩ := (key t t' hst).old c' hc'
      have := find?_of_nodup (f := fun c : Column => c.name.name) (nb t hst.1).1 hx
      rw [show x.name.name = c.name.name from r.1.trans en.symm,
        find?_of_nodup (f := fun c : Column => c.name.name) (nb t hst.1).1 hc] at this
      cases this
      exact r.2.2.2
    · intro t t' k hst
      constructor
      · rintro ⟨c, hc, rfl⟩
        obtain ⟨c', hc', r⟩ := (key t t' hst).constraints.1 c hc
        exact ⟨c', hc', r.1.symm⟩
      · rintro ⟨c, hc, rfl⟩
        obtain ⟨c', hc', r⟩ := (key t t' hst).constraints.2 c hc
        exact ⟨c', hc', r.1⟩
  · rintro ⟨hn, hf⟩
    exact alike_state cb ca db da ob oa hB' hA' hD' hn hf

end Ddl.Crdb.Run

namespace Ddl.My.Run
open Ddl Spec
set_option autoImplicit false
variable {sd : Str → Str → Str}

theorem Tbl.Same.symm {T T' : Tbl} (h : T.Same T') : T'.Same T :=
  ⟨h.name.symm, h.cons.symm, h.options.symm, fun k => (h.cols k).symm, fun k c c' hc hc' hk => (h.notNull k c' c hc' hc fun hk' => hk (by
    simpa only [Tbl.IsKey, h.cons] using hk')).symm⟩

theorem Db.Same.symm {D D' : Db} (h : D.Same D') : D'.Same D :=
  fun n => ⟨(h n).1.symm, fun T T' e e' => ((h n).2 T' T e' e).symm⟩

theorem SameNotNull.symm {b a : List MStmt} (h : SameNotNull b a) : SameNotNull a b :=
  fun t t' c c' hs hc hc' e => (h t' t c' c ⟨hs.2.1, hs.1, hs.2.2.symm⟩ hc' hc e.symm).symm

theorem SameForm.symm {b a : List MStmt} (h : SameForm b a) : SameForm a b :=
  fun t t' k hs => (h t' t k ⟨hs.2.1, hs.1, hs.2.2.symm⟩).symm

theorem tableOf_col {t : CreateTable} (hd : DistinctNames t) {c : Column} (hc : c ∈ t.columns) :
    (tableOf t).cols c.name.name = some (colOf c) := by
  simp only [tableOf, find?_of_nodup (f := fun c : Column => c.name.name) hd.1 hc, Option.map_some]

theorem tableOf_con {t : CreateTable} (hd : DistinctNames t) {c : Constraint} (hc : c ∈ t.constraints) :
    (tableOf t).cons c.name.name = some ⟨c.bare, true⟩ := by
  simp only [tableOf, find?_of_nodup (f := fun c : Constraint => c.name.name) hd.2.1 hc, Option.map_some]

/-- The columns of a table are alike those of the same table. -/
theorem cols_alike {b a : List MStmt} {t t' : CreateTable} {E E' : Str → Option Con} (hn : SameNotNull b a) (hs : Stays b a t t')
    (d : DistinctNames t) (d' : DistinctNames t') (h : (ext (tableOf t) E).Same (ext (tableOf t') E')) {c : Column} (hc : c ∈ t.columns) :
    ∃ c' ∈ t'.columns, c.bare = c'.bare := by
  have h1 := h.cols c.name.name
  simp only [ext, tableOf_col d hc, Option.map_some] at h1
  have h2 : HasColumn t' c.name.name := tableOf_cols.1 (by
    cases e : (tableOf t').cols c.name.name with
    | none => rw [e] at h1; cases h1
    | some _ => rfl)
  obtain ⟨c', hc', en⟩ := h2
  rw [← en, tableOf_col d' hc', Option.map_some, Option.some.injEq] at h1
  simp only [colOf, Col.mk.injEq] at h1
  refine ⟨c', hc', ?_⟩
  simp only [Column.bare, Ident.bare, en, h1.1, h1.2.1, h1.2.2.1, h1.2.2.2.1, h1.2.2.2.2.2.1, h1.2.2.2.2.2.2.1, h1.2.2.2.2.2.2.2,
    hn t t' c c' hs hc hc' en.symm]

theorem alike_of_bare {c c' : Constraint} (h : c.bare = c'.bare) : c.Alike c' := by
  cases c <;> cases c' <;> simp_all [Constraint.Alike, Constraint.noAction, Constraint.bare]

theorem tableOf_option {t : CreateTable} (hd : DistinctNames t) {o : TableOption} (ho : o ∈ t.options) (hc : ¬ o.IsCounter) :
    (tableOf t).options o.name = some (o.value.map Ident.bare) := by
  have h1 : t.options.find? (fun x => !decide x.IsCounter && x.name == o.name) = some o := by
    have h2 := find?_of_nodup (f := fun o : TableOption => o.name) hd.2.2 ho
    have h3 : (t.options.find? (fun x => !decide x.IsCounter && x.name == o.name)).isSome := by
      rw [List.find?_isSome]
      exact ⟨o, ho, by simp [hc]⟩
    obtain ⟨x, hx⟩ := Option.isSome_iff_exists.1 h3
    have h4 := List.find?_some hx
    simp only [Bool.and_eq_true, beq_iff_eq] at h4
    have h5 := find?_of_nodup (f := fun o : TableOption => o.name) hd.2.2 (List.mem_of_find?_eq_some hx)
    rw [show x.name = o.name from h4.2, h2] at h5
    rw [hx, h5]
  simp only [tableOf, h1, Option.map_some]

theorem tableOf_option_some {t : CreateTable} {k : Str} {e : Expr} (h : (tableOf t).options k = some e) :
    ∃ o ∈ t.options, ¬ o.IsCounter ∧ o.name = k ∧ o.value.map Ident.bare = e := by
  simp only [tableOf, Option.map_eq_some_iff] at h
  obtain ⟨o, hf, rfl⟩ := h
  have := List.find?_some hf
  simp only [Bool.and_eq_true, beq_iff_eq, Bool.not_eq_true', decide_eq_false_iff_not] at this
  exact ⟨o, List.mem_of_find?_eq_some hf, this.1, this.2, rfl⟩

/-- The options of a table are those of the same table. -/
theorem options_same {t t' : CreateTable} {E E' : Str → Option Con}
    (d : DistinctNames t) (h : (ext (tableOf t) E).Same (ext (tableOf t') E')) {o : TableOption} (ho : o ∈ t.options) :
    o.IsCounter ∨ ∃ o' ∈ t'.options, o.bare = o'.bare := by
  by_cases hc : o.IsCounter
  · exact .inl hc
  · have h1 := tableOf_option d ho hc
    have h2 : (tableOf t).options = (tableOf t').options := h.options
    rw [h2] at h1
    obtain ⟨o', ho', -, e1, e2⟩ := tableOf_option_some h1
    exact .inr ⟨o', ho', by simp only [TableOption.bare, e1, e2]⟩

/-- The constraints of a table are alike those of the same table. -/
theorem cons_alike {b a : List MStmt} {t t' : CreateTable} {E E' : Str → Option Con} (hf : SameForm b a) (hs : Stays b a t t')
    (d : DistinctNames t) (d' : DistinctNames t') (h : (ext (tableOf t) E).Same (ext (tableOf t') E')) {c : Constraint}
    (hc : c ∈ t.constraints) : ∃ c' ∈ t'.constraints, c.Alike c' := by
  obtain ⟨c', hc', en⟩ := (hf t t' c.name.name hs).1 ⟨c, hc, rfl⟩
  have h1 := congrFun h.cons c.name.name
  simp only [ext, tableOf_con d hc] at h1
  rw [← en, tableOf_con d' hc'] at h1
  simp only [Option.some_or, Option.some.injEq, Con.mk.injEq, and_true] at h1
  exact ⟨c', hc', alike_of_bare h1⟩

/-- Every statement of a schema has an alike one in a schema of the same database. -/
theorem stmt_alike {b a : List MStmt} (cb : CreateOnly (ops sd) b) (db : DistinctObjects (ops sd) b)
    (da : DistinctObjects (ops sd) a) (nb : ∀ t, .createTable t ∈ b → DistinctNames t) (na : ∀ t, .createTable t ∈ a → DistinctNames t)
    (sb : NoStray b) (ob : OneForm b) (hD : (st b).Same (st a)) (hn : SameNotNull b a) (hf : SameForm b a) :
    ∀ s ∈ b, ∃ s' ∈ a, SameStmt CreateTable.Alike CreateIndex.Alike s s' := by
  have table : ∀ t, .createTable t ∈ b → ∃ t', Stays b a t t' ∧
      (ext (tableOf t) (ixs b t.name.diffStr)).Same (ext (tableOf t') (ixs a t.name.diffStr)) := by
    intro t ht
    have h1 := st_of_mem db ht
    cases e : st a t.name.diffStr with
    | none => rw [(hD _).1.2 e] at h1; cases h1
    | some T =>
      obtain ⟨t', ht', en, rfl⟩ := st_some e
      exact ⟨t', ⟨ht, ht', en.symm⟩, (hD _).2 _ _ h1 e⟩
  intro s hs
  cases s with
  | createTable t =>
    obtain ⟨t', hst, hT⟩ := table t hs
    have d := nb t hs
    have d' := na t' hst.2.1
    have hst' : Stays a b t' t := ⟨hst.2.1, hst.1, hst.2.2.symm⟩
    refine ⟨_, hst.2.1, .table ⟨hst.2.2, sameElems_matched.2 ⟨fun c hc => cols_alike hn hst d d' hT hc, ?_⟩,
      ⟨fun c hc => cons_alike hf hst d d' hT hc, ?_⟩, ?_, ?_⟩⟩
    · intro c' hc'
      obtain ⟨c, hc, r⟩ := cols_alike hn.symm hst' d' d hT.symm hc'
      exact ⟨c, hc, r.symm⟩
    · intro c' hc'
      obtain ⟨c, hc, r⟩ := cons_alike hf.symm hst' d' d hT.symm hc'
      exact ⟨c, hc, Eq.symm r⟩
    · intro o ho
      exact (options_same d hT ho).imp_right .inl
    · intro o' ho'
      refine (options_same d' hT.symm ho').imp_right ?_
      rintro ⟨o, ho, e⟩
      exact ⟨o, ho, e.symm⟩
  | createIndex i =>
    obtain ⟨t, ht, en⟩ := sb i hs
    obtain ⟨t', hst, hT⟩ := table t ht
    have hnone : (tableOf t).cons i.name.diffStr = none := tableOf_cons_none.2 (ob t i ht hs en.symm)
    have hnone' : (tableOf t').cons i.name.diffStr = none := by
      refine tableOf_cons_none.2 fun c' hc' e => ?_
      obtain ⟨c, hc, e'⟩ := (hf t t' i.name.diffStr hst).2 ⟨c', hc', e⟩
      exact ob t i ht hs en.symm c hc e'
    have h1 := congrFun hT.cons i.name.diffStr
    simp only [ext, hnone, hnone', Option.none_or, ixs] at h1
    rw [(idx_iff db).2 ⟨hs, en.symm, rfl⟩, Option.map_some] at h1
    cases e : idx a t.name.diffStr i.name.diffStr with
    | none => rw [e] at h1; cases h1
    | some i' =>
      obtain ⟨hi', e1, e2⟩ := idx_mem e
      rw [e, Option.map_some, Option.some.injEq, Con.mk.injEq] at h1
      simp only [indexOf, Constraint.index.injEq] at h1
      exact ⟨_, hi', .index ⟨e2.symm, en.symm.trans e1.symm, h1.1.2.1, h1.1.2.2⟩⟩
  | _ => exact absurd (cb _ hs) (by simp [creates])

theorem noStray_of {l : List MStmt} (h : ∀ q₁ s q₂, l = q₁ ++ s :: q₂ → OkAfter ([] ++ q₁) s) : NoStray l := by
  intro i hi
  obtain ⟨p, q, e⟩ := List.append_of_mem hi
  obtain ⟨-, t, ht, en, -⟩ := h p _ q e
  exact ⟨t, by rw [e]; exact List.mem_append_left _ ht, en⟩

theorem distinctNames_of {l : List MStmt} (h : ∀ q₁ s q₂, l = q₁ ++ s :: q₂ → OkAfter ([] ++ q₁) s) :
    ∀ t, .createTable t ∈ l → DistinctNames t := by
  intro t ht
  obtain ⟨p, q, e⟩ := List.append_of_mem ht
  exact (h p _ q e).1

/-- Schemas of the same database are alike, if they are written with `NOT NULL` alike and their indexes are written at the same places. -/
theorem alike_state {b a : List MStmt} {B A : Db} (cb : CreateOnly (ops sd) b) (ca : CreateOnly (ops sd) a) (db : DistinctObjects (ops sd) b)
    (da : DistinctObjects (ops sd) a) (ob : OneForm b) (oa : OneForm a)
    (hB : Runs Exec Db.empty b B) (hA : Runs Exec Db.empty a A) (hD : B.Same A) (hn : SameNotNull b a) (hf : SameForm b a) :
    SameSchema CreateTable.Alike CreateIndex.Alike b a := by
  rw [← st_nil] at hB hA
  have hns : NoStray [] := fun i hi => by cases hi
  obtain ⟨rfl, okb⟩ := created (sd := sd) (p := []) cb db ob hns hB
  obtain ⟨rfl, oka⟩ := created (sd := sd) (p := []) ca da oa hns hA
  simp only [List.nil_append] at hD
  have nb := distinctNames_of okb
  have na := distinctNames_of oka
  refine ⟨stmt_alike cb db da nb na (noStray_of okb) ob hD hn hf, fun s hs => ?_⟩
  obtain ⟨s', hs', r⟩ := stmt_alike ca da db na nb (noStray_of oka) oa hD.symm hn.symm hf.symm s hs
  refine ⟨s', hs', ?_⟩
  cases r with
  | table r =>
    obtain ⟨s'', hs'', r'⟩ := stmt_alike cb db da nb na (noStray_of okb) ob hD hn hf _ hs'
    cases r' with
    | table r' =>
      cases table_eq da hs'' hs (r'.name.symm.trans r.name.symm)
      exact .table r'
  | index r => exact .index ⟨r.name.symm, r.table.symm, r.unique.symm, r.columns.symm⟩

/-- Schemas of the same database have no difference, if they are written with `NOT NULL` alike and their indexes are written at the same places. -/
theorem same_state_to {b a : List MStmt} {B A : Db} (cb : CreateOnly (ops sd) b) (ca : CreateOnly (ops sd) a) (db : DistinctObjects (ops sd) b)
    (da : DistinctObjects (ops sd) a) (ob : OneForm b) (oa : OneForm a)
    (hB : Runs Exec Db.empty b B) (hA : Runs Exec Db.empty a A) (hD : B.Same A) (hn : SameNotNull b a) (hf : SameForm b a) :
    diff (ops sd) (some b) (some a) = .err .noDifference := by
  refine noDiff_of_alike da ?_ (alike_state cb ca db da ob oa hB hA hD hn hf)
  rw [← st_nil] at hA
  exact distinctNames_of (created (sd := sd) (p := []) ca da oa (fun i hi => by cases hi) hA).2

theorem same_state {b a : List MStmt} {B A : Db} (cb : CreateOnly (ops sd) b) (ca : CreateOnly (ops sd) a) (db : DistinctObjects (ops sd) b)
    (da : DistinctObjects (ops sd) a) (tb : Comparable b) (ta : Comparable a) (told : Told (ops sd) b a) (ob : OneForm b) (oa : OneForm a)
    (hB : Runs Exec Db.empty b B) (hA : Runs Exec Db.empty a A) (hD : B.Same A) :
    diff (ops sd) (some b) (some a) = .err .noDifference ↔ SameNotNull b a ∧ SameForm b a := by
  have hB' := hB
  have hA' := hA
  have hD' := hD
  rw [← st_nil] at hB hA
  have hns : NoStray [] := fun i hi => by cases hi
  obtain ⟨rfl, okb⟩ := created (sd := sd) (p := []) cb db ob hns hB
  obtain ⟨rfl, oka⟩ := created (sd := sd) (p := []) ca da oa hns hA
  simp only [List.nil_append] at hD
  have nb := distinctNames_of okb
  have na := distinctNames_of oka
  rw [noDiff_iff cb ca da tb ta na told]
  constructor
  · intro h
    have key : ∀ t t', Stays b a t t' → t.Alike t' := by
      intro t t' hst
      obtain ⟨s, hs, r⟩ := h.1 _ hst.1
      cases r with
      | table r =>
        cases table_eq da hst.2.1 hs (hst.2.2.symm.trans r.name)
        exact r
    constructor
    · intro t t' c c' hst hc hc' en
      obtain ⟨x, hx, r⟩ := (sameElems_matched.1 (key t t' hst).columns).2 c' hc'
      have hx' := congrArg (fun c : Column => c.name.name) r
      have := find?_of_nodup (f := fun c : Column => c.name.name) (nb t hst.1).1 hx
      rw [show x.name.name = c.name.name from Eq.trans hx' en.symm,
        find?_of_nodup (f := fun c : Column => c.name.name) (nb t hst.1).1 hc] at this
      cases this
      have e := congrArg Column.notNull r
      exact e
    · intro t t' k hst
      constructor
      · rintro ⟨c, hc, rfl⟩
        obtain ⟨c', hc', r⟩ := (key t t' hst).constraints.1 c hc
        exact ⟨c', hc', (alike_name r).symm⟩
      · rintro ⟨c, hc, rfl⟩
        obtain ⟨c', hc', r⟩ := (key t t' hst).constraints.2 c hc
        exact ⟨c', hc', alike_name r⟩
  · rintro ⟨hn, hf⟩
    exact alike_state cb ca db da ob oa hB' hA' hD' hn hf

end Ddl.My.Run

namespace Ddl.Sp.Run
open Ddl Spec
set_option autoImplicit false
variable {sd : Str → Str → Str}

theorem tableOf_col {t : CreateTable} (hd : DistinctNames t) {c : Column} (hc : c ∈ t.columns) :
    (tableOf t).cols c.name.name = some (colOf c) := by
  simp only [tableOf, find?_of_nodup (f := fun c : Column => c.name.name) hd.1 hc, Option.map_some]

theorem tableOf_col_some {t : CreateTable} {k : Str} {x : Col} (h : (tableOf t).cols k = some x) :
    ∃ c ∈ t.columns, c.name.name = k ∧ colOf c = x := by
  simp only [tableOf, Option.map_eq_some_iff] at h
  obtain ⟨c, hf, rfl⟩ := h
  have := List.find?_some hf
  exact ⟨c, List.mem_of_find?_eq_some hf, by simpa using this, rfl⟩

theorem con_mem {t : CreateTable} (hd : DistinctNames t) {c : Constraint} (hc : c ∈ t.constraints) :
    ∃ k, (tableOf t).cons k = some ⟨c.bare, true⟩ := by
  obtain ⟨n, hn⟩ := Option.ne_none_iff_exists'.1 (hd.2.2 c hc)
  refine ⟨n.name, ?_⟩
  have h1 : t.constraints.find? (fun c => c.Named n.name) = some c := by
    have h3 : (t.constraints.find? (fun c => c.Named n.name)).isSome := by
      rw [List.find?_isSome]
      exact ⟨c, hc, by simp [Constraint.Named, hn]⟩
    obtain ⟨x, hx⟩ := Option.isSome_iff_exists.1 h3
    have h4 := List.find?_some hx
    have h4 : x.name.map Ident.name = some n.name := of_decide_eq_true h4
    rw [hx, List.inj_on_of_nodup_map hd.2.1 (List.mem_of_find?_eq_some hx) hc (by rw [h4, hn]; rfl)]
  simp only [tableOf, h1, Option.map_some]

theorem tableOf_con_some {t : CreateTable} {k : Str} {x : Con} (h : (tableOf t).cons k = some x) :
    ∃ c ∈ t.constraints, x = ⟨c.bare, true⟩ := by
  simp only [tableOf, Option.map_eq_some_iff] at h
  obtain ⟨c, hf, rfl⟩ := h
  exact ⟨c, List.mem_of_find?_eq_some hf, rfl⟩

/-- Tables that are stored as the same are alike. -/
theorem table_alike_of {t t' : CreateTable} (d : DistinctNames t) (d' : DistinctNames t') (h : tableOf t = tableOf t') : t.Alike t' := by
  have half : ∀ {t t' : CreateTable}, DistinctNames t → tableOf t = tableOf t' →
      (∀ c ∈ t.columns, ∃ c' ∈ t'.columns, c.bare = c'.bare) ∧ ∀ c ∈ t.constraints, ∃ c' ∈ t'.constraints, c.bare = c'.bare := by
    intro t t' d h
    constructor
    · intro c hc
      have h1 := tableOf_col d hc
      rw [h] at h1
      obtain ⟨c', hc', e1, e2⟩ := tableOf_col_some h1
      simp only [colOf, Col.mk.injEq] at e2
      exact ⟨c', hc', by simp only [Column.bare, Ident.bare, e1, e2]⟩
    · intro c hc
      obtain ⟨k, h1⟩ := con_mem d hc
      rw [h] at h1
      obtain ⟨c', hc', e⟩ := tableOf_con_some h1
      simp only [Con.mk.injEq, and_true] at e
      exact ⟨c', hc', e⟩
  obtain ⟨h1, h2⟩ := half d h
  obtain ⟨h3, h4⟩ := half d' h.symm
  refine ⟨congrArg Tbl.name h, sameElems_matched.2 ⟨h1, fun c hc => ?_⟩, sameElems_matched.2 ⟨h2, fun c hc => ?_⟩, congrArg Tbl.options h,
    congrArg Tbl.policy h⟩
  · obtain ⟨c', hc', e⟩ := h3 c hc
    exact ⟨c', hc', e.symm⟩
  · obtain ⟨c', hc', e⟩ := h4 c hc
    exact ⟨c', hc', e.symm⟩

theorem stmt_alike {b a : List SStmt} (cb : CreateOnly (ops sd) b) (db : DistinctObjects (ops sd) b)
    (nb : ∀ t, .createTable t ∈ b → DistinctNames t) (na : ∀ t, .createTable t ∈ a → DistinctNames t) (hD : st b = st a) :
    ∀ s ∈ b, ∃ s' ∈ a, SameStmt CreateTable.Alike CreateIndex.Alike s s' := by
  intro s hs
  cases s with
  | createTable t =>
    have h1 : (st b).tables t.name.diffStr = some (tableOf t) := by simp only [st, (tab_iff db).2 ⟨hs, rfl⟩, Option.map_some]
    rw [hD] at h1
    obtain ⟨t', ht', -, e⟩ := tables_some h1
    exact ⟨_, ht', .table (table_alike_of (nb t hs) (na t' ht') e.symm)⟩
  | createIndex i =>
    have h1 : (st b).indexes i.name.diffStr = some (indexOf i) := by simp only [st, (idx_iff db).2 ⟨hs, rfl⟩, Option.map_some]
    rw [hD] at h1
    obtain ⟨i', hi', e1, e⟩ := indexes_some h1
    simp only [indexOf, Ix.mk.injEq] at e
    exact ⟨_, hi', .index ⟨e1.symm, e.2.1.symm, e.1.symm, e.2.2.symm⟩⟩
  | _ => exact absurd (cb _ hs) (by simp [creates])

theorem same_state {b a : List SStmt} {D : Db} (cb : CreateOnly (ops sd) b) (ca : CreateOnly (ops sd) a) (db : DistinctObjects (ops sd) b)
    (da : DistinctObjects (ops sd) a)
    (hB : Runs Exec Db.empty b D) (hA : Runs Exec Db.empty a D) : diff (ops sd) (some b) (some a) = .err .noDifference := by
  rw [← st_nil] at hB hA
  obtain ⟨rfl, okb⟩ := created (sd := sd) (p := []) cb db hB
  obtain ⟨hD, oka⟩ := created (sd := sd) (p := []) ca da hA
  simp only [List.nil_append] at hD
  have dn : ∀ {l : List SStmt}, (∀ q₁ s q₂, l = q₁ ++ s :: q₂ → OkAfter ([] ++ q₁) s) → ∀ t, .createTable t ∈ l → DistinctNames t := by
    intro l h t ht
    obtain ⟨p, q, e⟩ := List.append_of_mem ht
    exact (h p _ q e).1
  have nb := dn okb
  have na := dn oka
  refine noDiff_of_alike da na ⟨stmt_alike cb db nb na hD, fun s hs => ?_⟩
  obtain ⟨s', hs', r⟩ := stmt_alike ca da na nb hD.symm s hs
  refine ⟨s', hs', ?_⟩
  cases r with
  | table r => exact .table ⟨r.name.symm, fun x => (r.columns x).symm, fun x => (r.constraints x).symm, r.options.symm, r.policy.symm⟩
  | index r => exact .index ⟨r.name.symm, r.table.symm, r.unique.symm, r.columns.symm⟩

end Ddl.Sp.Run

namespace Ddl.Apply
open Ddl Cmd
set_option autoImplicit false

/-- `apply` when there is no difference. -/
theorem apply_nothing {α : Type} {w : Site} {c : Conf.Config} {left right stdin : Str} {r : Res α} {f : α → Res Str}
    (hs : diffSources w.toWorld c.dialect c.language left right = r >>= f) (h : r = .err .noDifference) :
    applyCommand w (.ok c) [left, right] stdin = ([.print s%"no difference\n"], .ok ()) := by
  have : diffSources w.toWorld c.dialect c.language left right = .err .noDifference := by rw [hs, h]; rfl
  simp only [applyCommand, this]

end Ddl.Apply
