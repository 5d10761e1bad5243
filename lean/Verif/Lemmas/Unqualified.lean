import Verif.Lemmas.Diff
import Verif.Lemmas.PgNoDiff
import Verif.Lemmas.ParseCreates
import Verif.Lemmas.ShowPgText

/-! # Schemas without a common table -/

namespace Ddl
open Spec
set_option autoImplicit false

section
variable {T I A N : Type} {o : Ops T I A N}

theorem mapRes_drops {l : List (Stmt T I A N)} (h : CreateOnly o l) :
    ∃ r, mapRes (dropOf o) l = .ok r ∧ ∀ t, .createTable t ∈ l → .dropTable [] false (o.tableName t) ∈ r := by
  induction l with
  | nil => exact ⟨[], rfl, by simp⟩
  | cons x l ih =>
    obtain ⟨r, h1, h2⟩ := ih fun y hy => h y (List.mem_cons_of_mem _ hy)
    have hx := h x List.mem_cons_self
    cases x with
    | createTable t =>
      refine ⟨.dropTable [] false (o.tableName t) :: r, by simp [mapRes, dropOf, h1], ?_⟩
      intro t' ht'
      rcases List.mem_cons.1 ht' with e | e
      · cases e; exact List.mem_cons_self
      · exact List.mem_cons_of_mem _ (h2 t' e)
    | createIndex i =>
      refine ⟨.dropIndex [] false (o.indexName i) :: r, by simp [mapRes, dropOf, h1], ?_⟩
      intro t' ht'
      rcases List.mem_cons.1 ht' with e | e
      · cases e
      · exact List.mem_cons_of_mem _ (h2 t' e)
    | _ => simp [creates] at hx

theorem mapRes_creates {l : List (Stmt T I A N)} (h : CreateOnly o l) : mapRes createOf l = .ok l := by
  induction l with
  | nil => rfl
  | cons x l ih =>
    have h1 := ih fun y hy => h y (List.mem_cons_of_mem _ hy)
    have hx := h x List.mem_cons_self
    cases x with
    | createTable t => simp [mapRes, createOf, h1]
    | createIndex i => simp [mapRes, createOf, h1]
    | _ => simp [creates] at hx

theorem findTable_none {t : T} {l : List (Stmt T I A N)} (h : ∀ t', .createTable t' ∈ l → (o.tableName t).diffStr ≠ (o.tableName t').diffStr) :
    findStmt o (.createTable t) l = none := by
  unfold findStmt
  rw [List.find?_eq_none]
  intro x hx
  cases x with
  | createTable t' => simpa [sameType, nameForDiff] using h t' hx
  | _ => simp [sameType]

/-- If no table stays, there are no errors: all tables are dropped, and all are created. -/
theorem diff_disjoint {b a : List (Stmt T I A N)} (cb : CreateOnly o b) (ca : CreateOnly o a) (hne : ddlStr o b ≠ ddlStr o a)
    (hd : ∀ t t', .createTable t ∈ b → .createTable t' ∈ a → (o.tableName t).diffStr ≠ (o.tableName t').diffStr)
    (hx : ∃ t, .createTable t ∈ b) : ∃ l, diff o (some b) (some a) = .ok l ∧
      (∀ t, .createTable t ∈ b → .dropTable [] false (o.tableName t) ∈ l) ∧ ∀ t, .createTable t ∈ a → .createTable t ∈ l := by
  obtain ⟨r, h1, h2⟩ := mapRes_drops (o := o) (l := onlyLeftStmt o b a) fun x hx => cb x (List.mem_filter.1 hx).1
  have h3 := mapRes_creates (o := o) (l := onlyLeftStmt o a b) fun x hx => ca x (List.mem_filter.1 hx).1
  have h4 : ∃ r', flatMapRes (alterOf o a) b = .ok r' := by
    clear h1 h2 h3 hne hx
    induction b with
    | nil => exact ⟨[], rfl⟩
    | cons x b ih =>
      obtain ⟨r', hr⟩ := ih (fun y hy => cb y (List.mem_cons_of_mem _ hy)) fun t t' ht => hd t t' (List.mem_cons_of_mem _ ht)
      have : ∃ q, alterOf o a x = .ok q := by
        have hx := cb x List.mem_cons_self
        cases x with
        | createTable t =>
          refine ⟨[], ?_⟩
          unfold alterOf
          dsimp only
          rw [findTable_none fun t' ht' => hd t t' List.mem_cons_self ht']
        | createIndex i =>
          unfold alterOf
          dsimp only
          split
          · split
            · exact ⟨_, rfl⟩
            · exact ⟨_, rfl⟩
          · exact ⟨_, rfl⟩
        | _ => simp [creates] at hx
      obtain ⟨q, hq⟩ := this
      exact ⟨q ++ r', by simp [flatMapRes, hq, hr]⟩
  obtain ⟨r', h4⟩ := h4
  have hb : ∀ t, .createTable t ∈ b → .dropTable [] false (o.tableName t) ∈ r := by
    intro t ht
    refine h2 t (List.mem_filter.2 ⟨ht, ?_⟩)
    rw [findTable_none fun t' ht' => hd t t' ht ht']
    rfl
  refine ⟨r ++ onlyLeftStmt o a b ++ r', ?_, ?_, ?_⟩
  · unfold diff
    dsimp only
    rw [if_neg hne, h1, h3, h4]
    simp only [bind_ok]
    rw [if_neg]
    obtain ⟨t, ht⟩ := hx
    have := hb t ht
    intro e
    have e := List.isEmpty_iff.1 e
    simp only [List.append_eq_nil_iff] at e
    rw [e.1.1] at this
    cases this
  · intro t ht
    simp only [List.mem_append]
    exact .inl (.inl (hb t ht))
  · intro t ht
    simp only [List.mem_append]
    refine .inl (.inr (List.mem_filter.2 ⟨ht, ?_⟩))
    rw [findTable_none fun t' ht' => (hd t' t ht' ht).symm]
    rfl

end

namespace Pg.Show

theorem newRawIdent_raw (d : Dialect) (raw : Str) : (newRawIdent d raw).raw = raw := by
  unfold newRawIdent
  generalize quotationMarks d = qs
  induction qs with
  | nil => rfl
  | cons q qs ih =>
    unfold newRawIdentQ
    split
    · rfl
    · exact ih

theorem newObjectName_none {d : Dialect} {raw : Str} (hn : (newObjectName d raw).schema = none) :
    newObjectName d raw = ⟨none, newRawIdent d raw⟩ ∧ ∀ x y, splitC '.' (newRawIdent d raw).name ≠ [x, y] := by
  unfold newObjectName at hn ⊢
  dsimp only at hn ⊢
  split at hn
  · cases hn
  · rename_i h
    exact ⟨rfl, h⟩

theorem splitC_full {s : Str} (hs : '.' ∉ s) : splitC '.' (pub ++ '.' :: s) = [pub, s] := by
  have : splitC '.' s = [s] := by
    induction s with
    | nil => rfl
    | cons x s ih =>
      simp only [List.mem_cons, not_or] at hs
      rw [splitC, if_neg (fun e => hs.1 e.symm), ih hs.2]
  simp [pub, splitC, this]

/-- A text with one dot is not the name of a table without schema. -/
theorem unqualified_ne {d : Dialect} {raw s : Str} (hs : '.' ∉ s) (hn : (newObjectName d raw).schema = none) :
    (newObjectName d raw).diffStr ≠ pub ++ '.' :: s := by
  obtain ⟨h1, h2⟩ := newObjectName_none hn
  rw [h1]
  intro e
  have e : (newRawIdent d raw).name = pub ++ '.' :: s := e
  exact h2 _ _ (by rw [e]; exact splitC_full hs)

theorem qualified_diffStr (s : Str) : (qualified s).diffStr = pub ++ '.' :: s := by
  simp [qualified, ObjectName.diffStr, Ident.diffStr, plain]

theorem qualified_str (s : Str) : (qualified s).str = pub ++ '.' :: s := by
  simp [qualified, ObjectName.str, Ident.diffStr, plain]

theorem str_front (t : CreateTable) : ∃ rest, t.str =
    commentStr t.comment ++ (s%"CREATE TABLE " ++ ((if t.ifNotExists then s%"IF NOT EXISTS " else []) ++ (t.name.str ++ ' ' :: rest))) :=
  ⟨s%"(\n" ++ (itemLines (if t.constraints = [] then s%"\n" else s%",\n") (t.columns.map Column.str) ++
    (itemLines s%"\n" (t.constraints.map Constraint.str) ++ (s%")" ++
    ((if t.options = [] then [] else s%"\n" ++ join s%",\n" (t.options.map TableOption.str)) ++ s%";\n")))), by simp [CreateTable.str]⟩

theorem seen_text_ne {db : Db} {sd : Str → Str → Str} {a : List PStmt} {t : Tbl} {ts : List Tbl} (ht : db.tables = t :: ts) (hp : IsPlain t.name)
    (oka : ∀ x ∈ a, StmtOk x) (hn : ∀ t', .createTable t' ∈ a → t'.name.schema = none) : ddlStr (Pg.ops sd) (seen db) ≠ ddlStr (Pg.ops sd) a := by
  obtain ⟨rest, hr⟩ : ∃ rest, ddlStr (Pg.ops sd) (seen db) = s%"CREATE TABLE public." ++ (t.name ++ ' ' :: rest) := by
    obtain ⟨rest, h⟩ := str_front t.seen
    refine ⟨rest ++ ddlStr (Pg.ops sd) (seen db).tail, ?_⟩
    have e : t.seen.str = s%"CREATE TABLE public." ++ (t.name ++ ' ' :: rest) := by
      rw [h]
      simp only [Tbl.seen, qualified_str, pub]
      rfl
    have e2 : (seen db) = .createTable t.seen :: (seen db).tail := by simp [seen, ht]
    rw [e2]
    show t.seen.str ++ _ = _
    rw [e]
    simp [ddlStr]
  rw [hr]
  cases a with
  | nil => simp [ddlStr]
  | cons x a =>
    have hx := oka x List.mem_cons_self
    cases x with
    | createTable t' =>
      obtain ⟨hc, -, ⟨raw, hL, e⟩, -⟩ := (show TabOk t' from hx)
      have hs := hn t' List.mem_cons_self
      obtain ⟨rest', hr'⟩ : ∃ rest', ddlStr (Pg.ops sd) (.createTable t' :: a) =
          s%"CREATE TABLE " ++ ((if t'.ifNotExists then s%"IF NOT EXISTS " else []) ++ (t'.name.str ++ ' ' :: rest')) := by
        obtain ⟨rest, h⟩ := str_front t'
        refine ⟨rest ++ ddlStr (Pg.ops sd) a, ?_⟩
        show t'.str ++ ddlStr (Pg.ops sd) a = _
        rw [h, hc]
        simp [commentStr]
      rw [hr']
      rw [e] at hs
      have e1 : t'.name.str = raw := by
        rw [e, (newObjectName_none hs).1]
        exact newRawIdent_raw _ _
      rw [e1]
      cases t'.ifNotExists with
      | true => simp
      | false =>
        intro h
        have h : s%"public." ++ (t.name ++ ' ' :: rest) = raw ++ ' ' :: rest' := by simpa using h
        rcases hL with ⟨h1, h2, h3⟩ | ⟨_, q, body, hq, h2, hb⟩ | ⟨_, h1, _⟩ | ⟨_, h1, _⟩ | ⟨_, h1, _⟩ | ⟨c, h1, h2⟩
        · have w : ∀ {u : Str} {r : Str}, (∀ c ∈ u, WordChar c) → (u ++ ' ' :: r).takeWhile (· ≠ ' ') = u := by
            intro u r hu
            rw [List.takeWhile_append_of_pos]
            · simp
            · intro c hc
              have := hu c hc
              simp only [ne_eq, decide_not, Bool.not_eq_eq_eq_not, Bool.not_true, decide_eq_false_iff_not]
              rintro rfl
              exact absurd this (by decide)
          have := congrArg (List.takeWhile (· ≠ ' ')) h
          rw [w h2, ← List.append_assoc, w] at this
          · have this : s%"public." ++ t.name = raw := this
            rw [← this] at hs
            have := newObjectName_full hp
            unfold fullName at this
            rw [this] at hs
            cases hs
          · intro c hc
            rcases List.mem_append.1 hc with hc | hc
            · exact (by decide : ∀ c ∈ s%"public.", WordChar c) c hc
            · exact (hp.2.1 c hc).1
        · dsimp only at h2
          rw [h2] at h
          simp at h
          rw [← h.1] at hq
          revert hq; decide
        · dsimp only at h1; rw [h1] at h; simp at h
        · dsimp only at h1; rw [h1] at h; simp at h
        · dsimp only at h1; rw [h1] at h; simp at h
        · dsimp only at h2
          rw [h2] at h
          simp at h
    | createIndex i =>
      have hc : i.comment = [] := (show IdxOk i from hx).1
      simp only [List.map_cons, ddlStr, List.flatten_cons, stmtStr, Pg.ops, CreateIndex.str, hc, commentStr, List.append_assoc]
      cases i.isUnique <;> simp
    | _ => exact hx.elim

theorem seen_createOnly {db : Db} {sd : Str → Str → Str} : CreateOnly (Pg.ops sd) (seen db) := by
  intro x hx
  rcases List.mem_append.1 hx with hx | hx <;> obtain ⟨y, -, rfl⟩ := List.mem_map.1 hx <;> rfl

/-- The tables of the database have a schema, and those of `a` have none. -/
theorem diff_unqualified {db : Db} {sd : Str → Str → Str} {s : Str} {a : List PStmt} (hp : ∀ t ∈ db.tables, IsPlain t.name) (hx : db.tables ≠ [])
    (ha : ReadFrom s a) (hn : ∀ t, .createTable t ∈ a → t.name.schema = none) :
    ∃ l, diff (Pg.ops sd) (some (seen db)) (some a) = .ok l ∧ (∀ t ∈ db.tables, .dropTable [] false (qualified t.name) ∈ l) ∧
      ∀ t, .createTable t ∈ a → .createTable t ∈ l := by
  have oka := stmtOk_of_readFrom ha
  obtain ⟨t0, ts, e0⟩ := List.exists_cons_of_ne_nil hx
  have hb : ∀ {t : CreateTable}, .createTable t ∈ seen db ↔ ∃ x ∈ db.tables, t = x.seen := by
    intro t
    simp [seen, eq_comm]
  obtain ⟨l, h1, h2, h3⟩ := diff_disjoint (o := Pg.ops sd) (b := seen db) (a := a) seen_createOnly (parse_creates ha.2.2)
    (seen_text_ne e0 (hp t0 (by rw [e0]; exact List.mem_cons_self)) oka hn) (by
      intro t t' ht ht'
      obtain ⟨x, hx, rfl⟩ := hb.1 ht
      obtain ⟨-, -, ⟨raw, -, e⟩, -⟩ := (show TabOk t' from oka _ ht')
      have hs := hn t' ht'
      rw [e] at hs
      show (qualified x.name).diffStr ≠ t'.name.diffStr
      rw [qualified_diffStr, e]
      exact (unqualified_ne (fun h => ((hp x hx).2.1 _ h).2.1 rfl) hs).symm)
    ⟨t0.seen, hb.2 ⟨t0, by rw [e0]; exact List.mem_cons_self, rfl⟩⟩
  exact ⟨l, h1, fun t ht => h2 _ (hb.2 ⟨t, ht, rfl⟩), h3⟩

end Pg.Show
end Ddl
