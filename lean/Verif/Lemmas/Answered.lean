import Verif.Spec.Answered
import Verif.Lemmas.Reason
import Verif.Lemmas.DiffTotal

/-! # Every difference of a changed table is answered -/

namespace Ddl
open Spec
set_option autoImplicit false

section
variable {T I A N : Type} {o : Ops T I A N}

/-- What the difference of two tables says is in the migration. -/
theorem diff_table_said {b a r : List (Stmt T I A N)} (h : diff o (some b) (some a) = .ok r)
    (hu : ((tableDefs a).map fun t => (o.tableName t).diffStr).Nodup) {t t' : T} (ht : t ∈ tableDefs b) (ht' : t' ∈ tableDefs a)
    (hn : (o.tableName t).diffStr = (o.tableName t').diffStr) : o.diffTable t t' = .err .noDifference ∨ ∃ l, o.diffTable t t' = .ok l ∧ ∀ s ∈ l, s ∈ r := by
  obtain ⟨ds, cs, rs, hd, -, hc, hr, rfl, -⟩ := diff_ok h
  obtain ⟨l, hl, hal⟩ := forall₂_mem_left hr _ (tableDefs_mem ht)
  have hf : findStmt o (.createTable t) a = some (.createTable t') := by
    cases hf : findStmt o (.createTable t) a with
    | none =>
      rw [findStmt, List.find?_eq_none] at hf
      exact absurd (by simp [sameType, nameForDiff, hn]) (hf _ (tableDefs_mem ht'))
    | some x =>
      obtain ⟨h1, h2, h3⟩ := findStmt_some hf
      cases x <;> simp only [sameType, Bool.false_eq_true] at h2
      rename_i t₂
      have e : (o.tableName t₂).diffStr = (o.tableName t').diffStr := h3.symm.trans hn
      rw [List.inj_on_of_nodup_map hu (mem_tableDefs h1) ht' e]
  simp only [alterOf, hf] at hal
  split at hal
  · rename_i l' hd'
    cases hal
    exact .inr ⟨l, hd', fun s hs => by simp only [List.mem_append, List.mem_flatten]; exact .inr ⟨l, hl, hs⟩⟩
  · rename_i hd'
    exact .inl hd'
  all_goals cases hal

theorem find_unique {K : Type} {f : K → Str} {l : List K} (hl : (l.map f).Nodup) {x : K} (hx : x ∈ l) {n : Str} (hn : f x = n) :
    l.find? (fun c => f c == n) = some x := by
  cases h : l.find? (fun c => f c == n) with
  | none => exact absurd (by simp [hn]) (List.find?_eq_none.1 h x hx)
  | some y =>
    obtain ⟨h1, h2⟩ := find?_some_mem h
    rw [List.inj_on_of_nodup_map hl h1 hx (h2.trans hn.symm)]

end

/-! ## PostgreSQL -/

namespace Pg
variable {sd : Str → Str → Str} {t t' : CreateTable}

theorem columns_answered (hu : (t'.columns.map (·.name.name)).Nodup) :
    ColumnsAnswered t t' fun x => ∃ c, ⟨c, t'.name, x⟩ ∈ diffColumns sd t'.name t.columns t'.columns := by
  have hin : ∀ c₀ ∈ t.columns, ∀ x, x ∈ columnRound sd t'.name t'.columns c₀ → x ∈ diffColumns sd t'.name t.columns t'.columns :=
    fun c₀ h x hx => List.mem_append_left _ (List.mem_flatMap.2 ⟨c₀, h, hx⟩)
  refine ⟨fun c hc hno => ⟨_, List.mem_append_right _ (List.mem_map.2 ⟨c, ?_, rfl⟩)⟩, fun c₀ h0 hno => ⟨sd c₀.str [], hin c₀ h0 _ ?_⟩, fun c₀ h0 c hc e => ?_⟩
  · simp only [onlyLeftColumn, List.mem_filter, Option.isNone_iff_eq_none]
    exact ⟨hc, List.find?_eq_none.2 fun x hx => by simpa using hno x hx⟩
  · have hf : findColumn c₀.name.name t'.columns = none := List.find?_eq_none.2 fun x hx => by simpa using hno x hx
    simp only [columnRound, hf]
    simp
  · have hf : findColumn c₀.name.name t'.columns = some c := find_unique (f := fun c : Column => c.name.name) hu hc e.symm
    have hr : ∀ x, x ∈ alterColumn sd t'.name c₀ c → x ∈ diffColumns sd t'.name t.columns t'.columns := fun x hx =>
      hin c₀ h0 x (by simpa only [columnRound, hf] using hx)
    refine ⟨fun h => ⟨sd c₀.str c.str, hr _ ?_⟩, fun h1 h2 => ⟨sd c₀.str c.str, hr _ ?_⟩, fun h1 h2 => ⟨sd c₀.str c.str, hr _ ?_⟩,
      fun h1 h2 => ⟨sd c₀.str c.str, hr _ ?_⟩, fun h1 h2 => ⟨sd c₀.str c.str, hr _ ?_⟩⟩
    · simp [alterColumn, h]
    · simp [alterColumn, h1, h2]
    · have : c.default ≠ none := by intro e; simp [e] at h1
      simp [alterColumn, h1, h2, this]
    · simp [alterColumn, h1, h2]
    · simp [alterColumn, h1, h2]

theorem table_said (hn : t.name.diffStr = t'.name.diffStr) (hs : t.str ≠ t'.str) {said : AlterTable → Prop}
    (h : (ops sd).diffTable t t' = .err .noDifference ∨ ∃ l, (ops sd).diffTable t t' = .ok l ∧ ∀ s ∈ l, ∀ x, s = .alterTable x → said x) :
    ∀ x ∈ diffColumns sd t'.name t.columns t'.columns, said x := by
  intro x hx
  have h1 : renamedName t.name t'.name = t'.name := by simp [renamedName, hn]
  simp only [ops, diffCreateTable, if_neg hs, h1] at h
  rcases h with h | ⟨l, h, hl⟩
  · split at h
    · rename_i hem
      simp only [List.isEmpty_iff, List.append_eq_nil_iff] at hem
      simp [hem.1.1.2] at hx
    · cases h
  · split at h
    · cases h
    · cases h
      refine hl (.alterTable x) (List.mem_map.2 ⟨x, ?_, rfl⟩) x rfl
      simp only [List.mem_append] at hx ⊢
      tauto

end Pg

/-! ## CockroachDB -/

namespace Crdb
variable {sd : Str → Str → Str} {t t' : CreateTable}

theorem columns_answered (hu : (t'.columns.map (·.name.name)).Nodup) :
    ColumnsAnswered t t' fun x => ∃ c, ⟨c, t'.name, x⟩ ∈ diffColumns sd t'.name t.columns t'.columns := by
  have hin : ∀ c₀ ∈ t.columns, ∀ x, x ∈ columnRound sd t'.name t'.columns c₀ → x ∈ diffColumns sd t'.name t.columns t'.columns :=
    fun c₀ h x hx => List.mem_append_left _ (List.mem_flatMap.2 ⟨c₀, h, hx⟩)
  refine ⟨fun c hc hno => ⟨_, List.mem_append_right _ (List.mem_map.2 ⟨c, ?_, rfl⟩)⟩, fun c₀ h0 hno hv => ⟨sd c₀.str [], hin c₀ h0 _ ?_⟩, fun c₀ h0 c hc e => ?_⟩
  · simp only [onlyLeftColumn, List.mem_filter, Option.isNone_iff_eq_none]
    exact ⟨hc, List.find?_eq_none.2 fun x hx => by simpa using hno x hx⟩
  · have hf : findColumn c₀.name.name t'.columns = none := List.find?_eq_none.2 fun x hx => by simpa using hno x hx
    simp only [columnRound, hf]
    split
    · rename_i h
      simp only [Option.any_eq_true, decide_eq_true_eq] at h
      exact absurd h hv
    · simp
  · have hf : findColumn c₀.name.name t'.columns = some c := find_unique (f := fun c : Column => c.name.name) hu hc e.symm
    have hr : ∀ x, x ∈ alterColumn sd t'.name c₀ c → x ∈ diffColumns sd t'.name t.columns t'.columns := fun x hx =>
      hin c₀ h0 x (by simpa only [columnRound, hf] using hx)
    refine ⟨fun h => ⟨sd c₀.str c.str, hr _ ?_⟩, fun h1 h2 => ⟨sd c₀.str c.str, hr _ ?_⟩, fun h1 h2 => ⟨sd c₀.str c.str, hr _ ?_⟩,
      fun h1 h2 => ⟨sd c₀.str c.str, hr _ ?_⟩, fun h1 h2 => ⟨sd c₀.str c.str, hr _ ?_⟩⟩
    · simp [alterColumn, h]
    · simp [alterColumn, h1, h2]
    · have : c.default ≠ none := by intro e; simp [e] at h1
      simp [alterColumn, h1, h2, this]
    · simp [alterColumn, h1, h2]
    · simp [alterColumn, h1, h2]

theorem table_said (hn : t.name.diffStr = t'.name.diffStr) (hs : t.str ≠ t'.str) {said : AlterTable → Prop}
    (h : (ops sd).diffTable t t' = .err .noDifference ∨ ∃ l, (ops sd).diffTable t t' = .ok l ∧ ∀ s ∈ l, ∀ x, s = .alterTable x → said x) :
    ∀ x ∈ diffColumns sd t'.name t.columns t'.columns, said x := by
  intro x hx
  have h1 : renamedName t.name t'.name = t'.name := by simp [renamedName, hn]
  simp only [ops, diffCreateTable, if_neg hs, h1] at h
  rcases h with h | ⟨l, h, hl⟩
  · split at h
    · rename_i hem
      simp only [List.isEmpty_iff, List.append_eq_nil_iff, List.map_eq_nil_iff] at hem
      simp [hem.1.1.2] at hx
    · cases h
  · split at h
    · cases h
    · cases h
      refine hl (.alterTable x) ?_ x rfl
      simp only [List.mem_append, List.mem_map] at hx ⊢
      exact .inl (.inl (.inr ⟨x, hx, rfl⟩))

end Crdb

/-! ## MySQL -/

namespace My
variable {sd : Str → Str → Str} {t t' : CreateTable}

theorem columns_answered (hu : (t'.columns.map (·.name.name)).Nodup) :
    ColumnsAnswered t t' fun x => ∃ c, ⟨c, t'.name, x⟩ ∈ diffColumns sd t'.name t.columns t'.columns := by
  have hin : ∀ c₀ ∈ t.columns, ∀ x, x ∈ columnRound sd t'.name t'.columns c₀ → x ∈ diffColumns sd t'.name t.columns t'.columns :=
    fun c₀ h x hx => List.mem_append_left _ (List.mem_flatMap.2 ⟨c₀, h, hx⟩)
  refine ⟨fun c hc hno => ⟨_, List.mem_append_right _ (List.mem_map.2 ⟨c, ?_, rfl⟩)⟩, fun c₀ h0 hno => ⟨sd c₀.str [], hin c₀ h0 _ ?_⟩, fun c₀ h0 c hc e => ?_⟩
  · simp only [onlyLeftColumn, List.mem_filter, Option.isNone_iff_eq_none]
    exact ⟨hc, List.find?_eq_none.2 fun x hx => by simpa using hno x hx⟩
  · have hf : findColumn c₀.name.name t'.columns = none := List.find?_eq_none.2 fun x hx => by simpa using hno x hx
    simp only [columnRound, hf]
    simp
  · have hf : findColumn c₀.name.name t'.columns = some c := find_unique (f := fun c : Column => c.name.name) hu hc e.symm
    have hr : ∀ x, x ∈ alterColumn sd t'.name c₀ c → x ∈ diffColumns sd t'.name t.columns t'.columns := fun x hx =>
      hin c₀ h0 x (by simpa only [columnRound, hf] using hx)
    refine ⟨fun h => ⟨modifyOf c, ⟨sd c₀.str c.str, hr _ ?_⟩, rfl, rfl, rfl, rfl, rfl, rfl, rfl, rfl⟩, fun h1 h2 => ⟨sd c₀.str c.str, hr _ ?_⟩⟩
    · have : needsModify c₀ c := by
        unfold needsModify dropDefault
        rcases h with h | h | h | h | h | h | h | h
        · exact .inl h
        · exact .inr (.inl h)
        · exact .inr (.inr (.inl h))
        · exact .inr (.inr (.inr (.inl h)))
        · refine .inr (.inr (.inr (.inr (.inl ⟨?_, h.2⟩))))
          cases hd : c.default <;> simp_all
        · exact .inr (.inr (.inr (.inr (.inr (.inl h)))))
        · exact .inr (.inr (.inr (.inr (.inr (.inr (.inl h))))))
        · exact .inr (.inr (.inr (.inr (.inr (.inr (.inr h))))))
      simp [alterColumn, this]
    · simp [alterColumn, dropDefault, h1, h2]

theorem options_answered (hu : (t'.options.map (·.name)).Nodup) :
    OptionsAnswered t t' fun x => ∃ c, ⟨c, t'.name, x⟩ ∈ changeOptions sd t'.name t.options t'.options ++ addOptions sd t'.name t.options t'.options := by
  intro p hp ha hd
  rcases hd with hno | ⟨q, hq, e, hne⟩
  · refine ⟨_, List.mem_append_right _ (List.mem_flatMap.2 ⟨p, ?_, by rw [if_neg ha]; exact .head _⟩)⟩
    simp only [onlyLeftOption, List.mem_filter, Option.isNone_iff_eq_none]
    exact ⟨hp, List.find?_eq_none.2 fun x hx => by simpa using hno x hx⟩
  · have hf : findOption q.name t'.options = some p := find_unique (f := TableOption.name) hu hp e.symm
    refine ⟨sd q.str p.str, List.mem_append_left _ (List.mem_flatMap.2 ⟨q, hq, ?_⟩)⟩
    rw [if_neg (by rw [e]; exact ha)]
    simp [hf, hne]

theorem table_said (hn : t.name.diffStr = t'.name.diffStr) (hs : t.str ≠ t'.str) {said : AlterTable → Prop}
    (h : (ops sd).diffTable t t' = .err .noDifference ∨ ∃ l, (ops sd).diffTable t t' = .ok l ∧ ∀ s ∈ l, ∀ x, s = .alterTable x → said x) :
    ∀ x ∈ diffColumns sd t'.name t.columns t'.columns ++ (changeOptions sd t'.name t.options t'.options ++ addOptions sd t'.name t.options t'.options), said x := by
  intro x hx
  have h1 : renamedName t.name t'.name = t'.name := by simp [renamedName, hn]
  simp only [ops, diffCreateTable, if_neg hs, h1] at h
  rcases h with h | ⟨l, h, hl⟩
  · split at h
    · rename_i hem
      simp only [List.isEmpty_iff, List.append_eq_nil_iff, List.map_eq_nil_iff] at hem
      simp [hem.1.1.1.2, hem.2.1, hem.2.2] at hx
    · cases h
  · split at h
    · cases h
    · cases h
      refine hl (.alterTable x) ?_ x rfl
      simp only [List.mem_append, List.mem_map] at hx ⊢
      rcases hx with hx | hx
      · exact .inl (.inl (.inl (.inr ⟨x, hx, rfl⟩)))
      · exact .inr ⟨x, hx, rfl⟩

end My

/-! ## Spanner -/

namespace Sp
variable {sd : Str → Str → Str} {t t' : CreateTable}

theorem columns_answered (hu : (t'.columns.map (·.name.name)).Nodup) :
    ColumnsAnswered t t' fun x => ∃ c, ⟨c, t'.name, x⟩ ∈ diffColumns sd t'.name t.columns t'.columns := by
  have hin : ∀ c₀ ∈ t.columns, ∀ x, x ∈ columnRound sd t'.name t'.columns c₀ → x ∈ diffColumns sd t'.name t.columns t'.columns :=
    fun c₀ h x hx => List.mem_append_left _ (List.mem_flatMap.2 ⟨c₀, h, hx⟩)
  refine ⟨fun c hc hno => ⟨_, List.mem_append_right _ (List.mem_map.2 ⟨c, ?_, rfl⟩)⟩, fun c₀ h0 hno => ⟨sd c₀.str [], hin c₀ h0 _ ?_⟩, fun c₀ h0 c hc e => ?_⟩
  · simp only [onlyLeftColumn, List.mem_filter, Option.isNone_iff_eq_none]
    exact ⟨hc, List.find?_eq_none.2 fun x hx => by simpa using hno x hx⟩
  · have hf : findColumn c₀.name.name t'.columns = none := List.find?_eq_none.2 fun x hx => by simpa using hno x hx
    simp only [columnRound, hf]
    simp
  · have hf : findColumn c₀.name.name t'.columns = some c := find_unique (f := fun c : Column => c.name.name) hu hc e.symm
    have hr : ∀ x, x ∈ alterColumn sd t'.name c₀ c → x ∈ diffColumns sd t'.name t.columns t'.columns := fun x hx =>
      hin c₀ h0 x (by simpa only [columnRound, hf] using hx)
    refine ⟨fun h => ⟨sd c₀.str c.str, hr _ ?_⟩, fun h1 h2 => ⟨sd c₀.str c.str, hr _ ?_⟩, fun h1 h2 => ⟨sd c₀.str c.str, hr _ ?_⟩,
      fun h1 h2 => ⟨sd c₀.str c.str, hr _ ?_⟩, fun h1 h2 => ⟨sd c₀.str c.str, hr _ ?_⟩⟩
    · simp [alterColumn, h]
    · simp [alterColumn, h1, h2]
    · have : c.default ≠ none := by intro e; simp [e] at h1
      simp [alterColumn, h1, h2, this]
    · simp [alterColumn, h1, h2]
    · have : c.options ≠ none := by intro e; simp [e] at h1
      simp [alterColumn, h1, h2, this]

theorem onlyLeft_okOrNil (right : List Constraint) : ∀ l acc : List Constraint, OkOrNil (onlyLeftConstraint right acc l)
  | [], acc => .inl ⟨acc, rfl⟩
  | c :: l, acc => by
    refine (nameStr_okOrNil c).bind fun n _ => (findConstraint_okOrNil n right).bind fun f _ => ?_
    cases f with
    | none => exact (appendConstraint_okOrNil acc c).bind fun acc' _ => onlyLeft_okOrNil right l acc'
    | some _ => exact onlyLeft_okOrNil right l acc

theorem policy_answered : PolicyAnswered t t' fun x => ∃ c, ⟨c, t'.name, x⟩ ∈ diffRowDeletionPolicy sd t'.name t.rowDeletionPolicy t'.rowDeletionPolicy := by
  refine ⟨fun p h1 h2 h3 => ⟨sd [] p.str, ?_⟩, fun q h1 h2 h3 => ⟨sd q.str [], ?_⟩, fun q p h1 h2 h3 => ⟨sd q.str p.str, ?_⟩⟩
  · have : optionDiffStr none ≠ optionDiffStr (some p) := fun e => h3 e.symm
    simp [diffRowDeletionPolicy, h1, h2, this]
  · have : optionDiffStr (some q) ≠ optionDiffStr none := h3
    simp [diffRowDeletionPolicy, h1, h2, this]
  · have : optionDiffStr (some q) ≠ optionDiffStr (some p) := h3
    simp [diffRowDeletionPolicy, h1, h2, this]

theorem table_said (hn : t.name.diffStr = t'.name.diffStr) (hop : optionsDiffStr t.options = optionsDiffStr t'.options) (hs : t.str ≠ t'.str) {said : AlterTable → Prop}
    (h : (ops sd).diffTable t t' = .err .noDifference ∨ ∃ l, (ops sd).diffTable t t' = .ok l ∧ ∀ s ∈ l, ∀ x, s = .alterTable x → said x) :
    ∀ x ∈ diffColumns sd t'.name t.columns t'.columns ++ diffRowDeletionPolicy sd t'.name t.rowDeletionPolicy t'.rowDeletionPolicy, said x := by
  intro x hx
  have h1 : renamedName t.name t'.name = t'.name := by simp [renamedName, hn]
  simp only [ops, diffCreateTable, if_neg hs, h1] at h
  rw [if_neg (by simp [hop])] at h
  have hx' : x ∈ diffColumns sd t'.name t.columns t'.columns ∨ x ∈ diffRowDeletionPolicy sd t'.name t.rowDeletionPolicy t'.rowDeletionPolicy := List.mem_append.1 hx
  generalize diffColumns sd t'.name t.columns t'.columns = dc at h hx'
  generalize diffRowDeletionPolicy sd t'.name t.rowDeletionPolicy t'.rowDeletionPolicy = dp at h hx'
  rcases flatMapRes_okOrNil t.constraints fun x _ => dropConstraint_okOrNil sd t'.name t'.constraints x with ⟨d, hd⟩ | hd
  · rcases flatMapRes_okOrNil t.constraints fun x _ => replaceConstraint_okOrNil sd false t'.name t'.constraints x with ⟨e, he⟩ | he
    · rcases onlyLeft_okOrNil t.constraints t'.constraints [] with ⟨g, hg⟩ | hg
      · simp only [hd, he, hg, Res.ok_bind] at h
        rcases h with h | ⟨l, h, hl⟩
        · split at h
          · rename_i hem
            simp only [List.isEmpty_iff, List.append_eq_nil_iff] at hem
            rw [hem.1.1.1.2, hem.2] at hx'
            simp at hx'
          · cases h
        · split at h
          · cases h
          · cases h
            refine hl (.alterTable x) (List.mem_map.2 ⟨x, ?_, rfl⟩) x rfl
            simp only [List.mem_append]
            rcases hx' with hx' | hx'
            · exact .inl (.inl (.inl (.inr hx')))
            · exact .inr hx'
      · simp only [hd, he, hg, Res.ok_bind] at h
        rcases h with h | ⟨l, h, -⟩ <;> cases h
    · simp only [hd, he, Res.ok_bind] at h
      rcases h with h | ⟨l, h, -⟩ <;> cases h
  · simp only [hd] at h
    rcases h with h | ⟨l, h, -⟩ <;> cases h

end Sp

theorem Pg.ColumnsAnswered.mono {t t' : Pg.CreateTable} {p q : Pg.Action → Prop} (h : Pg.ColumnsAnswered t t' p) (f : ∀ x, p x → q x) :
    Pg.ColumnsAnswered t t' q :=
  ⟨fun c hc hn => f _ (h.1 c hc hn), fun c hc hn => f _ (h.2.1 c hc hn), fun c₀ h0 c hc e => ⟨fun h' => f _ ((h.2.2 c₀ h0 c hc e).1 h'),
      fun h1 h2 => f _ ((h.2.2 c₀ h0 c hc e).2.1 h1 h2), fun h1 h2 => f _ ((h.2.2 c₀ h0 c hc e).2.2.1 h1 h2),
      fun h1 h2 => f _ ((h.2.2 c₀ h0 c hc e).2.2.2.1 h1 h2), fun h1 h2 => f _ ((h.2.2 c₀ h0 c hc e).2.2.2.2 h1 h2)⟩⟩

theorem Crdb.ColumnsAnswered.mono {t t' : Crdb.CreateTable} {p q : Crdb.Action → Prop} (h : Crdb.ColumnsAnswered t t' p) (f : ∀ x, p x → q x) :
    Crdb.ColumnsAnswered t t' q :=
  ⟨fun c hc hn => f _ (h.1 c hc hn), fun c hc hn hv => f _ (h.2.1 c hc hn hv), fun c₀ h0 c hc e => ⟨fun h' => f _ ((h.2.2 c₀ h0 c hc e).1 h'),
      fun h1 h2 => f _ ((h.2.2 c₀ h0 c hc e).2.1 h1 h2), fun h1 h2 => f _ ((h.2.2 c₀ h0 c hc e).2.2.1 h1 h2),
      fun h1 h2 => f _ ((h.2.2 c₀ h0 c hc e).2.2.2.1 h1 h2), fun h1 h2 => f _ ((h.2.2 c₀ h0 c hc e).2.2.2.2 h1 h2)⟩⟩

theorem My.ColumnsAnswered.mono {t t' : My.CreateTable} {p q : My.Action → Prop} (h : My.ColumnsAnswered t t' p) (f : ∀ x, p x → q x) :
    My.ColumnsAnswered t t' q :=
  ⟨fun c hc hn => f _ (h.1 c hc hn), fun c hc hn => f _ (h.2.1 c hc hn), fun c₀ h0 c hc e => ⟨fun h' => by
      obtain ⟨m, h1, h2⟩ := (h.2.2 c₀ h0 c hc e).1 h'
      exact ⟨m, f _ h1, h2⟩, fun h1 h2 => f _ ((h.2.2 c₀ h0 c hc e).2 h1 h2)⟩⟩

theorem Sp.ColumnsAnswered.mono {t t' : Sp.CreateTable} {p q : Sp.Action → Prop} (h : Sp.ColumnsAnswered t t' p) (f : ∀ x, p x → q x) :
    Sp.ColumnsAnswered t t' q :=
  ⟨fun c hc hn => f _ (h.1 c hc hn), fun c hc hn => f _ (h.2.1 c hc hn), fun c₀ h0 c hc e => ⟨fun h' => f _ ((h.2.2 c₀ h0 c hc e).1 h'),
      fun h1 h2 => f _ ((h.2.2 c₀ h0 c hc e).2.1 h1 h2), fun h1 h2 => f _ ((h.2.2 c₀ h0 c hc e).2.2.1 h1 h2),
      fun h1 h2 => f _ ((h.2.2 c₀ h0 c hc e).2.2.2.1 h1 h2), fun h1 h2 => f _ ((h.2.2 c₀ h0 c hc e).2.2.2.2 h1 h2)⟩⟩

theorem My.OptionsAnswered.mono {t t' : My.CreateTable} {p q : My.Action → Prop} (h : My.OptionsAnswered t t' p) (f : ∀ x, p x → q x) :
    My.OptionsAnswered t t' q :=
  fun x hx ha hd => f _ (h x hx ha hd)

theorem Sp.PolicyAnswered.mono {t t' : Sp.CreateTable} {p q : Sp.Action → Prop} (h : Sp.PolicyAnswered t t' p) (f : ∀ x, p x → q x) :
    Sp.PolicyAnswered t t' q :=
  ⟨fun x h1 h2 h3 => f _ (h.1 x h1 h2 h3), fun x h1 h2 h3 => f _ (h.2.1 x h1 h2 h3), fun x y h1 h2 h3 => f _ (h.2.2 x y h1 h2 h3)⟩

end Ddl
