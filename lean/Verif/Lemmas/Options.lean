import Verif.Lemmas.Attr

/-! # Table options (MySQL) -/

namespace Ddl
open Spec

variable {sd : Str → Str → Str}

namespace My

theorem newRawIdent_raw (w : Str) : (newRawIdent .mysql w).str = w := by
  simp only [newRawIdent, Ident.str]
  induction quotationMarks .mysql with
  | nil => rfl
  | cons c r ih =>
    simp only [newRawIdentQ]
    split
    · rfl
    · exact ih

theorem option_upper {o : TableOption} (h : o.Parsed) : upper o.name = o.name ∧ '=' ∉ o.name := by
  obtain ⟨h, -⟩ := h
  simp only [List.mem_cons, List.not_mem_nil, or_false] at h
  rcases h with h | h | h | h | h <;> rw [h] <;> decide

theorem option_bare_iff {o p : TableOption} (ho : o.Parsed) (hp : p.Parsed) : o.diffStr = p.diffStr ↔ o.bare = p.bare := by
  refine ⟨fun h => ?_, TableOption.diffStr_of_bare⟩
  obtain ⟨-, v, hv⟩ := id ho
  obtain ⟨-, w, hw⟩ := id hp
  simp only [TableOption.diffStr, hv, hw, List.map_cons, List.map_nil, join, List.append_assoc, List.cons_append, List.nil_append] at h
  obtain ⟨h1, h2⟩ := append_sep_inj (option_upper ho).2 (option_upper hp).2 h
  have h2 : (newRawIdent .mysql v).name = (newRawIdent .mysql w).name := h2
  simp [TableOption.bare, h1, hv, hw, Ident.bare, h2]

/-- The options set by the change branch. -/
def changed (b a : List TableOption) : List TableOption :=
  b.flatMap (fun b => if upper b.name = s%"AUTO_INCREMENT" then [] else match findOption b.name a with
    | none => []
    | some a => if b.diffStr ≠ a.diffStr then [a] else [])

/-- The options set by the add branch. -/
def added (b a : List TableOption) : List TableOption :=
  (onlyLeftOption a b).flatMap (fun a => if upper a.name = s%"AUTO_INCREMENT" then [] else [a])

theorem sets_change {tn : ObjectName} {b a : List TableOption} :
    ((changeOptions sd tn b a).map Stmt.alterTable).filterMap setsOption = changed b a := by
  induction b with
  | nil => rfl
  | cons x b ih =>
    simp only [changeOptions, changed, List.flatMap_cons, List.map_append, List.filterMap_append] at ih ⊢
    rw [ih]
    congr 1
    by_cases h : upper x.name = s%"AUTO_INCREMENT"
    · simp only [h, if_true]; rfl
    · simp only [h, if_false]
      cases findOption x.name a with
      | none => rfl
      | some y => by_cases h' : x.diffStr ≠ y.diffStr <;> simp [h', setsOption]

theorem sets_add {tn : ObjectName} {b a : List TableOption} :
    ((addOptions sd tn b a).map Stmt.alterTable).filterMap setsOption = added b a := by
  simp only [addOptions, added]
  induction onlyLeftOption a b with
  | nil => rfl
  | cons x b ih =>
    simp only [List.flatMap_cons, List.map_append, List.filterMap_append] at ih ⊢
    rw [ih]
    congr 1
    split <;> rfl

/-- The options that the statements for a table set. -/
theorem sets_diffTable {nv : Bool} {t t' : CreateTable} {l : List MStmt}
    (h : diffCreateTable sd nv (some t) (some t') = .ok l) :
    l.filterMap setsOption = changed t.options t'.options ++ added t.options t'.options := by
  obtain ⟨rfl, -, -⟩ := diffTable_ok h
  have hnil : ∀ {l : List MStmt}, (∀ x ∈ l, setsOption x = none) → l.filterMap setsOption = [] := fun h =>
    List.filterMap_eq_nil_iff.2 h
  simp only [List.filterMap_append, List.map_append]
  rw [sets_change, sets_add, hnil (l := (renameTable _ _ _).map _), hnil (l := dropConstraints _ _ _ _ _),
    hnil (l := (diffColumns _ _ _ _).map _), hnil (l := replaceConstraints _ _ _ _ _ _), hnil (l := addConstraints _ _ _ _ _)]
  · simp
  · intro x hx
    obtain ⟨k, _, rfl⟩ := List.mem_map.1 hx
    cases k <;> rfl
  · intro x hx
    obtain ⟨k, _, hk⟩ := List.mem_flatMap.1 hx
    split at hk
    · simp at hk
    · split at hk
      · split at hk
        · simp at hk; rcases hk with rfl | rfl <;> rfl
        · simp at hk; rcases hk with rfl | rfl <;> rfl
      · simp at hk
  · intro x hx
    obtain ⟨y, hy, rfl⟩ := List.mem_map.1 hx
    rcases List.mem_append.1 hy with hy | hy
    · obtain ⟨c, _, hc⟩ := List.mem_flatMap.1 hy
      simp only [columnRound] at hc
      split at hc
      · simp at hc; subst hc; rfl
      · simp only [alterColumn, List.mem_append] at hc
        rcases hc with hc | hc <;> split at hc <;> simp at hc <;> subst hc <;> rfl
    · obtain ⟨c, _, rfl⟩ := List.mem_map.1 hy
      rfl
  · intro x hx
    obtain ⟨k, _, hk⟩ := List.mem_flatMap.1 hx
    split at hk
    · split at hk <;> simp at hk <;> subst hk <;> rfl
    · simp at hk
  · intro x hx
    obtain ⟨y, hy, rfl⟩ := List.mem_map.1 hx
    simp only [renameTable] at hy
    split at hy
    · simp at hy; subst hy; rfl
    · simp at hy

theorem findOption_iff {n : Str} {l : List TableOption} (hd : (l.map (·.name)).Nodup) {o : TableOption} :
    findOption n l = some o ↔ o ∈ l ∧ o.name = n := by
  constructor
  · exact fun h => find?_some_mem (f := fun o : TableOption => o.name) h
  · rintro ⟨h, rfl⟩
    exact find?_of_nodup (f := fun o : TableOption => o.name) hd h

theorem mem_changed {b a : List TableOption} (hd : (a.map (·.name)).Nodup) {o : TableOption} :
    o ∈ changed b a ↔ ∃ x ∈ b, upper x.name ≠ s%"AUTO_INCREMENT" ∧ o ∈ a ∧ o.name = x.name ∧ x.diffStr ≠ o.diffStr := by
  simp only [changed, List.mem_flatMap]
  refine exists_congr fun x => and_congr_right fun hx => ?_
  split
  · rename_i h; simp [h]
  · rename_i h
    split
    · rename_i hf
      rw [findOption, find?_none_iff (f := fun o : TableOption => o.name)] at hf
      simp only [List.not_mem_nil, false_iff, not_and]
      intro _ ho e
      exact absurd (List.mem_map.2 ⟨o, ho, e⟩) hf
    · rename_i y hf
      have hy := (findOption_iff hd).1 hf
      split
      · rename_i hne
        simp only [List.mem_singleton]
        constructor
        · rintro rfl; exact ⟨h, hy.1, hy.2, hne⟩
        · rintro ⟨-, ho, e, -⟩
          have := (findOption_iff hd).2 ⟨ho, e⟩
          rw [hf] at this
          exact (Option.some.inj this).symm
      · rename_i hne
        simp only [List.not_mem_nil, false_iff, not_and, not_not]
        intro _ ho e
        have := (findOption_iff hd).2 ⟨ho, e⟩
        rw [hf] at this
        rw [← Option.some.inj this]
        exact not_not.1 hne

theorem mem_added {b a : List TableOption} {o : TableOption} :
    o ∈ added b a ↔ o ∈ a ∧ o.name ∉ b.map (·.name) ∧ upper o.name ≠ s%"AUTO_INCREMENT" := by
  simp only [added, List.mem_flatMap, onlyLeftOption, List.mem_filter, Option.isNone_iff_eq_none, findOption]
  constructor
  · rintro ⟨x, ⟨hx, hf⟩, ho⟩
    rw [find?_none_iff (f := fun o : TableOption => o.name)] at hf
    split at ho
    · simp at ho
    · rename_i h
      rw [List.mem_singleton] at ho
      subst ho
      exact ⟨hx, hf, h⟩
  · rintro ⟨h1, h2, h3⟩
    exact ⟨o, ⟨h1, (find?_none_iff (f := fun o : TableOption => o.name)).2 h2⟩, by simp [h3]⟩

/-- Which options are set. -/
theorem mem_sets {b a : List TableOption} (hd' : (a.map (·.name)).Nodup) (hb : ∀ o ∈ b, o.Parsed) (ha : ∀ o ∈ a, o.Parsed)
    (hd : (b.map (·.name)).Nodup) {o : TableOption} :
    o ∈ changed b a ++ added b a ↔ o ∈ a ∧ o.name ≠ s%"AUTO_INCREMENT" ∧ o.bare ∉ b.map TableOption.bare := by
  rw [List.mem_append, mem_changed hd', mem_added]
  constructor
  · rintro (⟨x, hx, h1, ho, e, hne⟩ | ⟨ho, h1, h2⟩)
    · rw [(option_upper (hb x hx)).1] at h1
      refine ⟨ho, by rw [e]; exact h1, fun hm => ?_⟩
      obtain ⟨y, hy, e'⟩ := List.mem_map.1 hm
      have hn : y.name = o.name := by have := congrArg TableOption.name e'; exact this
      have : findOption x.name b = some y := (findOption_iff hd).2 ⟨hy, by rw [hn, e]⟩
      rw [(findOption_iff hd).2 ⟨hx, rfl⟩] at this
      obtain rfl := Option.some.inj this
      exact hne (TableOption.diffStr_of_bare e')
    · rw [(option_upper (ha o ho)).1] at h2
      refine ⟨ho, h2, fun hm => h1 ?_⟩
      obtain ⟨y, hy, e'⟩ := List.mem_map.1 hm
      exact List.mem_map.2 ⟨y, hy, by have := congrArg TableOption.name e'; exact this⟩
  · rintro ⟨ho, h1, h2⟩
    by_cases hm : o.name ∈ b.map (·.name)
    · obtain ⟨x, hx, e⟩ := List.mem_map.1 hm
      refine .inl ⟨x, hx, by rw [(option_upper (hb x hx)).1, e]; exact h1, ho, e.symm, fun e' => ?_⟩
      exact h2 (List.mem_map.2 ⟨x, hx, (option_bare_iff (hb x hx) (ha o ho)).1 e'⟩)
    · exact .inr ⟨ho, hm, by rw [(option_upper (ha o ho)).1]; exact h1⟩

theorem changed_names {b a : List TableOption} : ((changed b a).map (·.name)).Sublist (b.map (·.name)) := by
  induction b with
  | nil => exact List.Sublist.refl _
  | cons x b ih =>
    simp only [changed, List.flatMap_cons, List.map_append, List.map_cons] at ih ⊢
    split
    · exact ih.cons _
    · split
      · exact ih.cons _
      · rename_i y hf
        split
        · have := (find?_some_mem (f := fun o : TableOption => o.name) hf).2
          simp only [List.map_cons, List.map_nil, List.singleton_append]
          rw [this]
          exact ih.cons_cons _
        · exact ih.cons _

theorem added_eq {b a : List TableOption} : (added b a).Sublist a := by
  have h : added b a = (onlyLeftOption a b).filter (fun o => upper o.name ≠ s%"AUTO_INCREMENT") := by
    simp only [added]
    induction onlyLeftOption a b with
    | nil => rfl
    | cons x l ih =>
      rw [List.flatMap_cons, ih]
      by_cases hx : upper x.name = s%"AUTO_INCREMENT" <;> simp [hx]
  rw [h]
  exact List.filter_sublist.trans List.filter_sublist

theorem sets_nodup {b a : List TableOption} (hd : (b.map (·.name)).Nodup) (hd' : (a.map (·.name)).Nodup) :
    ((changed b a ++ added b a).map (·.name)).Nodup := by
  rw [List.map_append, List.nodup_append]
  refine ⟨hd.sublist changed_names, hd'.sublist (added_eq.map _), ?_⟩
  intro x hx y hy e
  subst e
  obtain ⟨o, ho, rfl⟩ := List.mem_map.1 hy
  exact (mem_added.1 ho).2.1 (changed_names.subset hx)

/-- Tables that agree except for options. -/
theorem diffTable_sameBody {nv : Bool} {t t' : CreateTable} (hc : (t'.columns.map (·.name.name)).Nodup)
    (hk : (t'.constraints.map (·.name.name)).Nodup) (h : SameBody t t') :
    diffCreateTable sd nv (some t) (some t') =
      if t.str = t'.str then .err .noDifference
      else if changeOptions sd t'.name t.options t'.options ++ addOptions sd t'.name t.options t'.options = [] then .err .noDifference
      else .ok ((changeOptions sd t'.name t.options t'.options ++ addOptions sd t'.name t.options t'.options).map Stmt.alterTable) := by
  obtain ⟨h1, h2, h3⟩ := h
  obtain ⟨h4, h5⟩ := sameElems_of h3
  have h0 : renamedName t.name t'.name = t'.name := by simp [renamedName, ObjectName.diffStr_of_bare h1]
  simp only [diffCreateTable, h0]
  split
  · rfl
  · rw [renameTable_same (ObjectName.diffStr_of_bare h1), diffColumns_same hc h2,
      dropConstraints_same (fun k hk => ?_), replaceConstraints_same hk (fun k hk => ?_),
      addConstraints_same (fun k hk => ?_)]
    · simp
    · obtain ⟨k', hk', e⟩ := h5 k hk
      exact ⟨k', hk', (Constraint.diffStr_of_bare e).2.symm⟩
    · obtain ⟨k', hk', e⟩ := h4 k hk
      exact ⟨k', hk', (Constraint.diffStr_of_bare e).2, (Constraint.diffStr_of_bare e).1⟩
    · obtain ⟨k', hk', e⟩ := h4 k hk
      exact ⟨k', hk', (Constraint.diffStr_of_bare e).2⟩

theorem diffTable_countless {nv : Bool} {t t' : CreateTable} (hd : DistinctNames t') (h : SameBody t t')
    (ho : SameElems ((countless t.options).map TableOption.bare) ((countless t'.options).map TableOption.bare)) :
    diffCreateTable sd nv (some t) (some t') = .err .noDifference := by
  rw [diffTable_sameBody hd.1 hd.2.1 h]
  obtain ⟨h7, h8⟩ := sameElems_of ho
  have hup : ∀ l : List TableOption, ∀ o ∈ l, o ∉ countless l → upper o.name = s%"AUTO_INCREMENT" := by
    intro l o hm hn
    have : o.name = s%"AUTO_INCREMENT" := by
      by_contra hne
      exact hn (List.mem_filter.2 ⟨hm, by simpa using hne⟩)
    rw [this]; decide
  rw [changeOptions_same hd.2.2 (fun k hk => ?_), addOptions_same (fun k hk => ?_)]
  · simp
  · by_cases hm : k ∈ countless t'.options
    · obtain ⟨x, hx, e⟩ := h8 k hm
      exact .inr ⟨x, (List.mem_filter.1 hx).1, by have := congrArg TableOption.name e; exact this⟩
    · exact .inl (hup _ k hk hm)
  · by_cases hm : k ∈ countless t.options
    · obtain ⟨y, hy, e⟩ := h7 k hm
      exact .inr ⟨y, (List.mem_filter.1 hy).1, by have := congrArg TableOption.name e; exact this, TableOption.diffStr_of_bare e⟩
    · exact .inl (hup _ k hk hm)

theorem sameBody_refl {t : CreateTable} {o o' : List TableOption} :
    SameBody { t with options := o } { t with options := o' } := ⟨rfl, fun _ => Iff.rfl, fun _ => Iff.rfl⟩

theorem option_str {o : TableOption} {w : Str} (h : o.value = [newRawIdent .mysql w]) : o.str = o.name ++ s%"=" ++ w := by
  have h2 := newRawIdent_raw w
  simp [TableOption.str, h, exprStr, exprStrFrom, h2]

theorem tableStr_options {t : CreateTable} : ∃ P : Str, ∀ o, ({ t with options := o } : CreateTable).str =
    P ++ (if o = [] then [] else s%" " ++ join s%" " (o.map TableOption.str)) ++ s%";\n" := by
  refine ⟨commentStr t.comment ++ s%"CREATE TABLE " ++ (if t.ifNotExists then s%"IF NOT EXISTS " else []) ++ t.name.str ++ s%" (\n" ++
    itemLines (if t.constraints = [] then s%"\n" else s%",\n") (t.columns.map Column.str) ++
    itemLines s%"\n" (t.constraints.map Constraint.str) ++ s%")", fun o => ?_⟩
  simp only [CreateTable.str]

/-- One option changes. -/
theorem diffTable_optionChanged {nv : Bool} {t : CreateTable} {p s : List TableOption} {o o' : TableOption}
    (hc : (t.columns.map (·.name.name)).Nodup) (hk : (t.constraints.map (·.name.name)).Nodup)
    (hd : ((p ++ o :: s).map (·.name)).Nodup) (hn : o.name = o'.name) (ho : o.Parsed) (ho' : o'.Parsed) (hne : o.bare ≠ o'.bare)
    (hai : o.name ≠ s%"AUTO_INCREMENT") :
    diffCreateTable sd nv (some { t with options := p ++ o :: s }) (some { t with options := p ++ o' :: s }) =
      .ok [.alterTable ⟨sd o.str o'.str, t.name, .tableOption o'⟩] := by
  rw [diffTable_sameBody (by exact hc) (by exact hk) sameBody_refl]
  have hd' : ((p ++ o' :: s).map (·.name)).Nodup := by simpa [hn] using hd
  have hstr : ({ t with options := p ++ o :: s } : CreateTable).str ≠ ({ t with options := p ++ o' :: s } : CreateTable).str := by
    obtain ⟨P, hP⟩ := tableStr_options (t := t)
    obtain ⟨A, B, hj⟩ := join_mid (sep := s%" ") (p.map TableOption.str) (s.map TableOption.str)
    rw [hP, hP]
    intro e
    have e := List.append_cancel_left (List.append_cancel_right e)
    simp only [List.append_eq_nil_iff, reduceCtorEq, and_false, if_false, List.map_append, List.map_cons, hj] at e
    have e := append_mid_inj (List.append_cancel_left e)
    obtain ⟨v, hv⟩ := ho.2
    obtain ⟨w, hw⟩ := ho'.2
    rw [option_str hv, option_str hw, hn] at e
    have e : v = w := List.append_cancel_left e
    exact hne (by simp [TableOption.bare, hn, hv, hw, e])
  rw [if_neg hstr]
  have hadd : addOptions sd t.name (p ++ o :: s) (p ++ o' :: s) = [] := by
    refine addOptions_same (fun y hy => .inr ?_)
    have := List.mem_map_of_mem (f := fun o : TableOption => o.name) hy
    have : y.name ∈ (p ++ o :: s).map (·.name) := by simpa [hn] using this
    obtain ⟨x, hx, e⟩ := List.mem_map.1 this
    exact ⟨x, hx, e⟩
  have h1 : ∀ l : List TableOption, (∀ x ∈ l, x ∈ p ++ o' :: s) → changeOptions sd t.name l (p ++ o' :: s) = [] := fun l hl =>
    changeOptions_same hd' (fun x hx => .inr ⟨x, hl x hx, rfl, rfl⟩)
  have h2 : ∀ l₁ l₂ : List TableOption, changeOptions sd t.name (l₁ ++ l₂) (p ++ o' :: s) =
      changeOptions sd t.name l₁ (p ++ o' :: s) ++ changeOptions sd t.name l₂ (p ++ o' :: s) := by
    intro l₁ l₂; simp [changeOptions]
  have hch : changeOptions sd t.name (p ++ o :: s) (p ++ o' :: s) = [⟨sd o.str o'.str, t.name, .tableOption o'⟩] := by
    rw [h2, h1 p (fun x hx => by simp [hx]), List.nil_append, show o :: s = [o] ++ s from rfl, h2,
      h1 s (fun x hx => by simp [hx]), List.append_nil]
    have h3 : findOption o.name (p ++ o' :: s) = some o' := (findOption_iff hd').2 ⟨by simp, hn.symm⟩
    have h4 : o.diffStr ≠ o'.diffStr := fun e => hne ((option_bare_iff ho ho').1 e)
    have h5 : upper o.name ≠ s%"AUTO_INCREMENT" := by rw [(option_upper ho).1]; exact hai
    simp [changeOptions, h3, h4, h5]
  simp only [hadd, hch]
  rfl

theorem join_length_lt {sep x : Str} (hs : sep ≠ []) (p s : List Str) (h : p ++ s ≠ []) :
    (join sep (p ++ s)).length < (join sep (p ++ x :: s)).length := by
  have hc : ∀ a : Str, ∀ l : List Str, l ≠ [] → join sep (a :: l) = a ++ sep ++ join sep l := by
    intro a l hl
    cases l with
    | nil => exact absurd rfl hl
    | cons b l => rfl
  have hsl : 0 < sep.length := List.length_pos_iff.2 hs
  induction p with
  | nil =>
    rw [List.nil_append, List.nil_append, hc x s (by simpa using h)]
    simp only [List.length_append]
    omega
  | cons a p ih =>
    rw [List.cons_append, List.cons_append, hc a (p ++ x :: s) (by simp)]
    by_cases hp : p ++ s = []
    · rw [hp]
      simp only [List.length_append, join]
      omega
    · rw [hc a (p ++ s) hp]
      have := ih hp
      simp only [List.length_append] at this ⊢
      omega

/-- One option is added. -/
theorem diffTable_optionAdded {nv : Bool} {t : CreateTable} {p s : List TableOption} {o : TableOption}
    (hc : (t.columns.map (·.name.name)).Nodup) (hk : (t.constraints.map (·.name.name)).Nodup)
    (hd : ((p ++ o :: s).map (·.name)).Nodup) (ho : o.Parsed) (hai : o.name ≠ s%"AUTO_INCREMENT") :
    diffCreateTable sd nv (some { t with options := p ++ s }) (some { t with options := p ++ o :: s }) =
      .ok [.alterTable ⟨sd [] o.str, t.name, .tableOption o⟩] := by
  rw [diffTable_sameBody (by exact hc) (by exact hk) sameBody_refl]
  have hstr : ({ t with options := p ++ s } : CreateTable).str ≠ ({ t with options := p ++ o :: s } : CreateTable).str := by
    obtain ⟨P, hP⟩ := tableStr_options (t := t)
    rw [hP, hP]
    intro e
    have e := congrArg List.length (List.append_cancel_left (List.append_cancel_right e))
    by_cases h : p ++ s = []
    · simp [h] at e
    · have := join_length_lt (sep := s%" ") (x := o.str) (by simp) (p.map TableOption.str) (s.map TableOption.str) (by simpa using h)
      simp only [h, List.append_eq_nil_iff, reduceCtorEq, and_false, if_false, List.map_append, List.map_cons, List.length_append,
        List.length_cons, List.length_nil] at e this
      omega
  rw [if_neg hstr]
  have hnot : o.name ∉ (p ++ s).map (·.name) := by
    simp only [List.map_append, List.map_cons] at hd ⊢
    exact (List.nodup_middle.1 hd |> List.nodup_cons.1).1
  have hch : changeOptions sd t.name (p ++ s) (p ++ o :: s) = [] := by
    refine changeOptions_same hd (fun x hx => .inr ⟨x, ?_, rfl, rfl⟩)
    rcases List.mem_append.1 hx with hx | hx <;> simp [hx]
  have honly : onlyLeftOption (p ++ o :: s) (p ++ s) = [o] := by
    have hf : ∀ x ∈ p ++ s, (findOption x.name (p ++ s)).isNone = false := by
      intro x hx
      rw [← Bool.not_eq_true, Option.isNone_iff_eq_none, findOption, find?_none_iff (f := fun o : TableOption => o.name), not_not]
      exact List.mem_map_of_mem hx
    have ho : (findOption o.name (p ++ s)).isNone = true := by
      rw [Option.isNone_iff_eq_none, findOption, find?_none_iff (f := fun o : TableOption => o.name)]
      exact hnot
    simp only [onlyLeftOption, List.filter_append]
    rw [List.filter_eq_nil_iff.2 (fun x hx => by simp [hf x (by simp [hx])]), List.filter_cons_of_pos (by exact ho),
      List.filter_eq_nil_iff.2 (fun x hx => by simp [hf x (by simp [hx])])]
    rfl
  have h5 : upper o.name ≠ s%"AUTO_INCREMENT" := by rw [(option_upper ho).1]; exact hai
  have hadd : addOptions sd t.name (p ++ s) (p ++ o :: s) = [⟨sd [] o.str, t.name, .tableOption o⟩] := by
    simp [addOptions, honly, h5]
  simp only [hadd, hch]
  rfl

end My
end Ddl

namespace Ddl
open Spec

variable {sd : Str → Str → Str}

namespace My

theorem foldl_runColumn' {nv : Bool} {t t' : CreateTable} {l : List MStmt}
    (h : diffCreateTable sd nv (some t) (some t') = .ok l ∨
      diffCreateTable sd nv (some t) (some t') = .err .noDifference ∧ t.str ≠ t'.str ∧ l = [])
    (hd : (t.columns.map (·.name.name)).Nodup)
    (hd' : (t'.columns.map (·.name.name)).Nodup) {b a : Column} (hb : b ∈ t.columns) (ha : a ∈ t'.columns)
    (hn : b.name.name = a.name.name) : l.foldl (runColumn b.name.name) b = runAlter b a := by
  rcases h with h | ⟨h, hs, rfl⟩
  · exact foldl_runColumn h hd hd' hb ha hn
  · simp only [diffCreateTable, hs, if_false] at h
    split at h
    · rename_i he
      have he := List.isEmpty_iff.1 he
      simp only [List.append_eq_nil_iff, List.map_eq_nil_iff] at he
      have := foldl_diffColumns (sd := sd) (tn := renamedName t.name t'.name) hd hd' hb ha hn
      rw [he.1.1.1.2] at this
      exact this
    · cases h

theorem sameColumn_runAlter {b a : Column} (hn : b.name.name = a.name.name) (hb : b.Plain) (ha : a.Plain)
    (hc : optName a.characterSet = []) : SameColumn (runAlter b a) a := by
  simp only [runAlter]
  by_cases hm : needsModify b a
  · simp only [hm, if_true]
    split
    · rename_i hd
      simp only [dropDefault, Bool.and_eq_true, Option.isNone_iff_eq_none] at hd
      exact ⟨rfl, rfl, rfl, hc.symm, rfl, rfl, by simp [Column.defaultWords, hd.2], rfl, rfl, rfl⟩
    · exact ⟨rfl, rfl, rfl, hc.symm, rfl, rfl, rfl, rfl, rfl, rfl⟩
  · simp only [hm, if_false]
    exact same_of_not_needsModify hn hb ha hm

theorem charset_runAlter {b a : Column} (h : optName b.characterSet ≠ optName a.characterSet) :
    optName (runAlter b a).characterSet = [] := by
  have : needsModify b a := by
    refine .inr (.inl fun e => h ?_)
    revert e
    cases b.characterSet <;> cases a.characterSet <;> exact id
  simp only [runAlter, this, if_true]
  split <;> rfl

end My
end Ddl

namespace Ddl

theorem infix_of_mem_flatten {α : Type} {l : List (List α)} {x : List α} (h : x ∈ l) : x <:+: l.flatten := by
  obtain ⟨p, s, rfl⟩ := List.append_of_mem h
  exact ⟨p.flatten, s.flatten, by simp⟩

theorem My.modify_clause {m : My.Modify} {x : Str} (h : x ∈ [s%"MODIFY " ++ m.name.str ++ s%" " ++ m.dataType.str,
    (if m.characterSet = none then [] else s%" CHARACTER SET " ++ My.identStr m.characterSet),
    (if m.collate = none then [] else s%" COLLATE " ++ My.identStr m.collate),
    (if m.notNull then s%" NOT NULL" else s%" NULL"),
    (if m.autoIncrement then s%" AUTO_INCREMENT" else []),
    (if m.default = none then [] else s%" " ++ My.defaultStr m.default),
    (if m.onAction = [] then [] else s%" " ++ m.onAction),
    (if m.comment = [] then [] else s%" COMMENT " ++ m.comment)]) : x <:+: m.str := by
  have := infix_of_mem_flatten h
  have e : ∀ l : List Str, l.flatten = m.str → x <:+: l.flatten → x <:+: m.str := fun l e h => e ▸ h
  refine e _ ?_ this
  simp only [My.Modify.str, List.flatten_cons, List.flatten_nil, List.append_nil, List.append_assoc]

end Ddl

namespace Ddl

variable {sd : Str → Str → Str}

theorem Pg.replaceConstraints_infix {nv : Bool} {tn : ObjectName} {before after : List Pg.Constraint} {k a : Pg.Constraint}
    (hk : k ∈ before) (hf : Pg.findConstraint k.name.name after = some a) (hne : k.diffStr ≠ a.diffStr) :
    [⟨sd k.str [], tn, .dropConstraint k.name⟩, ⟨sd [] a.str, tn, .addConstraint a nv⟩] <:+:
      Pg.replaceConstraints sd nv tn before after := by
  obtain ⟨p, s, rfl⟩ := List.append_of_mem hk
  exact ⟨Pg.replaceConstraints sd nv tn p after, Pg.replaceConstraints sd nv tn s after,
    by simp [Pg.replaceConstraints, hf, hne]⟩

theorem Crdb.replaceConstraints_infix {nv : Bool} {tn : ObjectName} {before after : List Crdb.Constraint} {k : Crdb.Constraint}
    {n r : Ident} {cs rcs : List Crdb.ColumnIdent} {act : Str}
    (hk : k ∈ before) (hf : Crdb.findConstraint k.name.name after = some (.foreignKey n cs r rcs act))
    (hne : k.diffStr ≠ (Crdb.Constraint.foreignKey n cs r rcs act).diffStr) :
    [.alterTable ⟨sd k.str [], tn, .dropConstraint k.name⟩,
      .alterTable ⟨sd [] (Crdb.Constraint.foreignKey n cs r rcs act).str, tn, .addConstraint (.foreignKey n cs r rcs act) nv⟩] <:+:
      Crdb.replaceConstraints sd nv tn before after := by
  obtain ⟨p, s, rfl⟩ := List.append_of_mem hk
  exact ⟨Crdb.replaceConstraints sd nv tn p after, Crdb.replaceConstraints sd nv tn s after,
    by simp [Crdb.replaceConstraints, hf, hne]⟩

end Ddl
