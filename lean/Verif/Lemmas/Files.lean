import Verif.Lemmas.Extract
import Verif.Spec.Extract

/-!
# Lemmas about whole files and directories
-/

namespace Ddl
open Ddl Spec Gen
set_option autoImplicit false

theorem find_split {α : Type} {p : α → Bool} {l : List α} {c : α} (h : l.find? p = some c) :
    ∃ pre post, l = pre ++ c :: post ∧ p c = true ∧ ∀ x ∈ pre, ¬ p x = true := by
  obtain ⟨h1, pre, post, h2, h3⟩ := List.find?_eq_some_iff_append.1 h
  exact ⟨pre, post, h2, h1, fun x hx => by have := h3 x hx; simpa using this⟩

theorem groupSource_none {env : Env} {file : Str} {n : Node} {g : List CommentLine} (h : ¬ Tagged env.ddlTag g) :
    groupSource env file n g = none := by
  unfold groupSource
  rw [Option.map_eq_none_iff, List.find?_eq_none]
  intro c hc ht
  exact h ⟨c, hc, hasTag_iff.1 ht⟩

theorem groupSource_some {env : Env} {file : Str} {n : Node} {g : List CommentLine} (h : Tagged env.ddlTag g) :
    ∃ r, groupSource env file n g = some r ∧ SourceOf env.ddlTag file (n, g) r := by
  unfold groupSource
  cases hf : g.find? (fun c => hasTag env.ddlTag c.text) with
  | none =>
    obtain ⟨c, hc, ht⟩ := h
    rw [List.find?_eq_none] at hf
    exact absurd (hasTag_iff.2 ht) (hf c hc)
  | some c =>
    obtain ⟨pre, post, h1, h2, h3⟩ := find_split hf
    refine ⟨_, rfl, rfl, rfl, ⟨pre, c, post, h1, hasTag_iff.1 h2, fun x hx ht => h3 x hx (hasTag_iff.2 ht), rfl⟩, ?_, ?_⟩
    · exact (inspect_eq n.specs).1
    · exact (inspect_eq n.specs).2

theorem sources_eq (env : Env) (file : Str) (nodes : List Node) :
    List.Forall₂ (SourceOf env.ddlTag file) (taggedGroups env.ddlTag nodes)
      (nodes.flatMap (fun n => n.groups.filterMap (groupSource env file n))) := by
  have hg : ∀ (n : Node) (gs : List (List CommentLine)), List.Forall₂ (SourceOf env.ddlTag file)
      ((gs.map (fun g => (n, g))).filter (fun p => @decide (Tagged env.ddlTag p.2) (Classical.propDecidable _)))
      (gs.filterMap (groupSource env file n)) := by
    intro n gs
    induction gs with
    | nil => exact .nil
    | cons g gs ih =>
      rw [List.map_cons, List.filter_cons, List.filterMap_cons]
      by_cases h : Tagged env.ddlTag g
      · obtain ⟨r, h1, h2⟩ := groupSource_some (file := file) (n := n) h
        simp only [h, h1, decide_true, if_true]
        exact .cons h2 ih
      · simp only [h, groupSource_none h, decide_false, Bool.false_eq_true, if_false]
        exact ih
  unfold taggedGroups
  induction nodes with
  | nil => exact .nil
  | cons n nodes ih =>
    rw [List.flatMap_cons, List.flatMap_cons, List.filter_append]
    exact List.rel_append (hg n n.groups) ih

theorem taggedGroups_nil {tag : Str} {nodes : List Node} :
    taggedGroups tag nodes = [] ↔ ∀ n ∈ nodes, ∀ g ∈ n.groups, ¬ Tagged tag g := by
  unfold taggedGroups
  rw [List.filter_eq_nil_iff]
  simp only [List.mem_flatMap, List.mem_map, decide_eq_true_eq]
  constructor
  · intro h n hn g hg
    exact h (n, g) ⟨n, hn, g, hg, rfl⟩
  · rintro h _ ⟨n, hn, g, hg, rfl⟩
    exact h n hn g hg

theorem parseFile_ok {env : Env} {f : GoFile} {l : List Gen.Stmt} (h : parseFile env f = .ok l) :
    ∃ (nodes : List Node) (rs : List Source) (ls : List (List Gen.Stmt)), f.nodes = some nodes ∧ List.Forall₂ (SourceOf env.ddlTag f.path) (taggedGroups env.ddlTag nodes) rs ∧ rs ≠ [] ∧
      rs.map (translateSource env) = ls.map .ok ∧ l = sortStmts ls.flatten := by
  unfold parseFile at h
  split at h
  · cases h
  · rename_i nodes hn
    have hs := sources_eq env f.path nodes
    unfold extract at h
    generalize nodes.flatMap (fun n => n.groups.filterMap (groupSource env f.path n)) = rs at hs h
    cases rs with
    | nil => cases h
    | cons r rs =>
      simp only [Res.ok_bind] at h
      cases ht : translateSources env (r :: rs) <;> rw [ht] at h <;> try (simp at h; done)
      rename_i l'
      simp only [Res.ok_bind, Res.ok.injEq] at h
      obtain ⟨ls, h1, h2⟩ := translateSources_ok ht
      exact ⟨nodes, r :: rs, ls, hn, hs, by simp, h1, by rw [← h, h2]⟩

theorem bind_ne_err {α β : Type} {x : Res α} {f : α → Res β} {e : Err} (h1 : x ≠ .err e) (h2 : ∀ a, f a ≠ .err e) :
    (x >>= f) ≠ .err e := by
  cases x with
  | ok a => exact h2 a
  | err e' => intro h; simp at h; exact h1 (by rw [h])
  | _ => simp

theorem translateSource_not_notFound {env : Env} {r : Source} {e : Err} : translateSource env r ≠ .err e := by
  have hn : ∀ fd : Field, firstName fd ≠ .err e := by
    intro fd
    unfold firstName
    split <;> simp
  have hf : ∀ tn t fd, fieldStep env tn t fd ≠ .err e := by
    intro tn t fd
    unfold fieldStep
    split
    · simp
    · simp only
      split
      · exact bind_ne_err (hn fd) (by simp)
      · refine bind_ne_err ?_ ?_
        · split
          · exact bind_ne_err (hn fd) (by simp)
          · simp
        · intro p
          split
          · simp
          · refine bind_ne_err ?_ (by simp)
            split
            · simp
            · exact bind_ne_err (hn fd) (by simp)
  have hl : ∀ l tn t, fieldLoop env tn t l ≠ .err e := by
    intro l
    induction l with
    | nil => intro tn t; simp [fieldLoop]
    | cons a l ih =>
      intro tn t
      rw [fieldLoop]
      have := hf tn t a
      cases hx : fieldStep env tn t a with
      | ok t' => simp only [Res.ok_bind]; exact ih tn t'
      | err e' => rw [hx] at this; simpa using this
      | panic _ => simp
      | outOfFuel => simp
  unfold translateSource translateTable structColumns
  cases r.fields with
  | none => simp
  | some fs =>
    simp only
    generalize defaultName env r _ = t
    have := hl fs (r.typeName.getD []) t
    cases hx : fieldLoop env (r.typeName.getD []) t fs with
    | err e' => rw [hx] at this; simpa using this
    | _ => simp

theorem translateSources_not_err {env : Env} {rs : List Source} {e : Err} : translateSources env rs ≠ .err e := by
  induction rs with
  | nil => simp [translateSources]
  | cons r rs ih =>
    rw [translateSources]
    have := @translateSource_not_notFound env r e
    cases h1 : translateSource env r with
    | ok a =>
      simp only [Res.ok_bind]
      cases h2 : translateSources env rs with
      | err e' => rw [h2] at ih; simpa using ih
      | _ => simp
    | err e' => rw [h1] at this; simpa using this
    | _ => simp

theorem parseFile_notFound {env : Env} {f : GoFile} : parseFile env f = .err annotationNotFound ↔ Unannotated env.ddlTag f := by
  unfold parseFile Unannotated
  cases f.nodes with
  | none => simp [annotationNotFound, ioError]
  | some nodes =>
    simp only [Option.some.injEq, exists_eq_left']
    rw [← taggedGroups_nil]
    have hs := sources_eq env f.path nodes
    unfold extract
    generalize nodes.flatMap (fun n => n.groups.filterMap (groupSource env f.path n)) = rs at hs
    cases rs with
    | nil => rw [List.forall₂_nil_right_iff.1 hs]; simp
    | cons r rs =>
      obtain ⟨p, ps, -, -, hps⟩ := List.forall₂_cons_right_iff.1 hs
      rw [hps]
      simp only [Res.ok_bind, reduceCtorEq, iff_false]
      have := @translateSources_not_err env (r :: rs) annotationNotFound
      cases h2 : translateSources env (r :: rs) with
      | err e' => rw [h2] at this; simpa using this
      | _ => simp

theorem parseFile_err {env : Env} {f : GoFile} {e : Err} (h : parseFile env f = .err e) : e = annotationNotFound ∨ (f.nodes = none ∧ e = ioError) := by
  unfold parseFile at h
  cases hn : f.nodes with
  | none => rw [hn] at h; cases h; exact .inr ⟨rfl, rfl⟩
  | some nodes =>
    rw [hn] at h
    unfold extract at h
    simp only at h
    split at h
    · cases h; exact .inl rfl
    · simp only [Res.ok_bind] at h
      have := @translateSources_not_err env (nodes.flatMap (fun n => n.groups.filterMap (groupSource env f.path n))) e
      cases h2 : translateSources env (nodes.flatMap (fun n => n.groups.filterMap (groupSource env f.path n))) with
      | err e' => rw [h2] at h; simp at h; exact absurd (h ▸ h2) this
      | _ => rw [h2] at h; simp at h

theorem eligible_iff {path : Str} : (!hasSuffix path s%".go" || hasSuffix path s%"_test.go") = true ↔ ¬ Eligible path := by
  unfold Eligible hasSuffix
  rw [Bool.or_eq_true, Bool.not_eq_true', List.isSuffixOf_iff_suffix]
  have : s%".go".isSuffixOf path = false ↔ ¬ s%".go" <:+ path := by
    rw [← List.isSuffixOf_iff_suffix, Bool.not_eq_true]
  rw [this]
  by_cases h : s%".go" <:+ path <;> simp [h]

/-- The statements of a file, none where it cannot be parsed. -/
theorem walk_ok {env : Env} {es : List Entry} {l : List Gen.Stmt} :
    walk env es = .ok l ↔
      (∀ e ∈ es, e ≠ .failed ∧ ∀ f, e = .file f → Eligible f.path → Unannotated env.ddlTag f ∨ ∃ l, parseFile env f = .ok l) ∧
      l = es.flatMap (contribution env) := by
  induction es generalizing l with
  | nil => simp [walk, eq_comm]
  | cons e es ih =>
    rw [List.flatMap_cons, List.forall_mem_cons]
    cases e with
    | dir p => rw [walk, ih]; simp [contribution]
    | failed => rw [walk]; simp
    | file f =>
      rw [walk]
      have hc : contribution env (.file f) = if Eligible f.path then statementsOf env f else [] := rfl
      rw [hc]
      by_cases he : Eligible f.path
      · rw [if_neg (fun h => eligible_iff.1 h he)]
        cases hp : parseFile env f with
        | ok l1 =>
          have hu : ¬ Unannotated env.ddlTag f := fun h => by rw [parseFile_notFound.2 h] at hp; cases hp
          cases hw : walk env es with
          | ok l2 =>
            have := (ih (l := l2)).1 hw
            simp only [Res.ok_bind, Res.ok.injEq]
            constructor
            · rintro rfl
              refine ⟨⟨⟨by simp, ?_⟩, this.1⟩, ?_⟩
              · intro f' hf _; cases hf; exact .inr ⟨_, hp⟩
              · rw [if_pos he, this.2, statementsOf, hp]
            · rintro ⟨_, rfl⟩
              rw [if_pos he, this.2, statementsOf, hp]
          | _ =>
            simp only [Res.err_bind, Res.panic_bind, Res.oof_bind, reduceCtorEq, false_iff]
            rintro ⟨⟨-, h⟩, -⟩
            rw [(ih (l := _)).2 ⟨h, rfl⟩] at hw
            cases hw
        | err e =>
          by_cases hee : e = annotationNotFound
          · simp only [hee, if_true]
            have hu := parseFile_notFound.1 (hee ▸ hp)
            rw [ih, if_pos he, statementsOf, hp, List.nil_append]
            constructor
            · rintro ⟨h1, h2⟩
              exact ⟨⟨⟨by simp, fun f' hf _ => by cases hf; exact .inl hu⟩, h1⟩, h2⟩
            · rintro ⟨⟨-, h1⟩, h2⟩
              exact ⟨h1, h2⟩
          · simp only [hee, if_false, reduceCtorEq, false_iff]
            rintro ⟨⟨⟨-, h⟩, -⟩, -⟩
            rcases h f rfl he with h | ⟨l', h⟩
            · rw [parseFile_notFound.2 h] at hp; cases hp; exact hee rfl
            · rw [h] at hp; cases hp
        | _ =>
          simp only [reduceCtorEq, false_iff]
          rintro ⟨⟨⟨-, h⟩, -⟩, -⟩
          rcases h f rfl he with h | ⟨l', h⟩
          · rw [parseFile_notFound.2 h] at hp; cases hp
          · rw [h] at hp; cases hp
      · rw [if_pos (eligible_iff.2 he), ih, if_neg he, List.nil_append]
        constructor
        · rintro ⟨h1, h2⟩
          exact ⟨⟨⟨by simp, fun f' hf hn => by cases hf; exact absurd hn he⟩, h1⟩, h2⟩
        · rintro ⟨⟨-, h1⟩, h2⟩
          exact ⟨h1, h2⟩

/-! ## The statements of one source -/

theorem translateSource_ok {env : Env} {r : Source} {l : List Gen.Stmt} (h : translateSource env r = .ok l) :
    ∃ t idx, translateTable env r = .ok (t, idx) ∧ l = idx ++ (if t.columns = [] then [] else [.table t]) := by
  unfold translateSource at h
  cases ht : translateTable env r with
  | ok p =>
    rw [ht] at h
    simp only [Res.ok_bind, Res.ok.injEq] at h
    exact ⟨p.1, p.2, rfl, h.symm⟩
  | _ => rw [ht] at h; simp at h

theorem translateSource_file {env : Env} {r : Source} {l : List Gen.Stmt} (h : translateSource env r = .ok l) :
    ∀ s ∈ l, s.file = r.file := by
  obtain ⟨t, idx, ht, rfl⟩ := translateSource_ok h
  obtain ⟨h1, -, -, -, -, h6⟩ := translateTable_contents ht
  intro s hs
  rcases List.mem_append.1 hs with hs | hs
  · rw [h6, List.mem_filterMap] at hs
    obtain ⟨c, -, hc⟩ := hs
    split at hc
    · cases hc; rfl
    · cases hc
  · split at hs
    · cases hs
    · rw [List.mem_singleton] at hs
      subst hs
      exact h1

theorem mem_of_map_ok {α β : Type} {f : α → Res β} {rs : List α} {ls : List β} (h : rs.map f = ls.map .ok) :
    List.Forall₂ (fun r l => f r = .ok l) rs ls := by
  induction rs generalizing ls with
  | nil => cases ls with
    | nil => exact .nil
    | cons a b => simp at h
  | cons r rs ih => cases ls with
    | nil => simp at h
    | cons a b =>
      simp only [List.map_cons, List.cons.injEq] at h
      exact .cons h.1 (ih h.2)

theorem forall₂_mem_l {α β : Type} {R : α → β → Prop} {l : List α} {r : List β} (h : List.Forall₂ R l r) :
    ∀ a ∈ l, ∃ b ∈ r, R a b := by
  induction h with
  | nil => simp
  | cons h _ ih =>
    intro a ha
    rcases List.mem_cons.1 ha with rfl | ha
    · exact ⟨_, by simp, h⟩
    · obtain ⟨b, hb, hr⟩ := ih a ha
      exact ⟨b, by simp [hb], hr⟩

theorem forall₂_mem_r {α β : Type} {R : α → β → Prop} {l : List α} {r : List β} (h : List.Forall₂ R l r) :
    ∀ b ∈ r, ∃ a ∈ l, R a b := by
  induction h with
  | nil => simp
  | cons h _ ih =>
    intro a ha
    rcases List.mem_cons.1 ha with rfl | ha
    · exact ⟨_, by simp, h⟩
    · obtain ⟨b, hb, hr⟩ := ih a ha
      exact ⟨b, by simp [hb], hr⟩

theorem parseFile_file {env : Env} {f : GoFile} {l : List Gen.Stmt} (h : parseFile env f = .ok l) :
    ∃ l', l = sortStmts l' ∧ ∀ s ∈ l', s.file = f.path := by
  obtain ⟨nodes, rs, ls, -, h2, -, h4, h5⟩ := parseFile_ok h
  refine ⟨_, h5, ?_⟩
  intro s hs
  obtain ⟨x, hx, hs⟩ := List.mem_flatten.1 hs
  obtain ⟨r, hr, hrx⟩ := forall₂_mem_r (mem_of_map_ok h4) x hx
  obtain ⟨p, -, hp⟩ := forall₂_mem_r h2 r hr
  rw [translateSource_file hrx s hs, hp.1]

theorem parseFile_sorted {env : Env} {f : GoFile} {l : List Gen.Stmt} (h : parseFile env f = .ok l) (hl : ∀ s ∈ l, s.line < 10 ^ 9) :
    l.Pairwise (fun a b => a.line ≤ b.line) := by
  obtain ⟨l', rfl, hf⟩ := parseFile_file h
  exact sortStmts_sorted (fun x hx => ⟨hf x hx, hl x ((sortStmts_perm l').mem_iff.2 hx)⟩)

/-- Where the index lines are. -/
theorem index_line {env : Env} {r : Source} {t : Table} {idx : List Gen.Stmt} (h : translateTable env r = .ok (t, idx))
    {i : Gen.Stmt} (hi : i ∈ idx) : ∃ d ∈ r.comments, ∃ e ∈ r.comments, KeyShaped .index (trimComment e.text) ∧
      i.line = d.line ∧ ∃ a b, d.text = a ++ trimComment e.text ++ b := by
  obtain ⟨-, -, -, -, -, h6⟩ := translateTable_contents h
  rw [h6, List.mem_filterMap] at hi
  obtain ⟨s, hs, hi⟩ := hi
  obtain ⟨e, he, rfl⟩ := List.mem_map.1 hs
  split at hi
  · rename_i x hx
    cases hi
    have hk : KeyShaped .index (trimComment e.text) := by
      rw [classify_eq] at hx
      apply Classical.byContradiction
      intro hn
      rw [matchKey_none.2 hn] at hx
      simp only at hx
      split at hx
      · cases hx
      · split at hx
        · cases hx
        · split at hx <;> cases hx
    obtain ⟨d, hd, h1, h2⟩ := commentLine_isSome he
    exact ⟨d, hd, e, he, hk, by simp [Gen.Stmt.line, h1], substring_iff.1 h2⟩
  · cases hi

/-- A source gives one table if its struct has columns, and none otherwise. -/
theorem tables_of_source {tags : Field → List (Str × Str)} {env : Env} {path : Str} {p : Node × List CommentLine} {r : Source}
    {l : List Gen.Stmt} (hr : SourceOf env.ddlTag path p r)
    (hp : ∀ fs, some fs ∈ p.1.specs.map Prod.snd → ∀ f ∈ fs, FieldPairs env f (tags f)) (h : translateSource env r = .ok l) :
    (l.filter isTable).length = if HasColumns tags env p.1 then 1 else 0 := by
  obtain ⟨t, idx, ht, rfl⟩ := translateSource_ok h
  obtain ⟨-, -, -, -, hf⟩ := hr
  have hp' : ∀ f ∈ r.fields.getD [], FieldPairs env f (tags f) := by
    rw [hf]
    cases hl : (p.1.specs.filterMap Prod.snd).getLast? with
    | none => simp
    | some fs =>
      have := List.mem_of_getLast? hl
      rw [List.mem_filterMap] at this
      obtain ⟨a, ha, he⟩ := this
      exact hp fs (List.mem_map.2 ⟨a, ha, he⟩)
  obtain ⟨h1, -, h3⟩ := translateTable_ok hp' ht
  have hi : idx.filter isTable = [] := by
    rw [List.filter_eq_nil_iff]
    intro s hs hst
    rw [List.filterMap_eq_nil_iff] at h3
    have := h3 s hs
    cases s with
    | table t => cases this
    | index i => cases hst
  have hc : t.columns = [] ↔ ¬ HasColumns tags env p.1 := by
    have e : t.columns = [] ↔ t.columns.map (fun c => (c.name, c.typeConstraint)) = [] := by simp
    rw [e, h1, List.map_eq_nil_iff, List.filter_eq_nil_iff]
    unfold HasColumns
    rw [← hf]
    cases r.fields with
    | none => simp
    | some fs => simp
  rw [List.filter_append, hi, List.nil_append]
  by_cases hh : HasColumns tags env p.1
  · rw [if_neg (fun h => hc.1 h hh), if_pos hh]; rfl
  · rw [if_pos (hc.2 hh), if_neg hh]; rfl

theorem tables_count {tags : Field → List (Str × Str)} {env : Env} {path : Str} {ps : List (Node × List CommentLine)}
    {rs : List Source} {ls : List (List Gen.Stmt)} (h1 : List.Forall₂ (SourceOf env.ddlTag path) ps rs)
    (h2 : List.Forall₂ (fun r l => translateSource env r = .ok l) rs ls)
    (hp : ∀ p ∈ ps, ∀ fs, some fs ∈ p.1.specs.map Prod.snd → ∀ f ∈ fs, FieldPairs env f (tags f)) :
    (ls.flatten.filter isTable).length = (ps.filter (fun p => HasColumns tags env p.1)).length := by
  induction h1 generalizing ls with
  | nil => cases h2; rfl
  | @cons p r ps rs h1 _ ih =>
    cases h2 with
    | @cons _ l _ ls h3 h4 =>
      rw [List.flatten_cons, List.filter_append, List.length_append, ih h4 (fun p h => hp p (by simp [h])),
        tables_of_source h1 (hp p (by simp)) h3, List.filter_cons]
      split
      all_goals simp_all
      omega

theorem mem_taggedGroups {tag : Str} {nodes : List Node} {p : Node × List CommentLine} :
    p ∈ taggedGroups tag nodes ↔ p.1 ∈ nodes ∧ p.2 ∈ p.1.groups ∧ Tagged tag p.2 := by
  unfold taggedGroups
  rw [List.mem_filter]
  simp only [List.mem_flatMap, List.mem_map, decide_eq_true_eq]
  constructor
  · rintro ⟨⟨n, hn, g, hg, rfl⟩, ht⟩
    exact ⟨hn, hg, ht⟩
  · rintro ⟨hn, hg, ht⟩
    exact ⟨⟨p.1, hn, p.2, hg, rfl⟩, ht⟩

theorem parseFile_tables {tags : Field → List (Str × Str)} {env : Env} {f : GoFile} {nodes : List Node} {l : List Gen.Stmt}
    (hn : f.nodes = some nodes) (hp : ∀ n ∈ nodes, ∀ fs, some fs ∈ n.specs.map Prod.snd → ∀ x ∈ fs, FieldPairs env x (tags x))
    (h : parseFile env f = .ok l) :
    (l.filter isTable).length = ((taggedGroups env.ddlTag nodes).filter (fun p => HasColumns tags env p.1)).length := by
  obtain ⟨nodes', rs, ls, h1, h2, -, h4, rfl⟩ := parseFile_ok h
  rw [hn] at h1
  cases h1
  rw [((sortStmts_perm ls.flatten).filter isTable).length_eq]
  exact tables_count h2 (mem_of_map_ok h4) (fun p hpm => hp p.1 (mem_taggedGroups.1 hpm).1)

open scoped Classical in
/-- If no node has two groups with the tag, the groups are counted by their nodes. -/
theorem taggedGroups_once {tag : Str} {nodes : List Node} (h : ∀ n ∈ nodes, (n.groups.filter (fun g => Tagged tag g)).length ≤ 1)
    (P : Node → Prop) [DecidablePred P] :
    ((taggedGroups tag nodes).filter (fun p => P p.1)).length = (nodes.filter (fun n => P n ∧ ∃ g ∈ n.groups, Tagged tag g)).length := by
  have hg : ∀ n : Node, ((n.groups.map (fun g => (n, g))).filter (fun p => Tagged tag p.2)).filter (fun p => P p.1) =
      if P n then (n.groups.filter (fun g => Tagged tag g)).map (fun g => (n, g)) else [] := by
    intro n
    rw [List.filter_map, List.filter_map]
    by_cases hP : P n
    · rw [if_pos hP]
      congr 1
      exact List.filter_eq_self.2 (fun g _ => by simpa using hP)
    · rw [if_neg hP, List.map_eq_nil_iff, List.filter_eq_nil_iff]
      intro g _
      simpa using hP
  unfold taggedGroups
  induction nodes with
  | nil => rfl
  | cons n nodes ih =>
    rw [List.flatMap_cons, List.filter_append, List.filter_append, List.length_append, ih (fun n hn => h n (by simp [hn])), hg,
      List.filter_cons]
    have h1 := h n (by simp)
    by_cases hP : P n
    · rw [if_pos hP, List.length_map]
      by_cases ht : ∃ g ∈ n.groups, Tagged tag g
      · obtain ⟨g, hgm, hgt⟩ := ht
        have : g ∈ n.groups.filter (fun g => Tagged tag g) := by simp [hgm, hgt]
        have := List.length_pos_of_mem this
        rw [if_pos (by simpa using ⟨hP, g, hgm, hgt⟩), List.length_cons]
        omega
      · have : n.groups.filter (fun g => Tagged tag g) = [] := by
          rw [List.filter_eq_nil_iff]
          intro g hgm hgt
          exact ht ⟨g, hgm, by simpa using hgt⟩
        rw [this, if_neg (by intro hh; simp only [decide_eq_true_eq] at hh; exact ht hh.2)]
        simp
    · rw [if_neg hP, if_neg (by intro hh; simp only [decide_eq_true_eq] at hh; exact hP hh.1)]
      simp

end Ddl
