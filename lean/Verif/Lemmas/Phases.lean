import Verif.Lemmas.DiffObjects
import Verif.Spec.Run
import Verif.Lemmas.Run

/-! # Executing the three parts of a diff, generic over the dialect

`st l` is the state of a database in which the CREATE statements of `l` were executed; it depends on the set of statements only. -/

namespace Ddl.Phases
open Ddl Spec
set_option autoImplicit false

variable {T I A N S : Type} {o : Ops T I A N} {exec : S → Stmt T I A N → S → Prop} {st : List (Stmt T I A N) → S}

theorem distinct_perm {l l' : List (Stmt T I A N)} (h : l.Perm l') (hd : DistinctObjects o l) : DistinctObjects o l' :=
  (h.filterMap _).nodup hd

theorem distinct_sublist {l l' : List (Stmt T I A N)} (h : List.Sublist l l') (hd : DistinctObjects o l') : DistinctObjects o l :=
  List.Nodup.sublist (h.filterMap _) hd

theorem distinct_unique {l : List (Stmt T I A N)} (hd : DistinctObjects o l) {u v : Stmt T I A N} (hu : u ∈ l) (hv : v ∈ l) {k : Obj}
    (hku : creates o u = some k) (hkv : creates o v = some k) : u = v := by
  induction l with
  | nil => cases hu
  | cons x l ih =>
    have hl : DistinctObjects o l := distinct_sublist (List.sublist_cons_self _ _) hd
    have key : ∀ w ∈ l, creates o x = some k → creates o w = some k → False := by
      intro w hw hx hw'
      rw [DistinctObjects, List.filterMap_cons_some hx, List.nodup_cons] at hd
      exact hd.1 (List.mem_filterMap.2 ⟨w, hw, hw'⟩)
    rcases List.mem_cons.1 hu with eu | hu' <;> rcases List.mem_cons.1 hv with ev | hv'
    · rw [eu, ev]
    · exact (key v hv' (eu ▸ hku) hkv).elim
    · exact (key u hu' (ev ▸ hkv) hku).elim
    · exact ih hl hu' hv'

theorem distinct_nodup {l : List (Stmt T I A N)} (hd : DistinctObjects o l) (hc : CreateOnly o l) : l.Nodup := by
  induction l with
  | nil => exact List.nodup_nil
  | cons x l ih =>
    have hl : DistinctObjects o l := distinct_sublist (List.sublist_cons_self _ _) hd
    refine List.nodup_cons.2 ⟨fun hx => ?_, ih hl fun s hs => hc s (List.mem_cons_of_mem _ hs)⟩
    obtain ⟨k, hk⟩ := Option.isSome_iff_exists.1 (hc x List.mem_cons_self)
    rw [DistinctObjects, List.filterMap_cons_some hk, List.nodup_cons] at hd
    exact hd.1 (List.mem_filterMap.2 ⟨x, hx, hk⟩)

/-- The statements that stay. -/
abbrev keep (o : Ops T I A N) (a : List (Stmt T I A N)) (s : Stmt T I A N) : Bool := (findStmt o s a).isSome

/-- The new version of a statement. -/
abbrev ver (o : Ops T I A N) (a : List (Stmt T I A N)) (s : Stmt T I A N) : Stmt T I A N := (findStmt o s a).getD s

theorem keep_iff {a : List (Stmt T I A N)} {s : Stmt T I A N} {k : Obj} (hk : creates o s = some k) : keep o a s = true ↔ Defines o a k := by
  have := findStmt_none_iff (l := a) hk
  cases h : findStmt o s a with
  | none => simp only [keep, h, Option.isSome_none, Option.isNone_none, true_iff, Bool.false_eq_true, false_iff] at this ⊢; exact this
  | some x => simp only [keep, h, Option.isSome_some, Option.isNone_some, Bool.false_eq_true, false_iff, not_not, true_iff] at this ⊢; exact this

theorem ver_spec {a : List (Stmt T I A N)} {s : Stmt T I A N} {k : Obj} (hk : creates o s = some k) (h : keep o a s = true) :
    ver o a s ∈ a ∧ creates o (ver o a s) = some k := by
  obtain ⟨x, hx⟩ := Option.isSome_iff_exists.1 h
  simp only [ver, hx, Option.getD_some]
  exact findStmt_creates hk hx

/-- The statements before the one that is dropped, those that stay, and the statements behind it. -/
structure DropCtx (o : Ops T I A N) (b a : List (Stmt T I A N)) (s : Stmt T I A N) (X Y : List (Stmt T I A N)) : Prop where
  mem : s ∈ b
  gone : ∀ k, creates o s = some k → ¬ Defines o a k
  distinct : DistinctObjects o (X ++ s :: Y)
  sub : ∀ u ∈ X ++ Y, u ∈ b
  kept : ∀ u ∈ b, ∀ k, creates o u = some k → Defines o a k → u ∈ X ++ Y

theorem drops_run {b a : List (Stmt T I A N)} (cb : CreateOnly o b) (db : DistinctObjects o b)
    (hdrop : ∀ s d X Y, IsDropFor o s d → DropCtx o b a s X Y → exec (st (X ++ s :: Y)) d (st (X ++ Y)))
    {p q ds : List (Stmt T I A N)} (e : b = p ++ q) (h : List.Forall₂ (IsDropFor o) (onlyLeftStmt o q a) ds) :
    Runs exec (st (p.filter (keep o a) ++ q)) ds (st (b.filter (keep o a))) := by
  induction q generalizing p ds with
  | nil =>
    cases h
    rw [e, List.append_nil, List.append_nil]
    exact .nil _
  | cons s q ih =>
    have hs : s ∈ b := by rw [e]; simp
    obtain ⟨k, hk⟩ := Option.isSome_iff_exists.1 (cb s hs)
    have e' : b = (p ++ [s]) ++ q := by rw [e]; simp
    by_cases hkp : keep o a s = true
    · have e1 : onlyLeftStmt o (s :: q) a = onlyLeftStmt o q a := by
        simp only [onlyLeftStmt, List.filter_cons]
        rw [if_neg]
        rw [findStmt_none_iff hk, not_not]
        exact (keep_iff hk).1 hkp
      rw [e1] at h
      have := ih e' h
      rwa [List.filter_append, List.filter_cons, if_pos hkp, List.filter_nil, List.append_assoc, List.singleton_append] at this
    · have e1 : onlyLeftStmt o (s :: q) a = s :: onlyLeftStmt o q a := by
        simp only [onlyLeftStmt, List.filter_cons]
        rw [if_pos]
        rw [findStmt_none_iff hk]
        exact fun hc => hkp ((keep_iff hk).2 hc)
      rw [e1] at h
      obtain ⟨d, ds', h1, h2, rfl⟩ : ∃ d ds', IsDropFor o s d ∧ List.Forall₂ (IsDropFor o) (onlyLeftStmt o q a) ds' ∧ ds = d :: ds' := by
        cases h with
        | cons h1 h2 => exact ⟨_, _, h1, h2, rfl⟩
      have := ih e' h2
      rw [List.filter_append, List.filter_cons, if_neg hkp, List.filter_nil, List.append_nil] at this
      refine .cons (hdrop s d _ _ h1 ⟨hs, fun k' hk' hd => hkp ((keep_iff hk').2 hd), ?_, ?_, ?_⟩) this
      · refine distinct_sublist ?_ db
        rw [e]
        exact List.filter_sublist.append (List.Sublist.refl _)
      · intro u hu
        rw [e]
        rcases List.mem_append.1 hu with hu | hu
        · exact List.mem_append_left _ (List.mem_of_mem_filter hu)
        · exact List.mem_append_right _ (List.mem_cons_of_mem _ hu)
      · intro u hu k' hk' hd
        rw [e, List.mem_append, List.mem_cons] at hu
        rcases hu with hu | rfl | hu
        · exact List.mem_append_left _ (List.mem_filter.2 ⟨hu, (keep_iff hk').2 hd⟩)
        · exact absurd ((keep_iff hk').2 hd) hkp
        · exact List.mem_append_right _ hu

/-- The statements that are there when `s` is executed. -/
structure CreateCtx (o : Ops T I A N) (b a : List (Stmt T I A N)) (s : Stmt T I A N) (X : List (Stmt T I A N)) : Prop where
  mem : s ∈ a
  new : ∀ k, creates o s = some k → ¬ Defines o b k
  distinct : DistinctObjects o (X ++ [s])
  sub : ∀ u ∈ X, (u ∈ b ∧ ∀ k, creates o u = some k → Defines o a k) ∨ (u ∈ a ∧ ∀ k, creates o u = some k → ¬ Defines o b k)
  kept : ∀ u ∈ b, ∀ k, creates o u = some k → Defines o a k → u ∈ X
  /-- What is created before `s` in `a` is there. -/
  before : ∀ p q, a = p ++ s :: q → ∀ u ∈ p, ∀ k, creates o u = some k → Defines o X k
  /-- What is new was created before `s` in `a`. -/
  earlier : ∀ u ∈ X, u ∈ b ∨ ∀ p q, a = p ++ s :: q → u ∈ p

theorem split_unique {α : Type} {p q p' q' : List α} {s : α} (hn : (p ++ s :: q).Nodup) (h : p ++ s :: q = p' ++ s :: q') : p = p' ∧ q = q' := by
  induction p generalizing p' with
  | nil =>
    cases p' with
    | nil => exact ⟨rfl, by simpa using h⟩
    | cons x p' =>
      simp only [List.nil_append, List.cons_append, List.cons.injEq] at h
      obtain ⟨rfl, h⟩ := h
      simp only [List.nil_append, List.nodup_cons] at hn
      exact absurd (by rw [h]; simp) hn.1
  | cons y p ih =>
    cases p' with
    | nil =>
      simp only [List.nil_append, List.cons_append, List.cons.injEq] at h
      obtain ⟨rfl, _⟩ := h
      simp only [List.cons_append, List.nodup_cons] at hn
      exact absurd (by simp) hn.1
    | cons x p' =>
      simp only [List.cons_append, List.cons.injEq] at h hn
      obtain ⟨rfl, h⟩ := h
      obtain ⟨rfl, rfl⟩ := ih (List.nodup_cons.1 hn).2 h
      exact ⟨rfl, rfl⟩

theorem creates_run {b a : List (Stmt T I A N)} (cb : CreateOnly o b) (ca : CreateOnly o a) (db : DistinctObjects o b) (da : DistinctObjects o a)
    (hcreate : ∀ s X, CreateCtx o b a s X → exec (st X) s (st (X ++ [s])))
    {p q : List (Stmt T I A N)} (e : a = p ++ q) :
    Runs exec (st (b.filter (keep o a) ++ onlyLeftStmt o p b)) (onlyLeftStmt o q b) (st (b.filter (keep o a) ++ onlyLeftStmt o a b)) := by
  induction q generalizing p with
  | nil =>
    rw [e, List.append_nil]
    exact .nil _
  | cons s q ih =>
    have hs : s ∈ a := by rw [e]; simp
    obtain ⟨k, hk⟩ := Option.isSome_iff_exists.1 (ca s hs)
    have e' : a = (p ++ [s]) ++ q := by rw [e]; simp
    have hr := ih e'
    by_cases hkb : Defines o b k
    · have e0 : ¬ (findStmt o s b).isNone = true := by rw [findStmt_none_iff hk, not_not]; exact hkb
      have e1 : onlyLeftStmt o (s :: q) b = onlyLeftStmt o q b := by
        simp only [onlyLeftStmt, List.filter_cons]
        rw [if_neg e0]
      have e2 : onlyLeftStmt o (p ++ [s]) b = onlyLeftStmt o p b := by
        simp only [onlyLeftStmt, List.filter_append, List.filter_cons]
        rw [if_neg e0, List.filter_nil, List.append_nil]
      rw [e2] at hr
      rw [e1]
      exact hr
    · have e0 : (findStmt o s b).isNone = true := by rw [findStmt_none_iff hk]; exact hkb
      have e1 : onlyLeftStmt o (s :: q) b = s :: onlyLeftStmt o q b := by
        simp only [onlyLeftStmt, List.filter_cons]
        rw [if_pos e0]
      have e2 : onlyLeftStmt o (p ++ [s]) b = onlyLeftStmt o p b ++ [s] := by
        simp only [onlyLeftStmt, List.filter_append, List.filter_cons]
        rw [if_pos e0, List.filter_nil]
      rw [e2, ← List.append_assoc] at hr
      rw [e1]
      refine .cons (hcreate s _ ⟨hs, ?_, ?_, ?_, ?_, ?_, ?_⟩) hr
      · intro k' hk'
        rw [hk] at hk'
        cases hk'
        exact hkb
      · -- objects of the old statements and the new ones are distinct
        have h1 : DistinctObjects o (b.filter (keep o a)) := distinct_sublist List.filter_sublist db
        have h2 : DistinctObjects o (onlyLeftStmt o p b ++ [s]) := by
          rw [← e2]
          exact distinct_sublist (List.filter_sublist.trans (by rw [e']; exact List.sublist_append_left _ _)) da
        rw [List.append_assoc, DistinctObjects, List.filterMap_append, List.nodup_append]
        refine ⟨h1, h2, ?_⟩
        rintro x hx _ hy rfl
        obtain ⟨u, hu, hux⟩ := List.mem_filterMap.1 hx
        obtain ⟨v, hv, hvx⟩ := List.mem_filterMap.1 hy
        rw [← e2] at hv
        exact ((mem_onlyLeft hvx).1 hv).2 ⟨u, List.mem_of_mem_filter hu, hux⟩
      · intro u hu
        rcases List.mem_append.1 hu with hu | hu
        · refine Or.inl ⟨List.mem_of_mem_filter hu, fun k' hk' => (keep_iff hk').1 (List.of_mem_filter hu)⟩
        · refine Or.inr ⟨by rw [e]; exact List.mem_append_left _ (List.mem_of_mem_filter hu), fun k' hk' => ?_⟩
          exact ((mem_onlyLeft hk').1 hu).2
      · intro u hu k' hk' hd
        exact List.mem_append_left _ (List.mem_filter.2 ⟨hu, (keep_iff hk').2 hd⟩)
      · intro p' q' e'' u hu k' hk'
        have hn := distinct_nodup da ca
        rw [e] at hn e''
        obtain ⟨rfl, rfl⟩ := split_unique hn e''
        by_cases hkb' : Defines o b k'
        · obtain ⟨v, hv, hvk⟩ := hkb'
          refine ⟨v, List.mem_append_left _ (List.mem_filter.2 ⟨hv, (keep_iff hvk).2 ⟨u, by rw [e]; simp [hu], hk'⟩⟩), hvk⟩
        · exact ⟨u, List.mem_append_right _ (List.mem_filter.2 ⟨hu, (findStmt_none_iff hk').2 hkb'⟩), hk'⟩
      · intro u hu
        rcases List.mem_append.1 hu with hu | hu
        · exact Or.inl (List.mem_of_mem_filter hu)
        · refine Or.inr fun p' q' e'' => ?_
          have hn := distinct_nodup da ca
          rw [e] at hn e''
          obtain ⟨rfl, rfl⟩ := split_unique hn e''
          exact List.mem_of_mem_filter hu

/-- The statements that are there when `s` is replaced by `s'`. -/
structure AlterCtx (o : Ops T I A N) (b a : List (Stmt T I A N)) (s s' : Stmt T I A N) (X Y : List (Stmt T I A N)) : Prop where
  mem : s ∈ b
  mem' : s' ∈ a
  same : creates o s' = creates o s
  distinct : DistinctObjects o (X ++ s :: Y)
  sub : ∀ u ∈ X ++ Y, (u ∈ b ∧ ∀ k, creates o u = some k → Defines o a k) ∨ u ∈ a
  all : ∀ k, Defines o a k → Defines o (X ++ s :: Y) k
  /-- What is before `s` in `b` has been replaced already. -/
  before : ∀ p q, b = p ++ s :: q → ∀ u ∈ p, ∀ u' ∈ a, ∀ k, creates o u = some k → creates o u' = some k → u' ∈ X

theorem alters_run {b a : List (Stmt T I A N)} (cb : CreateOnly o b) (ca : CreateOnly o a) (db : DistinctObjects o b) (da : DistinctObjects o a)
    (halter : ∀ s s' X Y l, AlterCtx o b a s s' X Y → alterOf o a s = .ok l → Runs exec (st (X ++ s :: Y)) l (st (X ++ s' :: Y)))
    {p q : List (Stmt T I A N)} {rs : List (List (Stmt T I A N))} (e : b = p ++ q) (h : List.Forall₂ (fun s l => alterOf o a s = .ok l) q rs) :
    Runs exec (st ((p.filter (keep o a)).map (ver o a) ++ (q.filter (keep o a) ++ onlyLeftStmt o a b))) rs.flatten
      (st ((b.filter (keep o a)).map (ver o a) ++ onlyLeftStmt o a b)) := by
  induction q generalizing p rs with
  | nil =>
    cases h
    rw [e, List.append_nil, List.filter_nil, List.nil_append]
    exact .nil _
  | cons s q ih =>
    have hs : s ∈ b := by rw [e]; simp
    obtain ⟨k, hk⟩ := Option.isSome_iff_exists.1 (cb s hs)
    have e' : b = (p ++ [s]) ++ q := by rw [e]; simp
    obtain ⟨l, rs', h1, h2, rfl⟩ : ∃ l rs', alterOf o a s = .ok l ∧ List.Forall₂ (fun s l => alterOf o a s = .ok l) q rs' ∧ rs = l :: rs' := by
      cases h with
      | cons h1 h2 => exact ⟨_, _, h1, h2, rfl⟩
    have hr := ih e' h2
    rw [List.flatten_cons]
    by_cases hkp : keep o a s = true
    · rw [List.filter_append, List.filter_cons, if_pos hkp, List.filter_nil, List.map_append, List.map_singleton, List.append_assoc,
        List.singleton_append] at hr
      rw [List.filter_cons, if_pos hkp, List.cons_append]
      have hv := ver_spec hk hkp
      refine (halter s (ver o a s) _ _ l ⟨hs, hv.1, hv.2.trans hk.symm, ?_, ?_, ?_, ?_⟩ h1).append hr
      · -- distinct objects
        have hobj : ∀ r : List (Stmt T I A N), (∀ u ∈ r, u ∈ b) → ((r.filter (keep o a)).map (ver o a)).filterMap (creates o) =
            (r.filter (keep o a)).filterMap (creates o) := by
          intro r hr
          rw [List.filterMap_map]
          refine List.filterMap_congr fun u hu => ?_
          obtain ⟨k', hk'⟩ := Option.isSome_iff_exists.1 (cb u (hr u (List.mem_of_mem_filter hu)))
          rw [Function.comp, (ver_spec hk' (List.of_mem_filter hu)).2, hk']
        have h1 : DistinctObjects o (p.filter (keep o a) ++ s :: q.filter (keep o a)) := by
          refine distinct_sublist ?_ db
          rw [e]
          exact List.filter_sublist.append (List.filter_sublist.cons_cons _)
        have h2 : DistinctObjects o (onlyLeftStmt o a b) := distinct_sublist List.filter_sublist da
        rw [DistinctObjects, ← List.cons_append, ← List.append_assoc, List.filterMap_append, List.filterMap_append,
          hobj p (fun u hu => by rw [e]; simp [hu]), ← List.filterMap_append, List.nodup_append]
        refine ⟨h1, h2, ?_⟩
        rintro x hx _ hy rfl
        obtain ⟨u, hu, hux⟩ := List.mem_filterMap.1 hx
        obtain ⟨v, hv, hvx⟩ := List.mem_filterMap.1 hy
        refine ((mem_onlyLeft hvx).1 hv).2 ⟨u, ?_, hux⟩
        rw [e]
        rcases List.mem_append.1 hu with hu | hu
        · exact List.mem_append_left _ (List.mem_of_mem_filter hu)
        · rcases List.mem_cons.1 hu with rfl | hu
          · simp
          · exact List.mem_append_right _ (List.mem_cons_of_mem _ (List.mem_of_mem_filter hu))
      · intro u hu
        rcases List.mem_append.1 hu with hu | hu
        · obtain ⟨v, hv, rfl⟩ := List.mem_map.1 hu
          have hvb : v ∈ b := by rw [e]; exact List.mem_append_left _ (List.mem_of_mem_filter hv)
          obtain ⟨k', hk'⟩ := Option.isSome_iff_exists.1 (cb v hvb)
          exact Or.inr (ver_spec hk' (List.of_mem_filter hv)).1
        · rcases List.mem_append.1 hu with hu | hu
          · have hub : u ∈ b := by rw [e]; exact List.mem_append_right _ (List.mem_cons_of_mem _ (List.mem_of_mem_filter hu))
            exact Or.inl ⟨hub, fun k' hk' => (keep_iff hk').1 (List.of_mem_filter hu)⟩
          · exact Or.inr (List.mem_of_mem_filter hu)
      · rintro k' hk'
        by_cases hkb : Defines o b k'
        · obtain ⟨u, hu, huk⟩ := hkb
          have hkeep := (keep_iff huk).2 hk'
          rw [e] at hu
          rcases List.mem_append.1 hu with hu | hu
          · exact ⟨ver o a u, List.mem_append_left _ (List.mem_map_of_mem (List.mem_filter.2 ⟨hu, hkeep⟩)), (ver_spec huk hkeep).2⟩
          · rcases List.mem_cons.1 hu with rfl | hu
            · exact ⟨u, by simp, huk⟩
            · exact ⟨u, List.mem_append_right _ (List.mem_cons_of_mem _ (List.mem_append_left _ (List.mem_filter.2 ⟨hu, hkeep⟩))), huk⟩
        · obtain ⟨u, hu, huk⟩ := hk'
          exact ⟨u, List.mem_append_right _ (List.mem_cons_of_mem _ (List.mem_append_right _ (List.mem_filter.2
            ⟨hu, (findStmt_none_iff huk).2 hkb⟩))), huk⟩
      · intro p' q' e'' u hu u' hu' k' hk' hk''
        have hn := distinct_nodup db cb
        rw [e] at hn e''
        obtain ⟨rfl, rfl⟩ := split_unique hn e''
        have hkeep := (keep_iff hk').2 ⟨u', hu', hk''⟩
        have hv := ver_spec hk' hkeep
        rw [distinct_unique da hu' hv.1 hk'' hv.2]
        exact List.mem_map_of_mem (List.mem_filter.2 ⟨hu, hkeep⟩)
    · have hf : findStmt o s a = none := by
        cases hf : findStmt o s a with
        | none => rfl
        | some x => exact absurd (by rw [keep, hf]; rfl) hkp
      have hl : l = [] := by
        rcases alterOf_ok h1 with hl | ⟨t, t', rfl, h3, h4, _⟩ | ⟨i, i', rfl, h3, h4, _⟩
        · exact hl
        · refine absurd ((keep_iff (k := .table (o.tableName t).diffStr) rfl).2 ⟨_, h3, ?_⟩) hkp
          simp only [creates, h4]
        · refine absurd ((keep_iff (k := .index (o.nDiffStr (o.indexName i))) rfl).2 ⟨_, h3, ?_⟩) hkp
          simp only [creates, h4]
      rw [List.filter_append, List.filter_cons, if_neg hkp, List.filter_nil, List.append_nil] at hr
      rw [List.filter_cons, if_neg hkp, hl, List.nil_append]
      exact hr

/-- The list at the end has the same statements as `a`. -/
theorem final_perm {b a : List (Stmt T I A N)} (cb : CreateOnly o b) (ca : CreateOnly o a) (db : DistinctObjects o b) (da : DistinctObjects o a) :
    ((b.filter (keep o a)).map (ver o a) ++ onlyLeftStmt o a b).Perm a := by
  have hinj : ((b.filter (keep o a)).map (ver o a)).Nodup := by
    refine List.Nodup.map_on ?_ ((distinct_nodup db cb).filter _)
    intro u hu v hv huv
    obtain ⟨k, hk⟩ := Option.isSome_iff_exists.1 (cb u (List.mem_of_mem_filter hu))
    obtain ⟨k', hk'⟩ := Option.isSome_iff_exists.1 (cb v (List.mem_of_mem_filter hv))
    have h1 := (ver_spec hk (List.of_mem_filter hu)).2
    have h2 := (ver_spec hk' (List.of_mem_filter hv)).2
    rw [huv, h2] at h1
    cases h1
    exact distinct_unique db (List.mem_of_mem_filter hu) (List.mem_of_mem_filter hv) hk hk'
  refine (List.perm_ext_iff_of_nodup ?_ (distinct_nodup da ca)).2 ?_
  · refine List.nodup_append.2 ⟨hinj, (distinct_nodup da ca).filter _, ?_⟩
    rintro x hx _ hy rfl
    obtain ⟨u, hu, rfl⟩ := List.mem_map.1 hx
    obtain ⟨k, hk⟩ := Option.isSome_iff_exists.1 (cb u (List.mem_of_mem_filter hu))
    have hv := ver_spec hk (List.of_mem_filter hu)
    exact ((mem_onlyLeft hv.2).1 hy).2 ⟨u, List.mem_of_mem_filter hu, hk⟩
  · intro x
    constructor
    · intro hx
      rcases List.mem_append.1 hx with hx | hx
      · obtain ⟨u, hu, rfl⟩ := List.mem_map.1 hx
        obtain ⟨k, hk⟩ := Option.isSome_iff_exists.1 (cb u (List.mem_of_mem_filter hu))
        exact (ver_spec hk (List.of_mem_filter hu)).1
      · exact List.mem_of_mem_filter hx
    · intro hx
      obtain ⟨k, hk⟩ := Option.isSome_iff_exists.1 (ca x hx)
      by_cases hkb : Defines o b k
      · obtain ⟨u, hu, huk⟩ := hkb
        have hkeep := (keep_iff huk).2 ⟨x, hx, hk⟩
        have hv := ver_spec huk hkeep
        refine List.mem_append_left _ (List.mem_map.2 ⟨u, List.mem_filter.2 ⟨hu, hkeep⟩, ?_⟩)
        exact distinct_unique da hv.1 hx hv.2 hk
      · exact List.mem_append_right _ (List.mem_filter.2 ⟨hx, (findStmt_none_iff hk).2 hkb⟩)

theorem forall₂_exists {α β : Type} {R : α → β → Prop} {l : List α} (h : ∀ a ∈ l, ∃ b, R a b) : ∃ r, List.Forall₂ R l r := by
  induction l with
  | nil => exact ⟨[], .nil⟩
  | cons a l ih =>
    obtain ⟨b, hb⟩ := h a List.mem_cons_self
    obtain ⟨r, hr⟩ := ih fun x hx => h x (List.mem_cons_of_mem _ hx)
    exact ⟨b :: r, .cons hb hr⟩

/-- A diff whose parts run, runs. -/
theorem diff_run {b a : List (Stmt T I A N)} (cb : CreateOnly o b) (ca : CreateOnly o a) (db : DistinctObjects o b) (da : DistinctObjects o a)
    (hperm : ∀ l l', l.Perm l' → DistinctObjects o l → st l = st l')
    (hstr : ddlStr o b = ddlStr o a → st b = st a)
    (hdrop : ∀ s d X Y, IsDropFor o s d → DropCtx o b a s X Y → exec (st (X ++ s :: Y)) d (st (X ++ Y)))
    (hcreate : ∀ s X, CreateCtx o b a s X → exec (st X) s (st (X ++ [s])))
    (hok : ∀ s ∈ b, ∃ l, alterOf o a s = .ok l)
    (halter : ∀ s s' X Y l, AlterCtx o b a s s' X Y → alterOf o a s = .ok l → Runs exec (st (X ++ s :: Y)) l (st (X ++ s' :: Y))) :
    (∃ l, diff o (some b) (some a) = .ok l ∧ Runs exec (st b) l (st a)) ∨ (diff o (some b) (some a) = .err .noDifference ∧ st b = st a) := by
  simp only [diff]
  split
  · rename_i e
    exact Or.inr ⟨rfl, hstr e⟩
  · obtain ⟨ds, hds⟩ := forall₂_exists (R := IsDropFor o) (l := onlyLeftStmt o b a) fun s hs => by
      have := cb s (List.mem_of_mem_filter hs)
      cases s <;> simp only [creates, Option.isSome_none, Bool.false_eq_true] at this
      · exact ⟨_, .table _⟩
      · exact ⟨_, .index _⟩
    obtain ⟨rs, hrs⟩ := forall₂_exists hok
    have e1 : mapRes (dropOf o) (onlyLeftStmt o b a) = .ok ds := mapRes_ok.2 (hds.imp fun _ _ h => dropOf_ok.2 h)
    have e2 : mapRes (createOf (T := T) (I := I) (A := A) (N := N)) (onlyLeftStmt o a b) = .ok (onlyLeftStmt o a b) := by
      refine mapRes_ok.2 (List.forall₂_same.2 fun s hs => ?_)
      exact (createOf_ok (o := o)).2 ⟨rfl, ca s (List.mem_of_mem_filter hs)⟩
    have e3 : flatMapRes (alterOf o a) b = .ok rs.flatten := flatMapRes_ok.2 ⟨rs, hrs, rfl⟩
    rw [e1, e2, e3]
    simp only [Res.ok_bind]
    have r1 := drops_run (st := st) cb db hdrop (p := []) rfl hds
    have r2 := creates_run (st := st) cb ca db da hcreate (p := []) rfl
    have r3 := alters_run (st := st) cb ca db da halter (p := []) rfl hrs
    simp only [List.filter_nil, List.nil_append, List.map_nil] at r1 r3
    have e0 : onlyLeftStmt o ([] : List (Stmt T I A N)) b = [] := rfl
    rw [e0, List.append_nil] at r2
    have hp := final_perm cb ca db da
    rw [hperm _ _ hp (distinct_perm hp.symm da)] at r3
    have run := (r1.append r2).append r3
    split
    · rename_i he
      rw [List.isEmpty_iff] at he
      rw [he] at run
      refine Or.inr ⟨rfl, ?_⟩
      generalize st b = x, st a = y at run
      cases run
      rfl
    · exact Or.inl ⟨_, rfl, run⟩

end Ddl.Phases
