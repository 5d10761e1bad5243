import Verif.Spec.TakeBack
import Verif.Lemmas.OnceTables

/-! # A migration takes nothing back -/

namespace Ddl
open Spec
set_option autoImplicit false

/-- A deed that may be taken back. -/
def IsAdd : Deed → Prop
  | .create _ => True
  | .part _ v _ => v = .addColumn ∨ v = .addConstraint
  | _ => False

/-- A deed that may take back another one. -/
def IsDrop : Deed → Prop
  | .drop _ => True
  | .part _ v _ => v = .dropColumn ∨ v = .dropConstraint
  | _ => False

theorem TakesBack.isAdd {d e : Deed} (h : TakesBack d e) : IsAdd d := by
  unfold TakesBack at h
  split at h <;> simp_all [IsAdd]

theorem TakesBack.isDrop {d e : Deed} (h : TakesBack d e) : IsDrop e := by
  unfold TakesBack at h
  split at h <;> simp_all [IsDrop]

theorem nothing_of_no_add {l : List Deed} (h : ∀ d ∈ l, ¬ IsAdd d) : NothingTakenBack l :=
  List.Pairwise.imp_of_mem (R := fun _ _ => True) (fun hx _ _ ht => h _ hx (TakesBack.isAdd ht)) (List.pairwise_of_forall fun _ _ => trivial)

theorem nothing_of_no_drop {l : List Deed} (h : ∀ d ∈ l, ¬ IsDrop d) : NothingTakenBack l :=
  List.Pairwise.imp_of_mem (R := fun _ _ => True) (fun _ hy _ ht => h _ hy (TakesBack.isDrop ht)) (List.pairwise_of_forall fun _ _ => trivial)

theorem nothing_append {l l' : List Deed} : NothingTakenBack (l ++ l') ↔
    NothingTakenBack l ∧ NothingTakenBack l' ∧ ∀ d ∈ l, ∀ e ∈ l', ¬ TakesBack d e := List.pairwise_append

/-- Constraints told apart by their names are not taken back by each other. -/
theorem Tells.takesBack {qd qc : Str → Str} (hq : ∀ n m, qc n = qd m → n = m) {tn n m : Str} {d e : Deed} (h : Tells qd qc tn n d)
    (h' : Tells qd qc tn m e) (ht : TakesBack d e) : n = m := by
  rcases h with rfl | rfl | rfl | rfl <;> rcases h' with rfl | rfl | rfl | rfl <;> simp [TakesBack] at ht
  · exact ht
  · exact hq _ _ ht

theorem OfColumn.not_back {qd qc : Str → Str} {tn n : Str} {d e : Deed} (h : OfColumn tn d) (h' : Tells qd qc tn n e) : ¬ TakesBack d e := by
  obtain ⟨v, m, rfl, h1, h2⟩ := h
  intro ht
  have := TakesBack.isAdd ht
  simp only [IsAdd, h2, or_false] at this
  subst this
  rcases h' with rfl | rfl | rfl | rfl <;> simp [TakesBack] at ht

theorem rounds_back {α : Type} {qd qc : Str → Str} (hq : ∀ n m, qc n = qd m → n = m) {tn : Str} {l : List α} {key : α → Str}
    (hl : (l.map key).Nodup) {f : α → List Deed} (h1 : ∀ x ∈ l, NothingTakenBack (f x)) (h2 : ∀ x ∈ l, ∀ d ∈ f x, Tells qd qc tn (key x) d) :
    NothingTakenBack (l.flatMap f) := by
  refine List.pairwise_flatMap.2 ⟨h1, ?_⟩
  have hp : l.Pairwise (fun x y => key x ≠ key y) := List.pairwise_map.1 hl
  exact hp.imp_of_mem fun hx hy hne d hd e he ht => hne ((h2 _ hx d hd).takesBack hq (h2 _ hy e he) ht)

/-- A dropped constraint, then a column, then a changed constraint, then a new one. -/
theorem combine_back {qd qc : Str → Str} {tn : Str} {D1 D2 D3 D4 : List Deed} (h1 : ∀ d ∈ D1, ¬ IsAdd d) (n2 : NothingTakenBack D2)
    (n3 : NothingTakenBack D3) (h4 : ∀ d ∈ D4, ¬ IsDrop d) (h2 : ∀ d ∈ D2, OfColumn tn d) (h3 : ∀ d ∈ D3, ∃ n, Tells qd qc tn n d) :
    NothingTakenBack (D1 ++ D2 ++ D3 ++ D4) := by
  refine nothing_append.2 ⟨nothing_append.2 ⟨nothing_append.2 ⟨nothing_of_no_add h1, n2, fun d hd _ _ ht => h1 d hd (TakesBack.isAdd ht)⟩, n3, ?_⟩,
    nothing_of_no_drop h4, fun _ _ e he ht => h4 e he (TakesBack.isDrop ht)⟩
  intro d hd e he ht
  rcases List.mem_append.1 hd with hd | hd
  · exact h1 d hd (TakesBack.isAdd ht)
  · obtain ⟨n, hn⟩ := h3 e he
    exact (h2 d hd).not_back hn ht

/-- Without indexes inside tables everything stays in its place. -/
theorem stays_simple {T I A N : Type} {o : Ops T I A N} (b a : List (Stmt T I A N)) : Stays o (fun _ => []) b a := by
  intro s _ s' _ x hx hx'
  cases s <;> cases s' <;> simp [objects] at hx hx' <;> subst hx <;> simp [creates] at hx' ⊢ <;> exact hx'

section
variable {T I A N : Type} {o : Ops T I A N} {part : A → Verb × Option Str} {inline : T → List Str}

theorem diff_back {b a r : List (Stmt T I A N)} (db : DistinctIndexes o inline b) (hs : Stays o inline b a)
    (ht : ∀ t t' l, .createTable t ∈ b → .createTable t' ∈ a → (o.tableName t).diffStr = (o.tableName t').diffStr →
      o.diffTable t t' = .ok l → TableOnce o part inline t t' l ∧ NothingTakenBack (l.map (deedOf o part)))
    (h : diff o (some b) (some a) = .ok r) : NothingTakenBack (r.map (deedOf o part)) := by
  obtain ⟨ds, cs, rs, hds, rfl, hcs, hrs, rfl, -⟩ := diff_ok h
  let g : Stmt T I A N → List (Stmt T I A N) := fun s => match alterOf o a s with | .ok l => l | _ => []
  have hg : ∀ x l, alterOf o a x = .ok l → g x = l := fun x l e => by simp only [g, e]
  have hrest : ∀ s ∈ b, NothingTakenBack ((g s).map (deedOf o part)) ∧ (g s = [] ∨ ∃ s' ∈ a, (∃ k, creates o s = some k ∧ creates o s' = some k) ∧
      ∀ d ∈ (g s).map (deedOf o part), Mine o inline s s' d) := fun s hs => by
    obtain ⟨l, -, hl⟩ := forall₂_mem_left hrs s hs
    rw [hg s l hl]
    refine ⟨?_, (alterOf_once (fun t t' l h1 h2 h3 h4 => (ht t t' l h1 h2 h3 h4).1) hs hl).2⟩
    rcases alterOf_ok hl with rfl | ⟨t, t', rfl, ha, hn, hd⟩ | ⟨i, i', rfl, ha, hn, -, rfl⟩
    · exact List.Pairwise.nil
    · exact (ht t t' l hs ha hn hd).2
    · simp [NothingTakenBack, deedOf, TakesBack]
  have hinst : ∀ {s : Stmt T I A N} {d}, s ∈ b → d ∈ (g s).map (deedOf o part) → ∃ s' ∈ a, (∃ k, creates o s = some k ∧ creates o s' = some k) ∧
      Mine o inline s s' d := fun {s d} hs hd => by
    rcases (hrest s hs).2 with he | ⟨s', h1, h2, h3⟩
    · rw [he] at hd; cases hd
    · exact ⟨s', h1, h2, h3 d hd⟩
  rw [flatten_of_forall₂ hg hrs, List.map_append, List.map_append, drops_deeds hds, creates_deeds hcs, List.map_flatMap]
  have hd0 : ∀ d ∈ ((onlyLeftStmt o b a).filterMap (creates o)).map Deed.drop, ¬ IsAdd d := by
    intro d hd
    obtain ⟨_, -, rfl⟩ := List.mem_map.1 hd
    simp [IsAdd]
  have hc0 : ∀ d ∈ ((onlyLeftStmt o a b).filterMap (creates o)).map Deed.create, ¬ IsDrop d := by
    intro d hd
    obtain ⟨_, -, rfl⟩ := List.mem_map.1 hd
    simp [IsDrop]
  refine nothing_append.2 ⟨nothing_append.2 ⟨nothing_of_no_add hd0, nothing_of_no_drop hc0, fun _ _ e he ht => hc0 e he (TakesBack.isDrop ht)⟩, ?_, ?_⟩
  · refine List.pairwise_flatMap.2 ⟨fun s hs => (hrest s hs).1, ?_⟩
    refine (List.nodup_flatMap.1 db).2.imp_of_mem fun {s u} hs' hu hdis d hd e he hback => ?_
    obtain ⟨s', hs'a, ⟨k, k1, k2⟩, hm⟩ := hinst hs' hd
    obtain ⟨u', hu', -, hn⟩ := hinst hu he
    cases d with
    | drop x => exact (TakesBack.isAdd hback)
    | part t v n =>
      cases e with
      | part t' v' n' =>
        have e : t = t' := by
          unfold TakesBack at hback
          split at hback <;> simp_all
        subst e
        exact hdis hm hn
      | drop y => cases v <;> exact hback
      | create y => cases v <;> exact hback
    | create x =>
      cases e with
      | drop y =>
        have e : x = y := hback
        subst e
        have e := hs u hu s' hs'a x hn hm
        rw [k2] at e
        exact hdis (creates_mem k1) (creates_mem e)
      | part t' v' n' => exact hback
      | create y => exact hback
  · intro d hd e he hback
    rcases List.mem_append.1 hd with hd | hd
    · exact hd0 d hd (TakesBack.isAdd hback)
    · obtain ⟨z, hz, rfl⟩ := List.mem_map.1 hd
      obtain ⟨u, hu, hc⟩ := List.mem_filterMap.1 hz
      have hub := (mem_onlyLeft hc).1 hu
      obtain ⟨s, hs', hd⟩ := List.mem_flatMap.1 he
      obtain ⟨s', hs'a, ⟨k, k1, k2⟩, hm⟩ := hinst hs' hd
      cases e with
      | drop y =>
        have e : z = y := hback
        subst e
        have e := hs s hs' u hub.1 z hm (creates_mem hc)
        rw [hc] at e
        exact hub.2 ⟨s, hs', e⟩
      | part t' v' n' => exact hback
      | create y => exact hback

end

/-! ## PostgreSQL -/

namespace Pg
variable {sd : Str → Str → Str}

theorem diffColumns_back {tn : ObjectName} {l l' : List Column} :
    NothingTakenBack (((diffColumns sd tn l l').map Stmt.alterTable).map (deedOf (ops sd) deedPart)) := by
  have e : ((diffColumns sd tn l l').map Stmt.alterTable).map (deedOf (ops sd) deedPart) =
      l.flatMap (fun b => ((columnRound sd tn l' b).map Stmt.alterTable).map (deedOf (ops sd) deedPart)) ++
        (onlyLeftColumn l' l).map (fun x => Deed.part tn.diffStr .addColumn (some x.name.name)) := by
    simp only [diffColumns, List.map_append, List.map_flatMap, List.map_map]
    rfl
  have h1 : ∀ d ∈ l.flatMap (fun b => ((columnRound sd tn l' b).map Stmt.alterTable).map (deedOf (ops sd) deedPart)), ¬ IsAdd d := by
    intro d hd
    obtain ⟨b, -, hd⟩ := List.mem_flatMap.1 hd
    obtain ⟨v, rfl, h1, h2, h3⟩ := columnRound_once.2 d hd
    simp [IsAdd, h1, h3]
  have h2 : ∀ d ∈ (onlyLeftColumn l' l).map (fun x => Deed.part tn.diffStr .addColumn (some x.name.name)), ¬ IsDrop d := by
    intro d hd
    obtain ⟨c, -, rfl⟩ := List.mem_map.1 hd
    simp [IsDrop]
  rw [e]
  exact nothing_append.2 ⟨nothing_of_no_add h1, nothing_of_no_drop h2, fun d hd _ _ ht => h1 d hd (TakesBack.isAdd ht)⟩

theorem drop_noAdd {tn : ObjectName} {l l' : List Constraint} :
    ∀ d ∈ ((dropConstraints sd tn l l').map Stmt.alterTable).map (deedOf (ops sd) deedPart), ¬ IsAdd d := by
  intro d hd
  simp only [dropConstraints, List.map_flatMap] at hd
  obtain ⟨b, -, hd⟩ := List.mem_flatMap.1 hd
  split at hd <;> simp at hd
  subst hd
  simp [IsAdd, deedOf, deedPart]

theorem add_noDrop {nv : Bool} {tn : ObjectName} {l l' : List Constraint} :
    ∀ d ∈ ((addConstraints sd nv tn l l').map Stmt.alterTable).map (deedOf (ops sd) deedPart), ¬ IsDrop d := by
  intro d hd
  simp only [addConstraints, List.map_map] at hd
  obtain ⟨c, -, rfl⟩ := List.mem_map.1 hd
  simp [IsDrop, deedOf, deedPart]

theorem replace_back {nv : Bool} {tn : ObjectName} {l l' : List Constraint} (hl : (l.map (·.name.name)).Nodup) :
    NothingTakenBack (((replaceConstraints sd nv tn l l').map Stmt.alterTable).map (deedOf (ops sd) deedPart)) := by
  simp only [replaceConstraints, List.map_flatMap]
  refine rounds_back (qd := id) (qc := id) (tn := tn.diffStr) (fun _ _ h => h) (key := fun c : Constraint => c.name.name) hl ?_ ?_
  · intro b _
    split
    · simp [NothingTakenBack]
    · split
      · simp [NothingTakenBack, deedOf, deedPart, TakesBack]
      · simp [NothingTakenBack]
  · intro b _ d hd
    split at hd
    · simp at hd
    · rename_i a hf
      have hn := (find?_some_mem (f := fun c : Constraint => c.name.name) hf).2
      split at hd <;> simp only [List.map_cons, List.map_nil, List.mem_cons, List.not_mem_nil, or_false] at hd
      rcases hd with rfl | rfl
      · exact .inl rfl
      · exact .inr (.inl (by simp only [deedOf, deedPart, hn]; rfl))

theorem table_back {t t' : CreateTable} {l : List PStmt} (hn : t.name.diffStr = t'.name.diffStr) (cb : (t.columns.map (·.name.name)).Nodup)
    (ca : (t'.columns.map (·.name.name)).Nodup) (kb : (t.constraints.map (·.name.name)).Nodup) (h : (ops sd).diffTable t t' = .ok l) :
    NothingTakenBack (l.map (deedOf (ops sd) deedPart)) := by
  obtain ⟨rfl, _, _⟩ := diffTable_ok h
  have hr : renamedName t.name t'.name = t'.name := by simp [renamedName, hn]
  have h0 : renameTable sd t.name t'.name = [] := by simp [renameTable, hn]
  rw [hr, h0]
  simp only [List.nil_append, List.map_append]
  exact combine_back drop_noAdd diffColumns_back (replace_back kb) add_noDrop (diffColumns_once (sd := sd) cb ca).2
    fun d hd => ((replace_once (sd := sd) (nv := false) (l' := t'.constraints) kb).2 d hd).imp fun _ h => h.2.2
end Pg

/-! ## CockroachDB -/

namespace Crdb
variable {sd : Str → Str → Str}

theorem diffColumns_back {tn : ObjectName} {l l' : List Column} :
    NothingTakenBack (((diffColumns sd tn l l').map Stmt.alterTable).map (deedOf (ops sd) deedPart)) := by
  have e : ((diffColumns sd tn l l').map Stmt.alterTable).map (deedOf (ops sd) deedPart) =
      l.flatMap (fun b => ((columnRound sd tn l' b).map Stmt.alterTable).map (deedOf (ops sd) deedPart)) ++
        (onlyLeftColumn l' l).map (fun x => Deed.part tn.diffStr .addColumn (some x.name.name)) := by
    simp only [diffColumns, List.map_append, List.map_flatMap, List.map_map]
    rfl
  have h1 : ∀ d ∈ l.flatMap (fun b => ((columnRound sd tn l' b).map Stmt.alterTable).map (deedOf (ops sd) deedPart)), ¬ IsAdd d := by
    intro d hd
    obtain ⟨b, -, hd⟩ := List.mem_flatMap.1 hd
    obtain ⟨v, rfl, h1, h2, h3⟩ := columnRound_once.2 d hd
    simp [IsAdd, h1, h3]
  have h2 : ∀ d ∈ (onlyLeftColumn l' l).map (fun x => Deed.part tn.diffStr .addColumn (some x.name.name)), ¬ IsDrop d := by
    intro d hd
    obtain ⟨c, -, rfl⟩ := List.mem_map.1 hd
    simp [IsDrop]
  rw [e]
  exact nothing_append.2 ⟨nothing_of_no_add h1, nothing_of_no_drop h2, fun d hd _ _ ht => h1 d hd (TakesBack.isAdd ht)⟩

theorem drop_noAdd {tn : ObjectName} {l l' : List Constraint} :
    ∀ d ∈ (dropConstraints sd tn l l').map (deedOf (ops sd) deedPart), ¬ IsAdd d := by
  intro d hd
  simp only [dropConstraints, List.map_flatMap] at hd
  obtain ⟨b, -, hd⟩ := List.mem_flatMap.1 hd
  split at hd
  · split at hd <;> simp at hd <;> subst hd <;> simp [IsAdd, deedOf, deedPart]
  · simp at hd

theorem add_noDrop {nv : Bool} {tn : ObjectName} {l l' : List Constraint} :
    ∀ d ∈ (addConstraints sd nv tn l l').map (deedOf (ops sd) deedPart), ¬ IsDrop d := by
  intro d hd
  simp only [addConstraints, List.map_map] at hd
  obtain ⟨c, -, rfl⟩ := List.mem_map.1 hd
  simp only [Function.comp_apply]
  split <;> simp [IsDrop, deedOf, deedPart, indexStmt]

theorem replace_back {nv : Bool} {tn : ObjectName} {l l' : List Constraint}
    (hl : (l.map (·.name.name)).Nodup) : NothingTakenBack ((replaceConstraints sd nv tn l l').map (deedOf (ops sd) deedPart)) := by
  simp only [replaceConstraints, List.map_flatMap]
  refine rounds_back (qd := id) (qc := id) (tn := tn.diffStr) (fun _ _ h => h) (key := fun c : Constraint => c.name.name) hl ?_ ?_
  · intro b _
    split
    · simp [NothingTakenBack]
    · split
      · split <;> simp [NothingTakenBack, deedOf, deedPart, TakesBack, indexStmt]
      · simp [NothingTakenBack]
  · intro b _ d hd
    split at hd
    · simp at hd
    · rename_i a hf
      have hn := (find?_some_mem (f := fun c : Constraint => c.name.name) hf).2
      split at hd
      · split at hd
        · rename_i n _ _ _ _ _
          change n.name = b.name.name at hn
          simp only [List.map_cons, List.map_nil, List.mem_cons, List.not_mem_nil, or_false] at hd
          rcases hd with rfl | rfl
          · exact .inr (.inr (.inl rfl))
          · exact .inr (.inr (.inr (by rw [← hn]; exact rfl)))
        · simp only [List.map_cons, List.map_nil, List.mem_cons, List.not_mem_nil, or_false] at hd
          rcases hd with rfl | rfl
          · exact .inl rfl
          · exact .inr (.inl (by simp only [deedOf, deedPart, hn]; rfl))
      · simp at hd

theorem table_back {t t' : CreateTable} {l : List CStmt} (hn : t.name.diffStr = t'.name.diffStr) (cb : (t.columns.map (·.name.name)).Nodup)
    (ca : (t'.columns.map (·.name.name)).Nodup) (kb : (t.constraints.map (·.name.name)).Nodup)
    (hk : ∀ n ∈ indexNames t'.constraints, n ∈ t.constraints.map (·.name.name) → n ∈ indexNames t.constraints)
    (h : (ops sd).diffTable t t' = .ok l) : NothingTakenBack (l.map (deedOf (ops sd) deedPart)) := by
  obtain ⟨rfl, _, _⟩ := diffTable_ok h
  have hr : renamedName t.name t'.name = t'.name := by simp [renamedName, hn]
  have h0 : renameTable sd t.name t'.name = [] := by simp [renameTable, hn]
  rw [hr, h0]
  simp only [List.map_nil, List.nil_append, List.map_append]
  exact combine_back drop_noAdd diffColumns_back (replace_back kb) add_noDrop (diffColumns_once (sd := sd) cb ca).2
    fun d hd => ((replace_once (sd := sd) (nv := false) (tn := t'.name) (l' := t'.constraints) kb hk).2 d hd).imp fun _ h => h.2.2.tells
end Crdb

/-! ## MySQL -/

namespace My
variable {sd : Str → Str → Str}

theorem diffColumns_back {tn : ObjectName} {l l' : List Column} :
    NothingTakenBack (((diffColumns sd tn l l').map Stmt.alterTable).map (deedOf (ops sd) deedPart)) := by
  have e : ((diffColumns sd tn l l').map Stmt.alterTable).map (deedOf (ops sd) deedPart) =
      l.flatMap (fun b => ((columnRound sd tn l' b).map Stmt.alterTable).map (deedOf (ops sd) deedPart)) ++
        (onlyLeftColumn l' l).map (fun x => Deed.part tn.diffStr .addColumn (some x.name.name)) := by
    simp only [diffColumns, List.map_append, List.map_flatMap, List.map_map]
    rfl
  have h1 : ∀ d ∈ l.flatMap (fun b => ((columnRound sd tn l' b).map Stmt.alterTable).map (deedOf (ops sd) deedPart)), ¬ IsAdd d := by
    intro d hd
    obtain ⟨b, -, hd⟩ := List.mem_flatMap.1 hd
    obtain ⟨v, rfl, h1, h2, h3⟩ := columnRound_once.2 d hd
    simp [IsAdd, h1, h3]
  have h2 : ∀ d ∈ (onlyLeftColumn l' l).map (fun x => Deed.part tn.diffStr .addColumn (some x.name.name)), ¬ IsDrop d := by
    intro d hd
    obtain ⟨c, -, rfl⟩ := List.mem_map.1 hd
    simp [IsDrop]
  rw [e]
  exact nothing_append.2 ⟨nothing_of_no_add h1, nothing_of_no_drop h2, fun d hd _ _ ht => h1 d hd (TakesBack.isAdd ht)⟩

theorem drop_noAdd {bs : Option Ident} {tn : ObjectName} {l l' : List Constraint} :
    ∀ d ∈ (dropConstraints sd bs tn l l').map (deedOf (ops sd) deedPart), ¬ IsAdd d := by
  intro d hd
  simp only [dropConstraints, List.map_flatMap] at hd
  obtain ⟨b, -, hd⟩ := List.mem_flatMap.1 hd
  split at hd
  · split at hd <;> simp at hd <;> subst hd <;> simp [IsAdd, deedOf, deedPart]
  · simp at hd

theorem add_noDrop {nv : Bool} {tn : ObjectName} {l l' : List Constraint} :
    ∀ d ∈ (addConstraints sd nv tn l l').map (deedOf (ops sd) deedPart), ¬ IsDrop d := by
  intro d hd
  simp only [addConstraints, List.map_map] at hd
  obtain ⟨c, -, rfl⟩ := List.mem_map.1 hd
  simp only [Function.comp_apply]
  split <;> simp [IsDrop, deedOf, deedPart, indexStmt]

theorem replace_back {nv : Bool} {bs : Option Ident} {tn : ObjectName} {l l' : List Constraint} (hq : ∀ n m, qIndex tn.schema n = qIndex bs m → n = m)
    (hl : (l.map (·.name.name)).Nodup) : NothingTakenBack ((replaceConstraints sd nv bs tn l l').map (deedOf (ops sd) deedPart)) := by
  simp only [replaceConstraints, List.map_flatMap]
  refine rounds_back (qd := (qIndex bs)) (qc := (qIndex tn.schema)) (tn := tn.diffStr) hq (key := fun c : Constraint => c.name.name) hl ?_ ?_
  · intro b _
    split
    · simp [NothingTakenBack]
    · split
      · split <;> simp [NothingTakenBack, deedOf, deedPart, TakesBack, indexStmt]
      · simp [NothingTakenBack]
  · intro b _ d hd
    split at hd
    · simp at hd
    · rename_i a hf
      have hn := (find?_some_mem (f := fun c : Constraint => c.name.name) hf).2
      split at hd
      · split at hd
        · rename_i n _ _ _
          change n.name = b.name.name at hn
          simp only [List.map_cons, List.map_nil, List.mem_cons, List.not_mem_nil, or_false] at hd
          rcases hd with rfl | rfl
          · exact .inr (.inr (.inl (congrArg (fun x => Deed.drop (.index x)) (qIndex_eq bs _))))
          · exact .inr (.inr (.inr (by rw [← hn]; exact congrArg (fun x => Deed.create (.index x)) (qIndex_eq tn.schema _))))
        · simp only [List.map_cons, List.map_nil, List.mem_cons, List.not_mem_nil, or_false] at hd
          rcases hd with rfl | rfl
          · exact .inl rfl
          · exact .inr (.inl (by simp only [deedOf, deedPart, hn]; rfl))
      · simp at hd

theorem qIndex_same {s s' : Option Ident} (h : s.map (·.name) = s'.map (·.name)) : ∀ n m, qIndex s' n = qIndex s m → n = m := by
  intro n m e
  have : qIndex s' m = qIndex s m := by
    cases s <;> cases s' <;> simp at h
    · rfl
    · simp [qIndex, ObjectName.diffStr, Ident.diffStr, h]
  exact qIndex_inj s' (e.trans this.symm)

theorem table_back {t t' : CreateTable} {l : List MStmt} (hn : t.name.diffStr = t'.name.diffStr) (cb : (t.columns.map (·.name.name)).Nodup)
    (ca : (t'.columns.map (·.name.name)).Nodup) (kb : (t.constraints.map (·.name.name)).Nodup)
    (ob : (t.options.map (·.name)).Nodup) (oa : (t'.options.map (·.name)).Nodup)
    (hq : ∀ n m, qIndex t'.name.schema n = qIndex t.name.schema m → n = m)
    (hk : ∀ n ∈ indexNames t'.constraints, n ∈ t.constraints.map (·.name.name) → n ∈ indexNames t.constraints)
    (h : (ops sd).diffTable t t' = .ok l) : NothingTakenBack (l.map (deedOf (ops sd) deedPart)) := by
  obtain ⟨rfl, _, _⟩ := diffTable_ok h
  have hr : renamedName t.name t'.name = t'.name := by simp [renamedName, hn]
  have h0 : renameTable sd t.name t'.name = [] := by simp [renameTable, hn]
  rw [hr, h0]
  have e2 := (options_once (sd := sd) (tn := t'.name) ob oa).2
  rw [List.map_append]
  refine nothing_append.2 ⟨?_, nothing_of_no_add fun d hd => ?_, fun d hd e he ht => ?_⟩
  · simp only [List.map_nil, List.nil_append, List.map_append]
    exact combine_back drop_noAdd diffColumns_back (replace_back hq kb) add_noDrop (diffColumns_once (sd := sd) cb ca).2
      fun d hd => ((replace_once (sd := sd) (nv := false) (bs := t.name.schema) (tn := t'.name) (l' := t'.constraints) kb hk).2 d hd).imp fun _ h => h.2.2.tells
  · obtain ⟨n, rfl⟩ := e2 d hd
    simp [IsAdd]
  · obtain ⟨n, rfl⟩ := e2 e he
    have := TakesBack.isDrop ht
    simp [IsDrop] at this
end My

/-! ## Spanner -/

namespace Sp
variable {sd : Str → Str → Str}

theorem diffColumns_back {tn : ObjectName} {l l' : List Column} :
    NothingTakenBack (((diffColumns sd tn l l').map Stmt.alterTable).map (deedOf (ops sd) deedPart)) := by
  have e : ((diffColumns sd tn l l').map Stmt.alterTable).map (deedOf (ops sd) deedPart) =
      l.flatMap (fun b => ((columnRound sd tn l' b).map Stmt.alterTable).map (deedOf (ops sd) deedPart)) ++
        (onlyLeftColumn l' l).map (fun x => Deed.part tn.diffStr .addColumn (some x.name.name)) := by
    simp only [diffColumns, List.map_append, List.map_flatMap, List.map_map]
    rfl
  have h1 : ∀ d ∈ l.flatMap (fun b => ((columnRound sd tn l' b).map Stmt.alterTable).map (deedOf (ops sd) deedPart)), ¬ IsAdd d := by
    intro d hd
    obtain ⟨b, -, hd⟩ := List.mem_flatMap.1 hd
    obtain ⟨v, rfl, h1, h2, h3⟩ := columnRound_once.2 d hd
    simp [IsAdd, h1, h3]
  have h2 : ∀ d ∈ (onlyLeftColumn l' l).map (fun x => Deed.part tn.diffStr .addColumn (some x.name.name)), ¬ IsDrop d := by
    intro d hd
    obtain ⟨c, -, rfl⟩ := List.mem_map.1 hd
    simp [IsDrop]
  rw [e]
  exact nothing_append.2 ⟨nothing_of_no_add h1, nothing_of_no_drop h2, fun d hd _ _ ht => h1 d hd (TakesBack.isAdd ht)⟩

theorem drop_noAdd {tn : ObjectName} {l l' : List Constraint} {r : List AlterTable} (h : flatMapRes (dropConstraint sd tn l') l = .ok r) :
    ∀ d ∈ (r.map Stmt.alterTable).map (deedOf (ops sd) deedPart), ¬ IsAdd d := by
  obtain ⟨g, hg, rfl⟩ := rounds h
  intro d hd
  simp only [List.map_flatMap] at hd
  obtain ⟨b, hb, hd⟩ := List.mem_flatMap.1 hd
  have := hg b hb
  simp only [dropConstraint, bind_eq_ok] at this
  obtain ⟨n, hn, f, hf, e⟩ := this
  cases f <;> simp only [Res.ok.injEq] at e <;> rw [← e] at hd <;> simp at hd
  subst hd
  simp [IsAdd, deedOf, deedPart]

theorem add_noDrop {nv : Bool} {tn : ObjectName} {r : List Constraint} :
    ∀ d ∈ ((r.map (fun c => AlterTable.mk (sd [] c.str) tn (.addConstraint c nv))).map Stmt.alterTable).map (deedOf (ops sd) deedPart), ¬ IsDrop d := by
  intro d hd
  simp only [List.map_map] at hd
  obtain ⟨c, -, rfl⟩ := List.mem_map.1 hd
  simp [IsDrop, deedOf, deedPart]

theorem replace_back {nv : Bool} {tn : ObjectName} {l l' : List Constraint} {r : List AlterTable} (hl : (l.map Constraint.key).Nodup)
    (ha : ∀ c ∈ l', c.name ≠ none) (h : flatMapRes (replaceConstraint sd nv tn l') l = .ok r) :
    NothingTakenBack ((r.map Stmt.alterTable).map (deedOf (ops sd) deedPart)) := by
  obtain ⟨g, hg, rfl⟩ := rounds h
  have h1 : ∀ b ∈ l, NothingTakenBack (((g b).map Stmt.alterTable).map (deedOf (ops sd) deedPart)) ∧
      ∀ d ∈ ((g b).map Stmt.alterTable).map (deedOf (ops sd) deedPart), Tells id id tn.diffStr b.key d := by
    intro b hb
    have := hg b hb
    simp only [replaceConstraint, bind_eq_ok] at this
    obtain ⟨n, hn, f, hf, e⟩ := this
    obtain ⟨i, hi, rfl⟩ := nameStr_ok.1 hn
    have hk := nameStr_key hn
    cases f with
    | none =>
      simp only [Res.ok.injEq] at e
      rw [← e]
      simp [NothingTakenBack]
    | some c =>
      obtain ⟨hc, hck⟩ := findConstraint_some hf
      obtain ⟨j, hj⟩ := Option.ne_none_iff_exists'.1 (ha c hc)
      have hji : j.name = i.name := by rw [← hck, Constraint.key, hj]; rfl
      simp only at e
      split at e
      · simp only [Res.ok.injEq] at e
        rw [← e]
        refine ⟨by simp [NothingTakenBack, deedOf, deedPart, TakesBack], fun d hd => ?_⟩
        simp only [List.map_cons, List.map_nil, List.mem_cons, List.not_mem_nil, or_false] at hd
        rcases hd with rfl | rfl
        · exact .inl (by simp [deedOf, deedPart, ops, hi, hk])
        · exact .inr (.inl (by simp [deedOf, deedPart, ops, hj, hk, hji]))
      · simp only [Res.ok.injEq] at e
        rw [← e]
        simp [NothingTakenBack]
  simp only [List.map_flatMap]
  exact rounds_back (fun _ _ h => h) hl (fun b hb => (h1 b hb).1) fun b hb => (h1 b hb).2

theorem table_back {t t' : CreateTable} {l : List SStmt} (hn : t.name.diffStr = t'.name.diffStr) (cb : (t.columns.map (·.name.name)).Nodup)
    (ca : (t'.columns.map (·.name.name)).Nodup) (kb : (t.constraints.map (fun c => c.name.map (·.name))).Nodup)
    (h : (ops sd).diffTable t t' = .ok l) : NothingTakenBack (l.map (deedOf (ops sd) deedPart)) := by
  rcases diffTable_ok h with ⟨-, rfl⟩ | ⟨-, -, -, dr, re, ad, h1, h2, h3, rfl⟩
  · simp [NothingTakenBack, deedOf, TakesBack]
  · have hr : renamedName t.name t'.name = t'.name := by simp [renamedName, hn]
    have h0 : renameTable sd t.name t'.name = [] := by simp [renameTable, hn]
    rw [hr] at h1 h2
    rw [hr, h0]
    have na := added_named h3
    have kb := keys_nodup kb (constraint_named h1)
    simp only [List.nil_append]
    rw [List.map_append, List.map_append]
    have hp : ∀ d ∈ ((diffRowDeletionPolicy sd t'.name t.rowDeletionPolicy t'.rowDeletionPolicy).map Stmt.alterTable).map (deedOf (ops sd) deedPart),
        ∃ v, d = .part t'.name.diffStr v none ∧ v ≠ .dropConstraint ∧ v ≠ .addConstraint ∧ v ≠ .addColumn ∧ v ≠ .dropColumn := by
      unfold diffRowDeletionPolicy
      split
      · cases t.rowDeletionPolicy <;> cases t'.rowDeletionPolicy <;> simp [deedOf, deedPart, ops]
      · simp
    refine nothing_append.2 ⟨?_, nothing_of_no_add fun d hd => ?_, fun d hd e he ht => ?_⟩
    · simp only [List.map_append]
      exact combine_back (drop_noAdd h1) diffColumns_back (replace_back kb na h2) add_noDrop (diffColumns_once (sd := sd) cb ca).2
        fun d hd => ((replace_once kb na h2).2 d hd).imp fun _ h => h.2.2
    · obtain ⟨v, rfl, -, v2, v3, -⟩ := hp d hd
      simp [IsAdd, v2, v3]
    · obtain ⟨v, rfl, v1, -, -, v4⟩ := hp e he
      have := TakesBack.isDrop ht
      simp [IsDrop, v1, v4] at this
end Sp

end Ddl
