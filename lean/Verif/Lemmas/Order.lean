import Verif.Spec.Order
import Verif.Lemmas.Parts

/-! # Schemas with their definitions in another order -/

namespace Ddl
open Spec
set_option autoImplicit false

section
variable {α β : Type}

theorem mapRes_perm {f : α → Res β} {l l' : List α} (h : l.Perm l') : ∀ {u : List β}, mapRes f l = .ok u → ∃ u', mapRes f l' = .ok u' ∧ u.Perm u' := by
  induction h with
  | nil => intro u hu; exact ⟨u, hu, .refl _⟩
  | cons x _ ih =>
    intro u hu
    simp only [mapRes, bind_eq_ok] at hu
    obtain ⟨y, hy, ys, hys, e⟩ := hu
    cases e
    obtain ⟨u', h1, h2⟩ := ih hys
    exact ⟨y :: u', by simp only [mapRes, bind_eq_ok]; exact ⟨y, hy, u', h1, rfl⟩, h2.cons y⟩
  | swap x y l =>
    intro u hu
    simp only [mapRes, bind_eq_ok] at hu
    obtain ⟨v, hv, vs, ⟨w, hw, ws, hws, e'⟩, e⟩ := hu
    cases e'; cases e
    exact ⟨w :: v :: ws, by simp only [mapRes, bind_eq_ok]; exact ⟨w, hw, _, ⟨v, hv, ws, hws, rfl⟩, rfl⟩, .swap ..⟩
  | trans _ _ ih ih' =>
    intro u hu
    obtain ⟨u', h1, h2⟩ := ih hu
    obtain ⟨u'', h3, h4⟩ := ih' h1
    exact ⟨u'', h3, h2.trans h4⟩

theorem flatMapRes_perm {f : α → Res (List β)} {l l' : List α} (h : l.Perm l') :
    ∀ {u : List β}, flatMapRes f l = .ok u → ∃ u', flatMapRes f l' = .ok u' ∧ u.Perm u' := by
  induction h with
  | nil => intro u hu; exact ⟨u, hu, .refl _⟩
  | cons x _ ih =>
    intro u hu
    simp only [flatMapRes, bind_eq_ok] at hu
    obtain ⟨y, hy, ys, hys, e⟩ := hu
    cases e
    obtain ⟨u', h1, h2⟩ := ih hys
    exact ⟨y ++ u', by simp only [flatMapRes, bind_eq_ok]; exact ⟨y, hy, u', h1, rfl⟩, h2.append_left y⟩
  | swap x y l =>
    intro u hu
    simp only [flatMapRes, bind_eq_ok] at hu
    obtain ⟨v, hv, vs, ⟨w, hw, ws, hws, e'⟩, e⟩ := hu
    cases e'; cases e
    refine ⟨w ++ (v ++ ws), by simp only [flatMapRes, bind_eq_ok]; exact ⟨w, hw, _, ⟨v, hv, ws, hws, rfl⟩, rfl⟩, ?_⟩
    rw [← List.append_assoc, ← List.append_assoc]
    exact List.perm_append_comm.append_right ws
  | trans _ _ ih ih' =>
    intro u hu
    obtain ⟨u', h1, h2⟩ := ih hu
    obtain ⟨u'', h3, h4⟩ := ih' h1
    exact ⟨u'', h3, h2.trans h4⟩

theorem flatMapRes_congr {f g : α → Res (List β)} : ∀ {l : List α}, (∀ x ∈ l, f x = g x) → flatMapRes f l = flatMapRes g l
  | [], _ => rfl
  | x :: l, h => by simp only [flatMapRes, h x (by simp), flatMapRes_congr (l := l) fun y hy => h y (by simp [hy])]

end

section
variable {T I A N : Type} {o : Ops T I A N}

theorem distinct_perm {l l' : List (Stmt T I A N)} (h : l.Perm l') (hd : DistinctObjects o l) : DistinctObjects o l' :=
  (h.filterMap _).nodup_iff.1 hd

theorem findStmt_perm {l l' : List (Stmt T I A N)} (h : l.Perm l') (hd : DistinctObjects o l) {s : Stmt T I A N} {k : Obj}
    (hk : Spec.creates o s = some k) : findStmt o s l = findStmt o s l' := by
  cases e : findStmt o s l with
  | none =>
    cases e' : findStmt o s l' with
    | none => rfl
    | some x =>
      obtain ⟨h1, h2⟩ := findStmt_creates hk e'
      exact absurd ⟨x, h.mem_iff.2 h1, h2⟩ ((findStmt_none_iff hk).1 (by rw [e]; rfl))
  | some x =>
    obtain ⟨h1, h2⟩ := findStmt_creates hk e
    cases e' : findStmt o s l' with
    | none => exact absurd ⟨x, h.mem_iff.1 h1, h2⟩ ((findStmt_none_iff hk).1 (by rw [e']; rfl))
    | some y =>
      obtain ⟨h3, h4⟩ := findStmt_creates hk e'
      rw [unique_of_distinct hd h1 (h.mem_iff.2 h3) h2 h4]

theorem onlyLeft_perm {b b' a a' : List (Stmt T I A N)} (hb : b.Perm b') (ha : a.Perm a') (cb : CreateOnly o b) (da : DistinctObjects o a) :
    (onlyLeftStmt o b a).Perm (onlyLeftStmt o b' a') := by
  have : onlyLeftStmt o b a = b.filter fun s => (findStmt o s a').isNone := by
    refine List.filter_congr fun s hs => ?_
    obtain ⟨k, hk⟩ := Option.isSome_iff_exists.1 (cb s hs)
    rw [findStmt_perm ha da hk]
  rw [this]
  exact hb.filter _

theorem anyOrder (self : ∀ t, o.diffTable t t = .err .noDifference) {b b' a a' : List (Stmt T I A N)} (hb : b.Perm b') (ha : a.Perm a')
    (cb : CreateOnly o b) (ca : CreateOnly o a) (db : DistinctObjects o b) (da : DistinctObjects o a)
    (t : ddlStr o b = ddlStr o a → b = a) (t' : ddlStr o b' = ddlStr o a' → b' = a') : AnyOrder o b b' a a' := by
  intro m hm
  obtain ⟨d, c, r, p, rfl⟩ := phases_of_changes self cb ca db t hm
  obtain ⟨d', h1, h2⟩ := mapRes_perm (onlyLeft_perm hb ha cb da) p.drops
  obtain ⟨c', h3, h4⟩ := mapRes_perm (onlyLeft_perm ha hb ca db) p.creates
  have e : flatMapRes (alterOf o a') b = .ok r := by
    rw [← p.alters]
    refine flatMapRes_congr fun s hs => ?_
    obtain ⟨k, hk⟩ := Option.isSome_iff_exists.1 (cb s hs)
    exact (alterOf_congr (findStmt_perm ha da hk)).symm
  obtain ⟨r', h5, h6⟩ := flatMapRes_perm hb e
  exact ⟨_, changes_of_phases self (fun s hs => cb s (hb.mem_iff.2 hs)) (distinct_perm hb db) t' ⟨h1, h3, h5⟩, (h2.append h4).append h6⟩

theorem not_anyOrder {b b' a a' m : List (Stmt T I A N)} (h : Changes o b a []) (h' : diff o (some b') (some a') = .ok m) : ¬ AnyOrder o b b' a a' := by
  intro hx
  obtain ⟨m', hc, hp⟩ := hx [] h
  cases hp.nil_eq
  rcases hc with ⟨-, hc⟩ | ⟨hc, -⟩
  · exact hc rfl
  · cases h'.symm.trans hc

end
end Ddl
