import Verif.Spec.Append
import Verif.Lemmas.PgTable
import Verif.Lemmas.CrdbSat
import Verif.Lemmas.MySat
import Verif.Lemmas.SpSat
import Verif.Lemmas.TableDiff

/-! # Repeated definitions of a constraint name -/

namespace Ddl
open Spec
set_option autoImplicit false

section
variable {α κ : Type} [DecidableEq κ]

theorem firstKeys_concat (l : List κ) (k : κ) : firstKeys (l ++ [k]) = if k ∈ l then firstKeys l else firstKeys l ++ [k] := by
  induction l with
  | nil => simp [firstKeys]
  | cons a l ih =>
    simp only [List.cons_append, firstKeys, ih, List.mem_cons]
    by_cases hk : k ∈ l
    · simp [hk]
    · by_cases ha : k = a
      · subst ha; simp [hk]
      · simp [hk, ha]

theorem mem_firstKeys {l : List κ} {k : κ} : k ∈ firstKeys l ↔ k ∈ l := by
  induction l with
  | nil => simp [firstKeys]
  | cons a l ih =>
    simp only [firstKeys, List.mem_cons, List.mem_filter, ih]
    by_cases h : k = a <;> simp [h]

theorem nodup_firstKeys (l : List κ) : (firstKeys l).Nodup := by
  induction l with
  | nil => exact List.nodup_nil
  | cons a l ih =>
    rw [firstKeys, List.nodup_cons]
    exact ⟨by simp, ih.filter _⟩

variable {key : α → κ} {l r r' : List α} {c : α}

theorem isLast_concat (h : ∀ x ∈ r, IsLast key l x) (hm : ∀ x ∈ r', x ∈ r ∨ x = c) (hc : c ∈ r') (hn : (r'.map key).Nodup) :
    ∀ x ∈ r', IsLast key (l ++ [c]) x := by
  intro x hx
  by_cases e : key x = key c
  · have : x = c := List.inj_on_of_nodup_map hn hx hc e
    subst this
    exact ⟨l, [], rfl, by simp⟩
  · rcases hm x hx with hx | rfl
    · obtain ⟨p, q, e1, e2⟩ := h x hx
      refine ⟨p, q ++ [c], by simp [e1], ?_⟩
      intro y hy
      rcases List.mem_append.1 hy with hy | hy
      · exact e2 y hy
      · simp only [List.mem_singleton] at hy
        subst hy
        exact fun e' => e e'.symm
    · exact absurd rfl e

/-- One more element. -/
theorem LastWins.step (h : LastWins key l r) (hm : ∀ x ∈ r', x ∈ r ∨ x = c) (hc : c ∈ r')
    (hk : (r'.map key).Perm (if key c ∈ r.map key then r.map key else r.map key ++ [key c])) : LastWins key (l ++ [c]) r' := by
  have hk' : (r'.map key).Perm (firstKeys ((l ++ [c]).map key)) := by
    refine hk.trans ?_
    rw [List.map_append, List.map_singleton, firstKeys_concat]
    have : key c ∈ r.map key ↔ key c ∈ l.map key := by rw [h.2.mem_iff, mem_firstKeys]
    by_cases hc : key c ∈ l.map key
    · rw [if_pos hc, if_pos (this.2 hc)]; exact h.2
    · rw [if_neg hc, if_neg (fun e => hc (this.1 e))]; exact h.2.append_right _
  exact ⟨isLast_concat h.1 hm hc (hk'.nodup_iff.2 (nodup_firstKeys _)), hk'⟩

theorem LastWinsAtFirst.step (h : LastWinsAtFirst key l r) (hm : ∀ x ∈ r', x ∈ r ∨ x = c) (hc : c ∈ r')
    (hk : r'.map key = if key c ∈ r.map key then r.map key else r.map key ++ [key c]) : LastWinsAtFirst key (l ++ [c]) r' := by
  have hk' : r'.map key = firstKeys ((l ++ [c]).map key) := by
    rw [hk, List.map_append, List.map_singleton, firstKeys_concat, h.2]
    simp only [mem_firstKeys]
  exact ⟨isLast_concat h.1 hm hc (by rw [hk']; exact nodup_firstKeys _), hk'⟩

theorem LastWins.foldl {app : List α → α → List α} (hm : ∀ r c, ∀ x ∈ app r c, x ∈ r ∨ x = c) (hc : ∀ r c, c ∈ app r c)
    (hk : ∀ r c, ((app r c).map key).Perm (if key c ∈ r.map key then r.map key else r.map key ++ [key c])) (l : List α) :
    LastWins key l (l.foldl app []) := by
  have : ∀ (l p r : List α), LastWins key p r → LastWins key (p ++ l) (l.foldl app r) := by
    intro l
    induction l with
    | nil => intro p r h; simpa using h
    | cons c l ih =>
      intro p r h
      have := ih _ _ (LastWins.step h (hm r c) (hc r c) (hk r c))
      simpa using this
  simpa using this l [] [] ⟨by simp, by simp [firstKeys]⟩

theorem LastWinsAtFirst.foldl {app : List α → α → List α} (hm : ∀ r c, ∀ x ∈ app r c, x ∈ r ∨ x = c) (hc : ∀ r c, c ∈ app r c)
    (hk : ∀ r c, (app r c).map key = if key c ∈ r.map key then r.map key else r.map key ++ [key c]) (l : List α) :
    LastWinsAtFirst key l (l.foldl app []) := by
  have : ∀ (l p r : List α), LastWinsAtFirst key p r → LastWinsAtFirst key (p ++ l) (l.foldl app r) := by
    intro l
    induction l with
    | nil => intro p r h; simpa using h
    | cons c l ih =>
      intro p r h
      have := ih _ _ (LastWinsAtFirst.step h (hm r c) (hc r c) (hk r c))
      simpa using this
  simpa using this l [] [] ⟨by simp, by simp [firstKeys]⟩
theorem firstKeys_self {l : List κ} (h : l.Nodup) : firstKeys l = l := by
  induction l with
  | nil => rfl
  | cons a l ih =>
    rw [List.nodup_cons] at h
    rw [firstKeys, ih h.2, List.filter_eq_self.2]
    intro x hx
    have : x ≠ a := fun e => h.1 (e ▸ hx)
    simpa using this

theorem firstKeys_append (x y : List κ) : firstKeys (x ++ firstKeys y) = firstKeys (x ++ y) := by
  induction x with
  | nil => exact firstKeys_self (nodup_firstKeys y)
  | cons a x ih => simp only [List.cons_append, firstKeys, ih]

omit [DecidableEq κ] in
theorem isLast_unique {x y : α} (hx : IsLast key l x) (hy : IsLast key l y) (e : key x = key y) : x = y := by
  obtain ⟨p, q, e1, h1⟩ := hx
  obtain ⟨p', q', e2, h2⟩ := hy
  rw [e1, List.append_eq_append_iff] at e2
  rcases e2 with ⟨a, -, h⟩ | ⟨a, -, h⟩
  · cases a with
    | nil => exact (List.cons.inj h).1
    | cons b a =>
      obtain ⟨-, h⟩ := List.cons.inj h
      exact absurd e.symm (h1 y (by rw [h]; simp))
  · cases a with
    | nil => exact (List.cons.inj h).1.symm
    | cons b a =>
      obtain ⟨-, h⟩ := List.cons.inj h
      exact absurd e (h2 x (by rw [h]; simp))

/-- There is only one such list. -/
theorem LastWinsAtFirst.unique (h : LastWinsAtFirst key l r) (h' : LastWinsAtFirst key l r') : r = r' := by
  have hk : r.map key = r'.map key := h.2.trans h'.2.symm
  have hl : r.length = r'.length := by simpa using congrArg List.length hk
  refine List.ext_getElem hl fun i h1 h2 => ?_
  refine isLast_unique (h.1 _ (List.getElem_mem h1)) (h'.1 _ (List.getElem_mem h2)) ?_
  have := List.getElem_of_eq hk (i := i) (by simpa using h1)
  simpa using this

/-- A part of the list may be replaced by what wins in it. -/
theorem LastWinsAtFirst.part {p b : List α} (hb : LastWinsAtFirst key l b) (h : LastWinsAtFirst key (p ++ b) r) : LastWinsAtFirst key (p ++ l) r := by
  refine ⟨fun x hx => ?_, ?_⟩
  · obtain ⟨P, Q, e, hQ⟩ := h.1 x hx
    have hx' : (∃ a, p = P ++ x :: a ∧ Q = a ++ b) ∨ (x ∈ b) := by
      rw [List.append_eq_append_iff] at e
      rcases e with ⟨a, -, e⟩ | ⟨a, e1, e2⟩
      · exact .inr (by rw [e]; simp)
      · cases a with
        | nil => exact .inr (by rw [← show x :: Q = b from e2]; simp)
        | cons y a =>
          obtain ⟨rfl, e3⟩ := List.cons.inj e2
          exact .inl ⟨a, e1, e3⟩
    rcases hx' with ⟨a, rfl, rfl⟩ | hx'
    · refine ⟨P, a ++ l, by simp, fun y hy => ?_⟩
      rcases List.mem_append.1 hy with hy | hy
      · exact hQ y (List.mem_append_left _ hy)
      · have : key y ∈ b.map key := by
          rw [hb.2, mem_firstKeys]
          exact List.mem_map_of_mem hy
        obtain ⟨z, hz, e⟩ := List.mem_map.1 this
        rw [← e]
        exact hQ z (List.mem_append_right _ hz)
    · obtain ⟨P', Q', e', h'⟩ := hb.1 x hx'
      exact ⟨p ++ P', Q', by simp [e'], h'⟩
  · rw [h.2, List.map_append, List.map_append, hb.2, firstKeys_append]

theorem lastWinsAtFirst_nil : LastWinsAtFirst key [] [] := ⟨by simp, rfl⟩

theorem lastWinsAtFirst_self (h : (l.map key).Nodup) : LastWinsAtFirst key l l := by
  refine ⟨fun x hx => ?_, (firstKeys_self h).symm⟩
  obtain ⟨p, q, rfl⟩ := List.append_of_mem hx
  refine ⟨p, q, rfl, fun y hy e => ?_⟩
  rw [List.map_append, List.nodup_append] at h
  exact (List.nodup_cons.1 h.2.1).1 (by simpa using ⟨y, hy, e⟩)
end

theorem Pg.mem_appendConstraint (r : List Pg.Constraint) (c : Pg.Constraint) : c ∈ Pg.appendConstraint r c := by
  induction r with
  | nil => simp [Pg.appendConstraint]
  | cons x r ih => rw [Pg.appendConstraint]; split <;> simp [ih]

theorem Pg.lastWins_foldl (l : List Pg.Constraint) : ∀ {p r : List Pg.Constraint}, LastWinsAtFirst (fun c => c.name.name) p r →
    LastWinsAtFirst (fun c => c.name.name) (p ++ l) (l.foldl Pg.appendConstraint r) := by
  induction l with
  | nil => intro p r h; simpa using h
  | cons c l ih =>
    intro p r h
    have := ih (LastWinsAtFirst.step h Pg.appendConstraint_mem (Pg.mem_appendConstraint r c) (by convert Pg.appendConstraint_map_name r c))
    simpa using this

theorem Crdb.mem_replaceConstraint {r r' : List Crdb.Constraint} {c : Crdb.Constraint} (h : Crdb.replaceConstraint r c = some r') :
    c ∈ r' := by
  induction r generalizing r' with
  | nil => cases h
  | cons x r ih =>
    rw [Crdb.replaceConstraint] at h
    split at h
    · cases h; simp
    · obtain ⟨y, hy, rfl⟩ := Option.map_eq_some_iff.1 h
      simp [ih hy]

theorem Crdb.mem_appendConstraint (r : List Crdb.Constraint) (c : Crdb.Constraint) : c ∈ Crdb.appendConstraint r c := by
  unfold Crdb.appendConstraint
  split
  · exact Crdb.mem_replaceConstraint (by assumption)
  · rw [(Crdb.sortPrimaryKey_perm _).mem_iff]; simp

theorem My.mem_replaceConstraint {r r' : List My.Constraint} {c : My.Constraint} (h : My.replaceConstraint r c = some r') :
    c ∈ r' := by
  induction r generalizing r' with
  | nil => cases h
  | cons x r ih =>
    rw [My.replaceConstraint] at h
    split at h
    · cases h; simp
    · obtain ⟨y, hy, rfl⟩ := Option.map_eq_some_iff.1 h
      simp [ih hy]

theorem My.mem_appendConstraint (r : List My.Constraint) (c : My.Constraint) : c ∈ My.appendConstraint r c := by
  unfold My.appendConstraint
  split
  · exact My.mem_replaceConstraint (by assumption)
  · rw [(My.sortPrimaryKey_perm _).mem_iff]; simp

theorem Sp.mem_appendConstraint {r r' : List Sp.Constraint} {c : Sp.Constraint} (h : Sp.appendConstraint r c = .ok r') : c ∈ r' := by
  induction r generalizing r' with
  | nil => cases h; simp
  | cons x r ih =>
    rw [Sp.appendConstraint] at h
    cases hx : x.nameStr with
    | ok a =>
      rw [hx] at h
      cases hc : c.nameStr with
      | ok b =>
        rw [hc] at h
        simp only [bind_ok] at h
        split at h
        · cases h; simp
        · cases e : Sp.appendConstraint r c with
          | ok r2 => rw [e] at h; cases h; simp [ih e]
          | err e' => rw [e] at h; cases h
          | panic p => rw [e] at h; cases h
          | outOfFuel => rw [e] at h; cases h
      | err e' => rw [hc] at h; cases h
      | panic p => rw [hc] at h; cases h
      | outOfFuel => rw [hc] at h; cases h
    | err e' => rw [hx] at h; cases h
    | panic p => rw [hx] at h; cases h
    | outOfFuel => rw [hx] at h; cases h

theorem Sp.appendAll_lastWins : ∀ (l p r r' : List Sp.Constraint),
    LastWinsAtFirst (fun c : Sp.Constraint => c.name.map (·.name)) p r →
    Sp.appendAll r l = .ok r' → LastWinsAtFirst (fun c : Sp.Constraint => c.name.map (·.name)) (p ++ l) r' := by
  intro l
  induction l with
  | nil => intro p r r' h e; cases e; simpa using h
  | cons c l ih =>
    intro p r r' h e
    rw [Sp.appendAll] at e
    have hs := Sp.appendConstraint_sat' r c
    cases e1 : Sp.appendConstraint r c with
    | ok r2 =>
      rw [e1] at e hs
      obtain ⟨h1, h2⟩ := hs
      have := ih (p ++ [c]) r2 r' (LastWinsAtFirst.step h (fun x hx => (h2 x hx).symm) (Sp.mem_appendConstraint e1) (by rw [h1]; congr)) e
      simpa using this
    | err e' => rw [e1] at e; cases e
    | panic p => rw [e1] at e; cases e
    | outOfFuel => rw [e1] at e; cases e

namespace Pg

theorem nameOk_of_written {i : Ident} (h : Pg.IsWritten i) : NameOk i := ⟨h.1, isName_lx h.2⟩

theorem conOk_of_written {c : Constraint} (h : c.IsWritten) : ConOk c ∧ c.NoCheckNoAction ∧ IsName .postgres c.name.raw := by
  cases c with
  | primaryKey n cs => exact ⟨⟨h.1.1, fun i hi => nameOk_of_written (h.2 i hi)⟩, trivial, h.1.2⟩
  | unique n cs => exact ⟨⟨h.1.1, fun i hi => nameOk_of_written (h.2 i hi)⟩, trivial, h.1.2⟩
  | foreignKey n cs r rcs act =>
    obtain ⟨h1, h2, h3, h4, h5⟩ := h
    exact ⟨⟨h1.1, fun i hi => nameOk_of_written (h2 i hi), nameOk_of_written h3, fun i hi => nameOk_of_written (h4 i hi),
      (show act = [] from h5) ▸ actOk_nil⟩, h5, h1.2⟩
  | check n e => exact h.elim

end Pg
end Ddl
