import Verif.Lemmas.ParseCreates
import Verif.Lemmas.Unqualified
import Verif.Lemmas.SchemaSp
import Verif.Spec.Answer

/-! # Comparing gives an answer (C66) -/

set_option autoImplicit false

namespace Ddl
open Spec

section
variable {T I A N : Type} {o : Ops T I A N}

theorem flatMapRes_total {α β : Type} {f : α → Res (List β)} {l : List α} (h : ∀ x ∈ l, ∃ r, f x = .ok r) : ∃ r, flatMapRes f l = .ok r := by
  induction l with
  | nil => exact ⟨[], rfl⟩
  | cons x l ih =>
    obtain ⟨r, hr⟩ := h x (by simp)
    obtain ⟨r', hr'⟩ := ih fun y hy => h y (by simp [hy])
    exact ⟨r ++ r', by simp [flatMapRes, hr, hr']⟩

theorem alterOf_total {a : List (Stmt T I A N)} {s : Stmt T I A N}
    (h : ∀ t t', s = .createTable t → .createTable t' ∈ a → (∃ l, o.diffTable t t' = .ok l) ∨ o.diffTable t t' = .err .noDifference) :
    ∃ l, alterOf o a s = .ok l := by
  cases s with
  | createTable t =>
    simp only [alterOf]
    split
    · rename_i t' hf
      rcases h t t' rfl (List.mem_of_find?_eq_some hf) with ⟨l, hl⟩ | hl
      · exact ⟨l, by rw [hl]⟩
      · exact ⟨[], by rw [hl]⟩
    · exact ⟨[], rfl⟩
  | createIndex i =>
    simp only [alterOf]
    split
    · split
      · exact ⟨_, rfl⟩
      · exact ⟨[], rfl⟩
    · exact ⟨[], rfl⟩
  | _ => exact ⟨[], rfl⟩

theorem diff_answer {b a : List (Stmt T I A N)} (hb : CreateOnly o b) (ha : CreateOnly o a)
    (h : ∀ t t', .createTable t ∈ b → .createTable t' ∈ a → (∃ l, o.diffTable t t' = .ok l) ∨ o.diffTable t t' = .err .noDifference) :
    Answer (diff o (some b) (some a)) := by
  simp only [diff]
  split
  · exact .same
  · have hd : CreateOnly o (onlyLeftStmt o b a) := fun x hx => hb x (List.mem_of_mem_filter hx)
    have hc : CreateOnly o (onlyLeftStmt o a b) := fun x hx => ha x (List.mem_of_mem_filter hx)
    obtain ⟨ds, hds, -⟩ := mapRes_drops hd
    obtain ⟨as, has⟩ := flatMapRes_total (f := alterOf o a) (l := b) fun s hs =>
      alterOf_total fun t t' e ht' => h t t' (e ▸ hs) ht'
    rw [hds, mapRes_creates hc, has]
    simp only [Res.ok_bind]
    split
    · exact .same
    · rename_i hne
      exact .migration _ (by simpa using hne)

end

theorem Pg.table_answer {sd : Str → Str → Str} (b a : Pg.CreateTable) :
    (∃ l, (Pg.ops sd).diffTable b a = .ok l) ∨ (Pg.ops sd).diffTable b a = .err .noDifference := by
  simp only [Pg.ops, Pg.diffCreateTable]
  split
  · exact Or.inr rfl
  · split
    · exact Or.inr rfl
    · exact Or.inl ⟨_, rfl⟩

theorem Crdb.table_answer {sd : Str → Str → Str} (b a : Crdb.CreateTable) :
    (∃ l, (Crdb.ops sd).diffTable b a = .ok l) ∨ (Crdb.ops sd).diffTable b a = .err .noDifference := by
  simp only [Crdb.ops, Crdb.diffCreateTable]
  split
  · exact Or.inr rfl
  · split
    · exact Or.inr rfl
    · exact Or.inl ⟨_, rfl⟩

theorem My.table_answer {sd : Str → Str → Str} (b a : My.CreateTable) :
    (∃ l, (My.ops sd).diffTable b a = .ok l) ∨ (My.ops sd).diffTable b a = .err .noDifference := by
  simp only [My.ops, My.diffCreateTable]
  split
  · exact Or.inr rfl
  · split
    · exact Or.inr rfl
    · exact Or.inl ⟨_, rfl⟩

namespace Sp

theorem appendConstraint_named {c : Constraint} (hc : c.name ≠ none) : ∀ {l : List Constraint}, (∀ x ∈ l, x.name ≠ none) →
    ∃ l', appendConstraint l c = .ok l' ∧ ∀ x ∈ l', x.name ≠ none
  | [], _ => ⟨[c], rfl, by simpa using hc⟩
  | x :: l, h => by
    have hx := h x (by simp)
    simp only [appendConstraint, Run.nameStr_eq hx, Run.nameStr_eq hc, Res.ok_bind]
    split
    · refine ⟨_, rfl, fun y hy => ?_⟩
      rcases List.mem_cons.1 hy with rfl | hy
      · exact hc
      · exact h y (by simp [hy])
    · obtain ⟨l', h1, h2⟩ := appendConstraint_named hc (l := l) fun y hy => h y (by simp [hy])
      refine ⟨x :: l', by rw [h1]; rfl, fun y hy => ?_⟩
      rcases List.mem_cons.1 hy with rfl | hy
      · exact hx
      · exact h2 y hy

theorem onlyLeftConstraint_named {right : List Constraint} (hr : ∀ x ∈ right, x.name ≠ none) : ∀ {l acc : List Constraint},
    (∀ x ∈ l, x.name ≠ none) → (∀ x ∈ acc, x.name ≠ none) → ∃ r, onlyLeftConstraint right acc l = .ok r
  | [], acc, _, _ => ⟨acc, rfl⟩
  | c :: l, acc, hl, ha => by
    have hc := hl c (by simp)
    simp only [onlyLeftConstraint, Run.nameStr_eq hc, Res.ok_bind, Run.findConstraint_eq hr]
    split
    · obtain ⟨acc', h1, h2⟩ := appendConstraint_named hc ha
      rw [h1]
      exact onlyLeftConstraint_named hr (fun y hy => hl y (by simp [hy])) h2
    · exact onlyLeftConstraint_named hr (fun y hy => hl y (by simp [hy])) ha

theorem table_answer {sd : Str → Str → Str} {b a : CreateTable} (hb : ∀ c ∈ b.constraints, c.name ≠ none) (ha : ∀ c ∈ a.constraints, c.name ≠ none) :
    (∃ l, (ops sd).diffTable b a = .ok l) ∨ (ops sd).diffTable b a = .err .noDifference := by
  simp only [ops, diffCreateTable]
  split
  · exact Or.inl ⟨_, rfl⟩
  · split
    · exact Or.inr rfl
    · obtain ⟨d, hd⟩ := flatMapRes_total (f := dropConstraint sd (renamedName b.name a.name) a.constraints) (l := b.constraints) fun x hx => by
        simp only [dropConstraint, Run.nameStr_eq (hb x hx), Res.ok_bind, Run.findConstraint_eq ha]
        split <;> exact ⟨_, rfl⟩
      obtain ⟨r, hr⟩ := flatMapRes_total (f := replaceConstraint sd false (renamedName b.name a.name) a.constraints) (l := b.constraints) fun x hx => by
        simp only [replaceConstraint, Run.nameStr_eq (hb x hx), Res.ok_bind, Run.findConstraint_eq ha]
        split
        · exact ⟨_, rfl⟩
        · split <;> exact ⟨_, rfl⟩
      obtain ⟨n, hn⟩ := onlyLeftConstraint_named hb ha (acc := []) (by simp)
      rw [hd, hr, hn]
      simp only [Res.ok_bind]
      split
      · exact Or.inr rfl
      · exact Or.inl ⟨_, rfl⟩

/-! ## Unnamed constraints -/

/-- A value or the crash on a nil pointer. -/
def OkOrNil {α : Type} (r : Res α) : Prop := (∃ x, r = .ok x) ∨ r = .panic .nilDeref

theorem OkOrNil.bind {α β : Type} {r : Res α} {f : α → Res β} (hr : OkOrNil r) (hf : ∀ x, r = .ok x → OkOrNil (f x)) : OkOrNil (r >>= f) := by
  rcases hr with ⟨x, rfl⟩ | rfl
  · exact hf x rfl
  · exact .inr rfl

theorem OkOrNil.bind_nil {α β : Type} {r : Res α} {f : α → Res β} (hr : OkOrNil r) (hf : ∀ x, r = .ok x → f x = .panic .nilDeref) :
    (r >>= f) = .panic .nilDeref := by
  rcases hr with ⟨x, rfl⟩ | rfl
  · exact hf x rfl
  · rfl

theorem nameStr_okOrNil (c : Constraint) : OkOrNil c.nameStr := by
  cases c with
  | foreignKey n _ _ _ => exact .inl ⟨_, rfl⟩
  | check n e => cases n with
    | none => exact .inr rfl
    | some n => exact .inl ⟨_, rfl⟩

theorem nameStr_none {c : Constraint} (h : c.name = none) : c.nameStr = .panic .nilDeref := by simp [Constraint.nameStr, h]

theorem findConstraint_okOrNil (k : Str) (l : List Constraint) : OkOrNil (findConstraint k l) := by
  induction l with
  | nil => exact .inl ⟨_, rfl⟩
  | cons c l ih =>
    refine (nameStr_okOrNil c).bind fun n _ => ?_
    split
    · exact .inl ⟨_, rfl⟩
    · exact ih

theorem appendConstraint_okOrNil (l : List Constraint) (c : Constraint) : OkOrNil (appendConstraint l c) := by
  induction l with
  | nil => exact .inl ⟨_, rfl⟩
  | cons x l ih =>
    refine (nameStr_okOrNil x).bind fun n _ => (nameStr_okOrNil c).bind fun m _ => ?_
    split
    · exact .inl ⟨_, rfl⟩
    · exact ih.bind fun _ _ => .inl ⟨_, rfl⟩

theorem flatMapRes_okOrNil {α β : Type} {f : α → Res (List β)} (l : List α) (h : ∀ x ∈ l, OkOrNil (f x)) : OkOrNil (flatMapRes f l) := by
  induction l with
  | nil => exact .inl ⟨_, rfl⟩
  | cons x l ih =>
    exact (h x (by simp)).bind fun _ _ => (ih fun y hy => h y (by simp [hy])).bind fun _ _ => .inl ⟨_, rfl⟩

theorem flatMapRes_crash {α β : Type} {f : α → Res (List β)} (l : List α) (h : ∀ x ∈ l, OkOrNil (f x)) (hn : ∃ x ∈ l, f x = .panic .nilDeref) :
    flatMapRes f l = .panic .nilDeref := by
  induction l with
  | nil => simp at hn
  | cons x l ih =>
    refine (h x (by simp)).bind_nil fun r hr => ?_
    obtain ⟨y, hy, hn⟩ := hn
    rcases List.mem_cons.1 hy with rfl | hy
    · rw [hr] at hn; cases hn
    · rw [ih (fun z hz => h z (by simp [hz])) ⟨y, hy, hn⟩]
      rfl

theorem dropConstraint_okOrNil (sd : Str → Str → Str) (tn : ObjectName) (l : List Constraint) (c : Constraint) : OkOrNil (dropConstraint sd tn l c) :=
  (nameStr_okOrNil c).bind fun _ _ => (findConstraint_okOrNil _ l).bind fun f _ => by cases f <;> exact .inl ⟨_, rfl⟩

theorem replaceConstraint_okOrNil (sd : Str → Str → Str) (nv : Bool) (tn : ObjectName) (l : List Constraint) (c : Constraint) :
    OkOrNil (replaceConstraint sd nv tn l c) :=
  (nameStr_okOrNil c).bind fun _ _ => (findConstraint_okOrNil _ l).bind fun f _ => by
    cases f with
    | none => exact .inl ⟨_, rfl⟩
    | some a => dsimp only; split <;> exact .inl ⟨_, rfl⟩

theorem onlyLeftConstraint_nil (right : List Constraint) : ∀ (l acc : List Constraint), (∃ x ∈ l, x.name = none) →
    onlyLeftConstraint right acc l = .panic .nilDeref
  | [], _, h => by simp at h
  | c :: l, acc, h => by
    refine (nameStr_okOrNil c).bind_nil fun n hn => (findConstraint_okOrNil n right).bind_nil fun f _ => ?_
    have hl : ∃ x ∈ l, x.name = none := by
      obtain ⟨x, hx, hxn⟩ := h
      rcases List.mem_cons.1 hx with rfl | hx
      · rw [nameStr_none hxn] at hn; cases hn
      · exact ⟨x, hx, hxn⟩
    cases f with
    | none => exact (appendConstraint_okOrNil acc c).bind_nil fun acc' _ => onlyLeftConstraint_nil right l acc' hl
    | some _ => exact onlyLeftConstraint_nil right l acc hl

theorem table_nil {sd : Str → Str → Str} {b a : CreateTable} (ho : optionsDiffStr b.options = optionsDiffStr a.options) (hs : b.str ≠ a.str)
    (h : ∃ c, (c ∈ b.constraints ∨ c ∈ a.constraints) ∧ c.name = none) : (ops sd).diffTable b a = .panic .nilDeref := by
  simp only [ops, diffCreateTable, ne_eq, ho, not_true_eq_false, if_false, hs]
  refine (flatMapRes_okOrNil b.constraints fun x _ => dropConstraint_okOrNil sd _ _ x).bind_nil fun r hr => ?_
  refine (flatMapRes_okOrNil b.constraints fun x _ => replaceConstraint_okOrNil sd _ _ _ x).bind_nil fun r' _ => ?_
  obtain ⟨c, hc | hc, hn⟩ := h
  · rw [flatMapRes_crash b.constraints (fun x _ => dropConstraint_okOrNil sd _ _ x) ⟨c, hc, by simp [dropConstraint, nameStr_none hn]⟩] at hr
    cases hr
  · rw [onlyLeftConstraint_nil _ a.constraints [] ⟨c, hc, hn⟩]
    rfl

theorem table_cases {sd : Str → Str → Str} (b a : CreateTable) :
    (∃ l, (ops sd).diffTable b a = .ok l) ∨ (ops sd).diffTable b a = .err .noDifference ∨
      ((ops sd).diffTable b a = .panic .nilDeref ∧ Crashing b a) := by
  by_cases h : (∀ c ∈ b.constraints, c.name ≠ none) ∧ ∀ c ∈ a.constraints, c.name ≠ none
  · rcases table_answer (sd := sd) h.1 h.2 with h | h
    · exact .inl h
    · exact .inr (.inl h)
  · by_cases ho : optionsDiffStr b.options = optionsDiffStr a.options
    · by_cases hs : b.str = a.str
      · exact .inr (.inl (by simp [ops, diffCreateTable, ho, hs]))
      · have : ∃ c, (c ∈ b.constraints ∨ c ∈ a.constraints) ∧ c.name = none := by
          by_contra hc
          push Not at hc
          exact h ⟨fun c h => hc c (.inl h), fun c h => hc c (.inr h)⟩
        obtain ⟨c, hc, hn⟩ := this
        refine .inr (.inr ⟨table_nil ho hs ⟨c, hc, hn⟩, ho, hs, ?_⟩)
        cases c with
        | foreignKey => cases hn
        | check n e => cases hn; exact ⟨e, hc⟩
    · exact .inl ⟨_, by simp only [ops, diffCreateTable, ne_eq, ho, not_false_eq_true, if_true]; rfl⟩

theorem table_crash {sd : Str → Str → Str} {b a : CreateTable} (h : Crashing b a) : (ops sd).diffTable b a = .panic .nilDeref := by
  obtain ⟨h1, h2, e, h3⟩ := h
  exact table_nil h1 h2 ⟨.check none e, h3, rfl⟩

theorem alterOf_okOrNil {sd : Str → Str → Str} (a : List SStmt) (s : SStmt) : OkOrNil (alterOf (ops sd) a s) := by
  cases s with
  | createTable t =>
    simp only [alterOf]
    split
    · rename_i t' hf
      rcases table_cases (sd := sd) t t' with ⟨l, hl⟩ | hl | ⟨hl, -⟩
      · exact .inl ⟨l, by rw [hl]⟩
      · exact .inl ⟨[], by rw [hl]⟩
      · exact .inr (by rw [hl])
    · exact .inl ⟨[], rfl⟩
  | createIndex i =>
    simp only [alterOf]
    split
    · split
      · exact .inl ⟨_, rfl⟩
      · exact .inl ⟨[], rfl⟩
    · exact .inl ⟨[], rfl⟩
  | _ => exact .inl ⟨[], rfl⟩

theorem diff_okOrNil {sd : Str → Str → Str} {b a : List SStmt} (hb : CreateOnly (ops sd) b) (ha : CreateOnly (ops sd) a) :
    Answer (diff (ops sd) (some b) (some a)) ∨ (diff (ops sd) (some b) (some a) = .panic .nilDeref ∧ ddlStr (ops sd) b ≠ ddlStr (ops sd) a ∧
      ∃ s ∈ b, alterOf (ops sd) a s = .panic .nilDeref) := by
  by_cases h : ∀ s ∈ b, ∃ l, alterOf (ops sd) a s = .ok l
  · refine .inl ?_
    simp only [diff]
    split
    · exact .same
    · have hd : CreateOnly (ops sd) (onlyLeftStmt (ops sd) b a) := fun x hx => hb x (List.mem_of_mem_filter hx)
      have hc : CreateOnly (ops sd) (onlyLeftStmt (ops sd) a b) := fun x hx => ha x (List.mem_of_mem_filter hx)
      obtain ⟨ds, hds, -⟩ := mapRes_drops hd
      obtain ⟨as, has⟩ := flatMapRes_total (f := alterOf (ops sd) a) (l := b) h
      rw [hds, mapRes_creates hc, has]
      simp only [Res.ok_bind]
      split
      · exact .same
      · rename_i hne
        exact .migration _ (by simpa using hne)
  · push Not at h
    obtain ⟨s, hs, hn⟩ := h
    have hp : alterOf (ops sd) a s = .panic .nilDeref := (alterOf_okOrNil a s).resolve_left fun ⟨x, hx⟩ => hn x hx
    simp only [diff]
    split
    · exact .inl .same
    · rename_i hne
      have hd : CreateOnly (ops sd) (onlyLeftStmt (ops sd) b a) := fun x hx => hb x (List.mem_of_mem_filter hx)
      have hc : CreateOnly (ops sd) (onlyLeftStmt (ops sd) a b) := fun x hx => ha x (List.mem_of_mem_filter hx)
      obtain ⟨ds, hds, -⟩ := mapRes_drops hd
      rw [hds, mapRes_creates hc, flatMapRes_crash b (fun x _ => alterOf_okOrNil a x) ⟨s, hs, hp⟩]
      exact .inr ⟨rfl, hne, s, hs, hp⟩

theorem diff_crash {sd : Str → Str → Str} {b a : List SStmt} (hb : CreateOnly (ops sd) b) (ha : CreateOnly (ops sd) a)
    (hne : ddlStr (ops sd) b ≠ ddlStr (ops sd) a) {s : SStmt} (hs : s ∈ b) (hp : alterOf (ops sd) a s = .panic .nilDeref) :
    diff (ops sd) (some b) (some a) = .panic .nilDeref := by
  have hd : CreateOnly (ops sd) (onlyLeftStmt (ops sd) b a) := fun x hx => hb x (List.mem_of_mem_filter hx)
  have hc : CreateOnly (ops sd) (onlyLeftStmt (ops sd) a b) := fun x hx => ha x (List.mem_of_mem_filter hx)
  obtain ⟨ds, hds, -⟩ := mapRes_drops hd
  simp only [diff, if_neg hne]
  rw [hds, mapRes_creates hc, flatMapRes_crash b (fun x _ => alterOf_okOrNil a x) ⟨s, hs, hp⟩]
  rfl

theorem alterOf_crash {sd : Str → Str → Str} {a : List SStmt} (da : DistinctObjects (ops sd) a) {s : SStmt} :
    alterOf (ops sd) a s = .panic .nilDeref ↔
      ∃ t t', s = .createTable t ∧ .createTable t' ∈ a ∧ t.name.diffStr = t'.name.diffStr ∧ Crashing t t' := by
  constructor
  · intro h
    cases s with
    | createTable t =>
      simp only [alterOf] at h
      split at h
      · rename_i t' hf
        refine ⟨t, t', rfl, List.mem_of_find?_eq_some hf, ?_, ?_⟩
        · have := List.find?_some hf
          simpa [sameType, nameForDiff, ops] using this
        · rcases table_cases (sd := sd) t t' with ⟨l, hl⟩ | hl | ⟨hl, hc⟩
          · rw [hl] at h; cases h
          · rw [hl] at h; cases h
          · exact hc
      · cases h
    | createIndex i =>
      simp only [alterOf] at h
      split at h
      · split at h <;> cases h
      · cases h
    | _ => cases h
  · rintro ⟨t, t', rfl, hm, hn, hc⟩
    have hf : findStmt (ops sd) (.createTable t) a = some (.createTable t') := by
      have hex : (findStmt (ops sd) (.createTable t) a).isSome := by
        rw [findStmt, List.find?_isSome]
        exact ⟨_, hm, by simp [sameType, nameForDiff, ops, hn]⟩
      obtain ⟨x, hx⟩ := Option.isSome_iff_exists.1 hex
      obtain ⟨h1, h2⟩ := findStmt_creates (o := ops sd) (s := .createTable t) (k := _) rfl hx
      rw [hx, distinct_unique da h1 hm h2 (by simp [creates, ops, hn])]
    simp only [alterOf, hf, table_crash hc]

end Sp
end Ddl
