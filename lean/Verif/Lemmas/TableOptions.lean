import Verif.Lemmas.SourceSp
import Verif.Lemmas.Steps
import Verif.Spec.TableOptions

/-!
# Lemmas: the options of a Spanner table can be told from their text
-/

namespace Ddl.Sp
open Spec
set_option autoImplicit false

/-- What can be behind a word. -/
def Bound (u : Str) : Prop := u = [] ∨ (∃ r, u = ' ' :: r) ∨ ∃ r, u = ',' :: ' ' :: r

/-- A word of an option. -/
def Clear (a : Str) : Prop := a ≠ [] ∧ ' ' ∉ a ∧ (',' ∈ a → a = s%",")

theorem clear_split_aux {a a' u u' x : Str} (ha : Clear a) (ha' : Clear a') (hu : Bound u) (e : a' = a ++ x) (e' : u = x ++ u') :
    a = a' ∧ u = u' := by
  cases x with
  | nil => simp_all
  | cons c x =>
    exfalso
    obtain rfl | ⟨r, rfl⟩ | ⟨r, rfl⟩ := hu
    · simp at e'
    · obtain ⟨rfl, -⟩ := List.cons.inj e'
      exact ha'.2.1 (by simp [e])
    · obtain ⟨rfl, -⟩ := List.cons.inj e'
      have := ha'.2.2 (by simp [e])
      rw [e] at this
      obtain ⟨b, s, rfl⟩ := List.exists_cons_of_ne_nil ha.1
      have := congrArg List.length this
      simp at this

theorem clear_split {a a' u u' : Str} (ha : Clear a) (ha' : Clear a') (hu : Bound u) (hu' : Bound u') (h : a ++ u = a' ++ u') :
    a = a' ∧ u = u' := by
  obtain ⟨x, e, e'⟩ | ⟨x, e, e'⟩ := List.append_eq_append_iff.1 h
  · exact clear_split_aux ha ha' hu e e'
  · obtain ⟨h, h'⟩ := clear_split_aux ha' ha hu' e e'
    exact ⟨h.symm, h'.symm⟩

/-- What can be behind an option. -/
def Behind (u : Str) : Prop := u = [] ∨ ∃ r, u = ',' :: ' ' :: r

theorem Behind.bound {u : Str} (h : Behind u) : Bound u := h.imp id .inr

theorem words_split : ∀ {A A' : List Str} {u u' : Str}, A ≠ [] → A' ≠ [] → (∀ a ∈ A, Clear a) → (∀ a ∈ A', Clear a) → Behind u →
    Behind u' → join s%" " A ++ u = join s%" " A' ++ u' → A = A' ∧ u = u'
  | [], _, _, _, h, _, _, _, _, _, _ => absurd rfl h
  | _, [], _, _, _, h, _, _, _, _, _ => absurd rfl h
  | [a], [a'], u, u', _, _, ha, ha', hu, hu', h => by
    obtain ⟨rfl, rfl⟩ := clear_split (ha a (by simp)) (ha' a' (by simp)) hu.bound hu'.bound (by simpa [join] using h)
    exact ⟨rfl, rfl⟩
  | [a], a' :: b' :: r', u, u', _, _, ha, ha', hu, hu', h => by
    obtain ⟨rfl, e⟩ := clear_split (u' := ' ' :: (join s%" " (b' :: r') ++ u')) (ha a (by simp)) (ha' a' (by simp)) hu.bound (.inr (.inl ⟨_, rfl⟩))
      (by simpa [join] using h)
    obtain rfl | ⟨_, rfl⟩ := hu <;> simp at e
  | a :: b :: r, [a'], u, u', _, _, ha, ha', hu, hu', h => by
    obtain ⟨rfl, e⟩ := clear_split (u := ' ' :: (join s%" " (b :: r) ++ u)) (ha a (by simp)) (ha' a' (by simp)) (.inr (.inl ⟨_, rfl⟩)) hu'.bound
      (by simpa [join] using h)
    obtain rfl | ⟨_, rfl⟩ := hu' <;> simp at e
  | a :: b :: r, a' :: b' :: r', u, u', _, _, ha, ha', hu, hu', h => by
    obtain ⟨rfl, e⟩ := clear_split (u := ' ' :: (join s%" " (b :: r) ++ u)) (u' := ' ' :: (join s%" " (b' :: r') ++ u')) (ha a (by simp))
      (ha' a' (by simp)) (.inr (.inl ⟨_, rfl⟩)) (.inr (.inl ⟨_, rfl⟩)) (by simpa [join] using h)
    obtain ⟨f, rfl⟩ := words_split (by simp) (by simp) (fun x hx => ha x (by simp_all)) (fun x hx => ha' x (by simp_all)) hu hu'
      (List.cons.inj e).2
    exact ⟨by rw [f], rfl⟩

/-- The options the parser makes. -/
def Made (o : TableOption) : Prop := o.name = s%"PRIMARY KEY" ∨
  (o.name = s%"INTERLEAVE IN PARENT" ∧ ∃ i x, o.value = i :: x ∧
    (x = [] ∨ x = [rawIdent s%"ON DELETE CASCADE"] ∨ x = [rawIdent s%"ON DELETE NO ACTION"]))

/-- Only such options. -/
def OptNamed (l : List TableOption) : Prop := ∀ o ∈ l, Made o

theorem Made.name {o : TableOption} (h : Made o) : o.name = s%"PRIMARY KEY" ∨ o.name = s%"INTERLEAVE IN PARENT" := h.imp id (·.1)

/-- The words of an option. -/
def optionWords (o : TableOption) : List Str :=
  if o.name = s%"PRIMARY KEY" then o.value.map Ident.name
  else match o.value with
    | [] => []
    | [i] => [i.name]
    | i :: x :: _ => i.name :: (if x = rawIdent s%"ON DELETE CASCADE" then [s%"ON", s%"DELETE", s%"CASCADE"] else [s%"ON", s%"DELETE", s%"NO", s%"ACTION"])

theorem optionWords_join {o : TableOption} (h : Made o) : exprDiffStr o.value = join s%" " (optionWords o) := by
  obtain e | ⟨e, i, x, e', rfl | rfl | rfl⟩ := h
  · simp only [exprDiffStr, optionWords, e, if_true]; rfl
  · simp [exprDiffStr, optionWords, e, e', join, Ident.diffStr]
  · rw [exprDiffStr, optionWords, if_neg (by rw [e]; decide), e']
    simp only [List.map_cons, List.map_nil, if_true, join, Ident.diffStr]
    simp [show (rawIdent s%"ON DELETE CASCADE").name = s%"ON DELETE CASCADE" by decide]
  · rw [exprDiffStr, optionWords, if_neg (by rw [e]; decide), e']
    simp only [List.map_cons, List.map_nil, join, Ident.diffStr, show rawIdent s%"ON DELETE NO ACTION" ≠ rawIdent s%"ON DELETE CASCADE" by decide,
      if_false]
    simp [show (rawIdent s%"ON DELETE NO ACTION").name = s%"ON DELETE NO ACTION" by decide]

theorem optionWords_clear {o : TableOption} {l : List TableOption} (h : Made o) (hc : ClearOptions l) (ho : o ∈ l) :
    optionWords o ≠ [] ∧ ∀ a ∈ optionWords o, Clear a := by
  have hc := hc o ho
  have fix : ∀ a ∈ [s%"ON", s%"DELETE", s%"CASCADE", s%"NO", s%"ACTION"], Clear a := by unfold Clear; decide
  obtain e | ⟨e, i, x, e', hx⟩ := h
  · rw [e, if_neg (by decide)] at hc
    rw [optionWords, if_pos e]
    refine ⟨by simpa using hc.1, fun a ha => ?_⟩
    obtain ⟨i, hi, rfl⟩ := List.mem_map.1 ha
    exact hc.2 i hi
  · rw [if_pos e, e'] at hc
    have hi : Clear i.name := hc.2 i (by simp)
    rw [optionWords, if_neg (by rw [e]; decide), e']
    obtain rfl | rfl | rfl := hx
    · simpa using hi
    · refine ⟨by simp, fun a ha => ?_⟩
      rcases List.mem_cons.1 ha with rfl | ha
      · exact hi
      · exact fix a (by revert ha; simp; tauto)
    · refine ⟨by simp, fun a ha => ?_⟩
      rcases List.mem_cons.1 ha with rfl | ha
      · exact hi
      · exact fix a (by revert ha; simp [show rawIdent s%"ON DELETE NO ACTION" ≠ rawIdent s%"ON DELETE CASCADE" by decide]; tauto)

theorem optionWords_inj {o o' : TableOption} (h : Made o) (h' : Made o') (hn : o.name = o'.name) (e : optionWords o = optionWords o') :
    o.value.map Ident.name = o'.value.map Ident.name := by
  have ne : rawIdent s%"ON DELETE NO ACTION" ≠ rawIdent s%"ON DELETE CASCADE" := by decide
  by_cases hp : o.name = s%"PRIMARY KEY"
  · rwa [optionWords, if_pos hp, optionWords, if_pos (hn ▸ hp)] at e
  · rw [optionWords, if_neg hp, optionWords, if_neg (hn ▸ hp)] at e
    obtain h | ⟨-, i, x, hv, hx⟩ := h
    · exact absurd h hp
    obtain h' | ⟨-, i', x', hv', hx'⟩ := h'
    · exact absurd (hn ▸ h') hp
    rw [hv, hv'] at e ⊢
    obtain rfl | rfl | rfl := hx <;> obtain rfl | rfl | rfl := hx' <;> simp [ne] at e <;> simp [e]

theorem behind_tail (l : List TableOption) (o : TableOption) :
    ∃ u, Behind u ∧ optionsDiffStr (o :: l) = o.diffStr ++ u ∧ (u = [] ↔ l = []) ∧ ∀ x r, l = x :: r → u = s%", " ++ optionsDiffStr l := by
  cases l with
  | nil => exact ⟨[], .inl rfl, by simp [optionsDiffStr, join], by simp, by simp⟩
  | cons x r =>
    refine ⟨s%", " ++ optionsDiffStr (x :: r), .inr ⟨optionsDiffStr (x :: r), rfl⟩, by simp [optionsDiffStr, join], by simp, by simp⟩

theorem tableOptions_inj : ∀ {l l' : List TableOption}, OptNamed l → OptNamed l' → ClearOptions l → ClearOptions l' →
    optionsDiffStr l = optionsDiffStr l' → SameOptions l l'
  | [], [], _, _, _, _, _ => .nil
  | [], o' :: r', _, n', _, _, h => by
    obtain ⟨u, -, e, -⟩ := behind_tail r' o'
    rw [e] at h
    obtain e | e := (n' o' (by simp)).name <;> simp [optionsDiffStr, join, TableOption.diffStr, e] at h
  | o :: r, [], n, _, _, _, h => by
    obtain ⟨u, -, e, -⟩ := behind_tail r o
    rw [e] at h
    obtain e | e := (n o (by simp)).name <;> simp [optionsDiffStr, join, TableOption.diffStr, e] at h
  | o :: r, o' :: r', n, n', c, c', h => by
    obtain ⟨u, hu, e, en, et⟩ := behind_tail r o
    obtain ⟨u', hu', e', en', et'⟩ := behind_tail r' o'
    rw [e, e'] at h
    have hname : o.name = o'.name := by
      obtain e | e := (n o (by simp)).name <;> obtain e' | e' := (n' o' (by simp)).name <;> rw [e, e'] <;> simp [TableOption.diffStr, e, e'] at h
    have m := n o (by simp)
    have m' := n' o' (by simp)
    have w := optionWords_clear m c (by simp)
    have w' := optionWords_clear m' c' (by simp)
    simp only [TableOption.diffStr, hname, optionWords_join m, optionWords_join m', List.append_assoc] at h
    obtain ⟨e, rfl⟩ := words_split w.1 w'.1 w.2 w'.2 hu hu' (List.append_cancel_left (List.append_cancel_left h))
    refine .cons ⟨hname, optionWords_inj m m' hname e⟩ (tableOptions_inj (fun x hx => n x (by simp [hx])) (fun x hx => n' x (by simp [hx])) (fun x hx => c x (by simp [hx]))
      (fun x hx => c' x (by simp [hx])) ?_)
    cases r with
    | nil => cases r' with
      | nil => rfl
      | cons => simp_all
    | cons x r => cases r' with
      | nil => simp_all
      | cons x' r' => exact List.append_cancel_left ((et x r rfl).symm.trans (et' x' r' rfl))

theorem scripted_mem {S : Type} {P : List Token → S → Prop} {ts : List Token} {l : List S} (h : Source.Scripted P ts l) :
    ∀ x ∈ l, ∃ u, P u x := by
  induction h with
  | nil => simp
  | stop => simp
  | skip _ _ _ _ _ ih => exact ih
  | statement ts _ _ x l h _ _ ih =>
    intro y hy
    rcases List.mem_cons.1 hy with rfl | hy
    · exact ⟨ts, h⟩
    · exact ih y hy

theorem named_of_parse {s : Str} {l : List SStmt} {t : CreateTable} (h : parse s = .ok l) (ht : .createTable t ∈ l) : OptNamed t.options := by
  obtain ⟨u, h⟩ := scripted_mem ((Source.parse_source s).get h) _ ht
  cases h with
  | table _ h =>
    obtain ⟨_, _, _, _, _, _, _, _, -, -, -, -, -, -, -, -, -, -, -, h⟩ := h
    generalize t.rowDeletionPolicy = p at h
    generalize t.options = os at h
    induction h with
    | nil => simp [OptNamed]
    | comma _ _ _ _ _ _ ih => exact ih
    | primaryKey _ _ _ _ _ _ _ _ _ ih => exact List.forall_mem_cons.2 ⟨.inl rfl, ih⟩
    | interleave _ _ _ _ _ _ _ _ _ hd _ ih => exact List.forall_mem_cons.2 ⟨.inr ⟨rfl, _, _, rfl, hd.imp And.right (Or.imp And.right And.right)⟩, ih⟩
    | policy _ _ _ _ _ _ _ _ ih => exact ih

end Ddl.Sp
