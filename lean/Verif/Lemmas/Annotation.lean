import Verif.Lemmas.Regex
import Verif.Generator

/-!
# Which comment lines are annotations
-/

namespace Ddl
open Spec Gen
set_option autoImplicit false

/-! ## Runs of characters -/

theorem span_unique {p : Char → Prop} {a b : Str} {x y : Char} {r t : Str} (ha : ∀ c ∈ a, p c) (hb : ∀ c ∈ b, p c)
    (hx : ¬ p x) (hy : ¬ p y) (h : a ++ x :: r = b ++ y :: t) : a = b ∧ x = y ∧ r = t := by
  induction a generalizing b with
  | nil =>
    cases b with
    | nil =>
      rw [List.nil_append, List.nil_append, List.cons.injEq] at h
      exact ⟨rfl, h.1, h.2⟩
    | cons c b =>
      rw [List.nil_append, List.cons_append, List.cons.injEq] at h
      exact absurd (h.1 ▸ hb c (by simp)) hx
  | cons c a ih =>
    cases b with
    | nil =>
      rw [List.nil_append, List.cons_append, List.cons.injEq] at h
      exact absurd (h.1 ▸ ha c (by simp)) hy
    | cons d b =>
      rw [List.cons_append, List.cons_append, List.cons.injEq] at h
      obtain ⟨h1, h2, h3⟩ := ih (b := b) (fun c hc => ha c (by simp [hc])) (fun c hc => hb c (by simp [hc])) h.2
      exact ⟨by rw [h.1, h1], h2, h3⟩

theorem starts_unique {a b x y : Str} (ha : Sps a) (hb : Sps b) (hx : Starts x) (hy : Starts y)
    (h : a ++ x = b ++ y) : a = b ∧ x = y := by
  obtain ⟨c, r, rfl, hc⟩ := hx
  obtain ⟨d, t, rfl, hd⟩ := hy
  obtain ⟨h1, h2, h3⟩ := span_unique ha hb hc hd h
  exact ⟨h1, by rw [h2, h3]⟩

/-! ## The expressions -/

theorem lang_marker {s : Str} : Lang rxMarker s ↔ s = [] ∨ Marker s := by
  have hs : ∀ {v : Str}, Lang (Rx.plus (.chr '/')) v ↔ ∃ n, v = '/' :: List.replicate n '/' := by
    intro v
    rw [Rx.chr, Rx.lang_plus_cls]
    constructor
    · rintro ⟨h1, h2⟩
      cases v with
      | nil => exact absurd rfl h1
      | cons c r =>
        refine ⟨r.length, ?_⟩
        rw [List.cons.injEq]
        exact ⟨by simpa using h2 c (by simp), List.eq_replicate_iff.2 ⟨rfl, fun b hb => by simpa using h2 b (by simp [hb])⟩⟩
    · rintro ⟨n, rfl⟩
      refine ⟨by simp, ?_⟩
      intro c hc
      rcases List.mem_cons.1 hc with rfl | hc
      · rfl
      · rw [List.eq_of_mem_replicate hc]; rfl
  rw [rxMarker, Rx.lang_opt, Rx.lang_alt, or_comm, Marker]
  refine or_congr Iff.rfl (or_congr ?_ ?_)
  · simp only [Rx.cat, Rx.lang_seq, Rx.lang_chr, Rx.lang_space, hs]
    constructor
    · rintro ⟨_, _, rfl, rfl, _, b, rfl, ⟨n, rfl⟩, hb⟩
      exact ⟨n, b, rfl, hb⟩
    · rintro ⟨n, b, rfl, hb⟩
      exact ⟨['/'], _, rfl, rfl, _, b, rfl, ⟨n, rfl⟩, hb⟩
  · simp only [Rx.cat, Rx.lang_seq, Rx.lang_chr, Rx.lang_space]
    constructor
    · rintro ⟨_, _, rfl, rfl, _, b, rfl, rfl, hb⟩
      exact ⟨b, rfl, hb⟩
    · rintro ⟨b, rfl, hb⟩
      exact ⟨['/'], _, rfl, rfl, ['*'], b, rfl, rfl, hb⟩

/-- The expression of a key. -/
def keyRx : Key → Rx
  | .index => .cat [.lit s%"index", .opt (.lit s%"es")]
  | .table => .cat [.lit s%"table", .opt (.chr 's')]
  | .constraint => .cat [.lit s%"constraint", .opt (.chr 's')]
  | .option => .cat [.lit s%"option", .opt (.chr 's')]

/-- The expression of the text behind a key. -/
def textRx : Key → Rx
  | .table => .cat [.opt (.cat [.lit s%"CREATE", .plus .space, .lit s%"TABLE", .plus .space]), rxText]
  | _ => rxText

/-- The match of a key. -/
def matchKey (key : Key) : Str → Option Str := Rx.group (rxKey (keyRx key)) (textRx key)

theorem lang_keyRx {key : Key} {s : Str} : Lang (keyRx key) s ↔ s ∈ key.forms := by
  cases key <;>
  · simp only [keyRx, Rx.cat, Rx.lang_seq, Rx.lang_opt, Rx.lang_lit, Rx.lang_chr, Key.forms, List.mem_cons, List.not_mem_nil,
      or_false]
    constructor
    · rintro ⟨_, _, rfl, rfl, rfl | rfl⟩
      · right; rfl
      · left; rfl
    · rintro (rfl | rfl)
      · exact ⟨_, [], rfl, rfl, .inr rfl⟩
      · exact ⟨_, _, rfl, rfl, .inl rfl⟩

theorem mem_rxKey {key : Key} {s r : Str} : r ∈ Rx.run (rxKey (keyRx key)) s ↔
    ∃ b0 m w b1 b2 k b3 sep b4, s = b0 ++ m ++ w ++ b1 ++ ':' :: (b2 ++ k ++ b3 ++ sep :: (b4 ++ r)) ∧
    Sps b0 ∧ (m = [] ∨ Marker m) ∧ Word w ∧ Sps b1 ∧ Sps b2 ∧ k ∈ key.forms ∧ Sps b3 ∧ (sep = ':' ∨ sep = ' ') ∧ Sps b4 := by
  rw [Rx.mem_run]
  simp only [rxKey, Rx.cat, Rx.lang_seq, Rx.lang_space, lang_marker, Rx.lang_word, Rx.lang_chr, lang_keyRx, Rx.lang_cls]
  constructor
  · rintro ⟨_, rfl, b0, _, rfl, h0, m, _, rfl, hm, w, _, rfl, hw, b1, _, rfl, h1, _, _, rfl, rfl, b2, _, rfl, h2, k, _, rfl, hk,
      b3, _, rfl, h3, _, b4, rfl, ⟨sep, rfl, hsep⟩, h4⟩
    refine ⟨b0, m, w, b1, b2, k, b3, sep, b4, by simp, h0, hm, hw, h1, h2, hk, h3, by simpa using hsep, h4⟩
  · rintro ⟨b0, m, w, b1, b2, k, b3, sep, b4, rfl, h0, hm, hw, h1, h2, hk, h3, hsep, h4⟩
    refine ⟨b0 ++ (m ++ (w ++ (b1 ++ ([':'] ++ (b2 ++ (k ++ (b3 ++ ([sep] ++ b4)))))))), by simp,
      b0, _, rfl, h0, m, _, rfl, hm, w, _, rfl, hw, b1, _, rfl, h1, _, _, rfl, rfl, b2, _, rfl, h2, k, _, rfl, hk,
      b3, _, rfl, h3, _, b4, rfl, ⟨sep, rfl, by simpa using hsep⟩, h4⟩

/-! ## The text -/

theorem dot_dropWhile {s : Str} (h : '\n' ∉ s) : s.dropWhile (fun c => !(c == '\n')) = [] := by
  induction s with
  | nil => rfl
  | cons c r ih =>
    have : c ≠ '\n' := fun e => h (by simp [e])
    rw [List.dropWhile_cons, if_pos (by simpa using this)]
    exact ih (fun e => h (List.mem_cons_of_mem _ e))

/-- The text takes the whole line, or does not match. -/
theorem rxText_run {s : Str} (h : '\n' ∉ s) : Rx.run rxText s = [] ∨ (Rx.run rxText s).head? = some [] := by
  simp only [rxText, Rx.cat, Rx.plus, Rx.run, Rx.nonspace]
  cases s with
  | nil => left; rfl
  | cons c r =>
    by_cases hc : Rx.isBlank c
    · left; simp [hc]
    · right
      have hr : '\n' ∉ r := fun e => h (List.mem_cons_of_mem _ e)
      simp only [hc, Bool.not_false, if_true, List.flatMap_cons, List.flatMap_nil, List.append_nil]
      have hd := Rx.head_star_cls (fun c => !Rx.isBlank c) r
      simp only [Rx.run] at hd
      generalize hl : Rx.rounds _ r.length r = l at hd ⊢
      cases l with
      | nil => cases hd
      | cons t l =>
        cases hd
        have he := Rx.head_star_cls (fun c => !(c == '\n')) (r.dropWhile (fun c => !Rx.isBlank c))
        rw [dot_dropWhile (fun e => hr ((List.dropWhile_sublist _).subset e))] at he
        simp only [Rx.run, Rx.dot] at he ⊢
        rw [List.flatMap_cons, List.head?_append, he]
        rfl

theorem rxText_starts {s : Str} : Rx.run rxText s ≠ [] ↔ Starts s := by
  constructor
  · intro h
    obtain ⟨r, hr⟩ := List.exists_mem_of_ne_nil _ h
    obtain ⟨w, rfl, hw⟩ := (Rx.mem_run _ _ _).1 hr
    simp only [rxText, Rx.cat, Rx.lang_seq, Rx.lang_word] at hw
    obtain ⟨u, v, rfl, ⟨h1, h2⟩, -⟩ := hw
    cases u with
    | nil => exact absurd rfl h1
    | cons c u => exact ⟨c, u ++ v ++ r, by simp, h2 c (by simp)⟩
  · rintro ⟨c, r, rfl, hc⟩
    have : r ∈ Rx.run rxText (c :: r) := by
      rw [Rx.mem_run]
      refine ⟨[c], rfl, ?_⟩
      simp only [rxText, Rx.cat, Rx.lang_seq, Rx.lang_word]
      exact ⟨[c], [], rfl, ⟨by simp, by simpa using hc⟩, .starNil⟩
    exact List.ne_nil_of_mem this

theorem textRx_starts {key : Key} {s : Str} : Rx.run (textRx key) s ≠ [] ↔ Starts s := by
  cases key
  case table =>
    constructor
    · intro h
      obtain ⟨r, hr⟩ := List.exists_mem_of_ne_nil _ h
      obtain ⟨w, rfl, hw⟩ := (Rx.mem_run _ _ _).1 hr
      simp only [textRx, Rx.cat, Rx.lang_seq, Rx.lang_opt, Rx.lang_lit] at hw
      obtain ⟨u, v, rfl, hu, hv⟩ := hw
      rcases hu with ⟨_, u', rfl, rfl, -⟩ | rfl
      · exact ⟨'C', _, rfl, by decide⟩
      · rw [List.nil_append]
        exact rxText_starts.1 (List.ne_nil_of_mem ((Rx.mem_run rxText _ r).2 ⟨v, rfl, hv⟩))
    · intro h
      obtain ⟨r, hr⟩ := List.exists_mem_of_ne_nil _ (rxText_starts.2 h)
      refine List.ne_nil_of_mem (a := r) ?_
      simp only [textRx, Rx.cat, Rx.run, Rx.opt, List.mem_flatMap, List.mem_append, List.mem_singleton]
      exact ⟨s, .inr rfl, hr⟩
  all_goals exact rxText_starts

theorem textRx_head {key : Key} {s : Str} (h : '\n' ∉ s) (hs : Starts s) : (Rx.run (textRx key) s).head? = some [] := by
  cases key
  case table =>
    have hne := (textRx_starts (key := .table)).2 hs
    simp only [textRx, Rx.cat, Rx.run] at hne ⊢
    have hl : ∀ r ∈ Rx.run (.opt (.cat [.lit s%"CREATE", .plus .space, .lit s%"TABLE", .plus .space])) s, '\n' ∉ r := by
      intro r hr e
      obtain ⟨w, rfl, -⟩ := (Rx.mem_run _ _ _).1 hr
      exact h (List.mem_append_right _ e)
    simp only [Rx.cat] at hl
    generalize Rx.run (.opt _) s = l at hl hne
    induction l with
    | nil => exact absurd rfl hne
    | cons a l ih =>
      rw [List.flatMap_cons] at hne ⊢
      rcases rxText_run (hl a (by simp)) with e | e
      · rw [e, List.nil_append] at hne ⊢
        exact ih (fun r hr => hl r (by simp [hr])) hne
      · rw [List.head?_append, e]; rfl
  all_goals
    rcases rxText_run h with e | e
    · exact absurd e (rxText_starts.2 hs)
    · exact e

/-! ## Key shaped lines -/

theorem matchKey_none {key : Key} {s : Str} : matchKey key s = none ↔ ¬ KeyShaped key s := by
  rw [matchKey, Rx.group_none_iff]
  constructor
  · rintro h ⟨b0, m, w, b1, b2, k, b3, sep, b4, x, e, h0, hm, hw, h1, h2, hk, h3, hsep, h4, hx⟩
    exact textRx_starts.2 hx (h x (mem_rxKey.2 ⟨b0, m, w, b1, b2, k, b3, sep, b4, e, h0, hm, hw, h1, h2, hk, h3, hsep, h4⟩))
  · intro h r hr
    obtain ⟨b0, m, w, b1, b2, k, b3, sep, b4, e, h0, hm, hw, h1, h2, hk, h3, hsep, h4⟩ := mem_rxKey.1 hr
    refine Classical.byContradiction fun hx => h ?_
    exact ⟨b0, m, w, b1, b2, k, b3, sep, b4, r, e, h0, hm, hw, h1, h2, hk, h3, hsep, h4, textRx_starts.1 hx⟩

theorem classify_eq (s : Str) : classify s =
    match matchKey .index s with
    | some x => .index x
    | none =>
      match matchKey .table s with
      | some x => .table x
      | none =>
        match matchKey .constraint s with
        | some x => .constraint x
        | none =>
          match matchKey .option s with
          | some x => .option x
          | none => .plain := rfl

theorem classify_plain {s : Str} : classify s = .plain ↔ ∀ key, ¬ KeyShaped key s := by
  simp only [← matchKey_none]
  rw [classify_eq]
  constructor
  · intro h
    split at h
    · cases h
    split at h
    · cases h
    split at h
    · cases h
    split at h
    · cases h
    rintro (_ | _ | _ | _) <;> assumption
  · intro h
    rw [h, h, h, h]

/-! ## The usual form -/

theorem form_spec {key : Key} {k : Str} (h : k ∈ key.forms) : Starts k ∧ ∀ c ∈ k, ¬ Sp c ∧ c ≠ ':' := by
  revert k
  suffices ∀ k ∈ key.forms, Starts k ∧ ∀ c ∈ k, ¬ Sp c ∧ c ≠ ':' from fun {k} => this k
  have hs : ∀ {c : Char} {r : Str}, ¬ Sp c → Starts (c :: r) := fun h => ⟨_, _, rfl, h⟩
  cases key
  all_goals
    intro k hk
    simp only [Key.forms, List.mem_cons, List.not_mem_nil, or_false] at hk
    rcases hk with rfl | rfl
    all_goals exact ⟨hs (by decide), by decide⟩

theorem forms_disjoint {key key' : Key} {k : Str} (h : k ∈ key.forms) (h' : k ∈ key'.forms) : key = key' := by
  revert h h'
  cases key <;> cases key' <;> intro h h' <;> first
    | rfl
    | (simp only [Key.forms, List.mem_cons, List.not_mem_nil, or_false] at h h'
       rcases h with rfl | rfl <;> revert h' <;> decide)

theorem starts_append {a b : Str} (h : Starts a) : Starts (a ++ b) := by
  obtain ⟨c, r, rfl, hc⟩ := h
  exact ⟨c, r ++ b, rfl, hc⟩

theorem not_sp_colon : ¬ Sp ':' := by decide
theorem not_sp_slash : ¬ Sp '/' := by decide
theorem sp_space : Sp ' ' := by decide

/-- Behind the colon there is one way to read the line. -/
theorem behind_colon {key key' : Key} {b2 k : Str} {sep : Char} {b4 x b2' k' b3' : Str} {sep' : Char} {b4' x' : Str}
    (h2 : Sps b2) (hk : k ∈ key.forms) (hsep : sep = ':' ∨ sep = ' ') (h4 : Sps b4) (hx : Starts x)
    (hc : sep = ' ' → x.head? ≠ some ':')
    (h2' : Sps b2') (hk' : k' ∈ key'.forms) (h3' : Sps b3') (hsep' : sep' = ':' ∨ sep' = ' ') (h4' : Sps b4') (hx' : Starts x')
    (h : b2 ++ k ++ sep :: (b4 ++ x) = b2' ++ k' ++ b3' ++ sep' :: (b4' ++ x')) : key' = key ∧ x' = x := by
  have h0 : b2 ++ (k ++ sep :: (b4 ++ x)) = b2' ++ (k' ++ (b3' ++ sep' :: (b4' ++ x'))) := by simpa using h
  obtain ⟨rfl, hk2⟩ := starts_unique h2 h2' (starts_append (form_spec hk).1) (starts_append (form_spec hk').1) h0
  -- the key
  have hb : ∃ y t, b3' ++ sep' :: (b4' ++ x') = y :: t ∧ (Sp y ∨ y = ':') := by
    cases b3' with
    | nil => exact ⟨sep', _, rfl, hsep'.elim .inr (fun e => .inl (e ▸ sp_space))⟩
    | cons y b3' => exact ⟨y, _, rfl, .inl (h3' y (by simp))⟩
  obtain ⟨y, t, hy, hy'⟩ := hb
  rw [hy] at hk2
  have hn : ∀ y : Char, Sp y ∨ y = ':' → ¬ (¬ Sp y ∧ y ≠ ':') := fun y h h' => h.elim h'.1 h'.2
  obtain ⟨rfl, rfl, ht⟩ := span_unique (p := fun c => ¬ Sp c ∧ c ≠ ':') (form_spec hk).2 (form_spec hk').2
    (hn _ (hsep.elim .inr (fun e => .inl (e ▸ sp_space)))) (hn _ hy') hk2
  refine ⟨forms_disjoint hk' hk, ?_⟩
  rw [← ht] at hy
  rcases hsep with rfl | rfl
  · -- a colon
    cases b3' with
    | nil =>
      rw [List.nil_append, List.cons.injEq] at hy
      exact (starts_unique h4' h4 hx' hx hy.2).2
    | cons c b3' =>
      rw [List.cons_append, List.cons.injEq] at hy
      exact absurd (hy.1 ▸ h3' c (by simp)) not_sp_colon
  · -- a blank
    obtain ⟨cx, rx, rfl, hcx⟩ := hx
    rcases hsep' with rfl | rfl
    · have h4s : Sps (' ' :: b4) := by
        intro c hc
        rcases List.mem_cons.1 hc with rfl | hc
        · exact sp_space
        · exact h4 c hc
      have e : b3' ++ ':' :: (b4' ++ x') = (' ' :: b4) ++ cx :: rx := by rw [hy]; rfl
      obtain ⟨-, e2, -⟩ := span_unique h3' h4s not_sp_colon hcx e
      subst e2
      exact absurd rfl (hc rfl)
    · have h4s : Sps (' ' :: b4) := by
        intro c hc
        rcases List.mem_cons.1 hc with rfl | hc
        · exact sp_space
        · exact h4 c hc
      have h34 : Sps (b3' ++ ' ' :: b4') := by
        intro c hc
        rcases List.mem_append.1 hc with hc | hc
        · exact h3' c hc
        rcases List.mem_cons.1 hc with rfl | hc
        · exact sp_space
        · exact h4' c hc
      have e : (b3' ++ ' ' :: b4') ++ x' = (' ' :: b4) ++ cx :: rx := by
        rw [List.append_assoc, List.cons_append, hy]; rfl
      exact (starts_unique h34 h4s hx' ⟨cx, rx, rfl, hcx⟩ e).2

theorem sps_nil : Sps [] := fun c hc => by cases hc

theorem first_split {c : Char} {l : Str} (h : c ∈ l) : ∃ u v, l = u ++ c :: v ∧ c ∉ u := by
  induction l with
  | nil => cases h
  | cons x l ih =>
    by_cases hx : c = x
    · exact ⟨[], l, by rw [hx]; rfl, by simp⟩
    · rcases List.mem_cons.1 h with h | h
      · exact absurd h hx
      · obtain ⟨u, v, rfl, hu⟩ := ih h
        exact ⟨x :: u, v, rfl, by simp [hx, hu]⟩

theorem word_colon {k v t t' : Str} (hk : ∀ c ∈ k, c ≠ ':') (hv : ∀ c ∈ v, ¬ Sp c) (h : k ++ ' ' :: t = v ++ ':' :: t') :
    False := by
  induction k generalizing v with
  | nil =>
    cases v with
    | nil =>
      simp at h
    | cons c v =>
      simp only [List.nil_append, List.cons_append, List.cons.injEq] at h
      exact hv c (by simp) (h.1 ▸ sp_space)
  | cons c k ih =>
    cases v with
    | nil =>
      simp only [List.nil_append, List.cons_append, List.cons.injEq] at h
      exact hk c (by simp) h.1
    | cons d v =>
      simp only [List.cons_append, List.cons.injEq] at h
      exact ih (fun c hc => hk c (by simp [hc])) (fun c hc => hv c (by simp [hc])) h.2

/-- A line in the usual form can be read in one way only. -/
theorem annLine_unique {w : Str} {key key' : Key} {s x r : Str} (h : AnnLine w key s x)
    (hr : r ∈ Rx.run (rxKey (keyRx key')) s) (hr' : Starts r) : key' = key ∧ r = x := by
  obtain ⟨b2, k, sep, b4, rfl, hw, hwc, hws, h2, hk, hsep, h4, hx, hn, hb2, hcol⟩ := h
  obtain ⟨b0, m, w', b1, b2', k', b3', sep', b4', e, h0, hm, hw', h1, h2', hk', h3', hsep', h4'⟩ := mem_rxKey.1 hr
  obtain ⟨cw, rw', rfl⟩ : ∃ c r, w = c :: r := List.exists_cons_of_ne_nil hw.1
  have hcw : ¬ Sp cw := hw.2 cw (by simp)
  have hslash : cw ≠ '/' := fun e => hws (by rw [e]; rfl)
  -- no blanks and no marker in front
  have e0 : b0 = [] := by
    cases b0 with
    | nil => rfl
    | cons c b0 =>
      simp only [List.cons_append, List.cons.injEq] at e
      exact absurd (e.1 ▸ h0 c (by simp)) hcw
  subst e0
  have em : m = [] := by
    rcases hm with rfl | ⟨n, b, rfl, -⟩ | ⟨b, rfl, -⟩
    · rfl
    · simp only [List.nil_append, List.cons_append, List.cons.injEq] at e
      exact absurd e.1 hslash
    · simp only [List.nil_append, List.cons_append, List.cons.injEq] at e
      exact absurd e.1 hslash
  subst em
  simp only [List.nil_append] at e
  -- the word
  have hword : w' = cw :: rw' ∧ b1 = [] := by
    -- what stands in front of the first colon of the right hand side is the word and blanks
    by_cases hc : ':' ∈ w'
    · exfalso
      obtain ⟨u, v, rfl, hu⟩ := first_split hc
      have e1 : (cw :: rw') ++ ':' :: (b2 ++ k ++ sep :: (b4 ++ x)) =
          u ++ ':' :: (v ++ b1 ++ ':' :: (b2' ++ k' ++ b3' ++ sep' :: (b4' ++ r))) := by simpa using e
      obtain ⟨-, -, e2⟩ := span_unique (p := fun c => c ≠ ':') (fun c h e => hwc (e ▸ h)) (fun c h e => hu (e ▸ h))
        (by simp) (by simp) e1
      have hv : ∀ c ∈ v, ¬ Sp c := fun c hc => hw'.2 c (by simp [hc])
      by_cases hb : b2 = []
      · subst hb
        obtain rfl := hb2 rfl
        cases b1 with
        | nil =>
          have e3 : k ++ ' ' :: (b4 ++ x) = v ++ ':' :: (b2' ++ k' ++ b3' ++ sep' :: (b4' ++ r)) := by simpa using e2
          exact word_colon (fun c h => ((form_spec hk).2 c h).2) hv e3
        | cons c b1 =>
          have e3 : k ++ ' ' :: (b4 ++ x) = v ++ c :: (b1 ++ ':' :: (b2' ++ k' ++ b3' ++ sep' :: (b4' ++ r))) := by
            simpa using e2
          obtain ⟨-, -, e4⟩ := span_unique (p := fun c => ¬ Sp c) (fun c h => ((form_spec hk).2 c h).1) hv
            (fun h => h sp_space) (fun h => h (h1 c (by simp))) e3
          have := (starts_unique h4 (fun c hc => h1 c (by simp [hc])) hx ⟨':', _, rfl, not_sp_colon⟩ e4).2
          exact hcol rfl (by rw [this]; rfl)
      · have ev : v = [] := by
          cases v with
          | nil => rfl
          | cons c v =>
            cases b2 with
            | nil => exact absurd rfl hb
            | cons d b2 =>
              simp only [List.cons_append, List.cons.injEq] at e2
              exact absurd (e2.1 ▸ h2 d (by simp)) (hv c (by simp))
        subst ev
        have e3 : b2 ++ (k ++ sep :: (b4 ++ x)) = b1 ++ (':' :: (b2' ++ k' ++ b3' ++ sep' :: (b4' ++ r))) := by
          simpa using e2
        have := (starts_unique h2 h1 (starts_append (form_spec hk).1) ⟨':', _, rfl, not_sp_colon⟩ e3).2
        obtain ⟨c, kr, rfl, -⟩ := (form_spec hk).1
        simp only [List.cons_append, List.cons.injEq] at this
        exact ((form_spec hk).2 c (by simp)).2 this.1
    · have e' : (cw :: rw') ++ ':' :: (b2 ++ k ++ sep :: (b4 ++ x)) =
          (w' ++ b1) ++ ':' :: (b2' ++ k' ++ b3' ++ sep' :: (b4' ++ r)) := by simpa using e
      have hb1 : ∀ c ∈ w' ++ b1, c ≠ ':' := by
        intro c hc'
        rcases List.mem_append.1 hc' with h | h
        · exact fun e => hc (e ▸ h)
        · exact fun e => not_sp_colon (e ▸ h1 c h)
      obtain ⟨e1, -, -⟩ := span_unique (p := fun c => c ≠ ':') (fun c h e => hwc (e ▸ h)) hb1 (by simp) (by simp) e'
      cases b1 with
      | nil => rw [List.append_nil] at e1; exact ⟨e1.symm, rfl⟩
      | cons c b1 =>
        exact absurd (h1 c (by simp)) (hw.2 c (by rw [e1]; simp))
  obtain ⟨rfl, rfl⟩ := hword
  have e' : b2 ++ k ++ sep :: (b4 ++ x) = b2' ++ k' ++ b3' ++ sep' :: (b4' ++ r) := by
    simpa using e
  exact behind_colon h2 hk hsep h4 hx hcol h2' hk' h3' hsep' h4' hr' e'

/-- The kind of comment for a key. -/
def kindOf : Key → Str → CommentKind
  | .index => .index
  | .table => .table
  | .constraint => .constraint
  | .option => .option

theorem matchKey_annLine {w : Str} {key : Key} {s x : Str} (h : AnnLine w key s x) :
    matchKey key s = some x ∧ ∀ key', key' ≠ key → matchKey key' s = none := by
  have hx : Starts x ∧ '\n' ∉ x := by
    obtain ⟨_, _, _, _, _, _, _, _, _, _, _, _, hx, hn, _⟩ := h
    exact ⟨hx, hn⟩
  refine ⟨Rx.group_eq ?_ (textRx_head hx.2 hx.1) (fun r hr hne => (annLine_unique h hr (textRx_starts.1 hne)).2),
    fun key' hne => Rx.group_none (fun r hr => ?_)⟩
  · obtain ⟨b2, k, sep, b4, rfl, hw, -, -, h2, hk, hsep, h4, -⟩ := h
    exact mem_rxKey.2 ⟨[], [], w, [], b2, k, [], sep, b4, by simp, sps_nil, .inl rfl, hw, sps_nil, h2, hk, sps_nil, hsep, h4⟩
  · refine Classical.byContradiction fun hr' => hne ?_
    exact (annLine_unique h hr (textRx_starts.1 hr')).1

theorem classify_annLine {w : Str} {key : Key} {s x : Str} (h : AnnLine w key s x) : classify s = kindOf key x := by
  obtain ⟨h1, h2⟩ := matchKey_annLine h
  rw [classify_eq]
  cases key
  · rw [h1]; rfl
  · rw [h2 .index (by decide), h1]; rfl
  · rw [h2 .index (by decide), h2 .table (by decide), h1]; rfl
  · rw [h2 .index (by decide), h2 .table (by decide), h2 .constraint (by decide), h1]; rfl

/-! ## Lines with the tag -/

theorem hasTag_iff {tag s : Str} : hasTag tag s = true ↔ TagLine tag s := by
  have h : hasTag tag s = true ↔ Rx.run (.cat [.star .space, rxMarker, .lit tag, .star .space, .chr ':', .star .space, .star .dot, .star .space,
    .opt (.lit s%"*/")]) s ≠ [] := by
    simp [hasTag, Rx.matchesAt]
  rw [h]
  constructor
  · intro h
    obtain ⟨r, hr⟩ := List.exists_mem_of_ne_nil _ h
    obtain ⟨w, rfl, hw⟩ := (Rx.mem_run _ _ _).1 hr
    simp only [Rx.cat, Rx.lang_seq, Rx.lang_space, lang_marker, Rx.lang_lit, Rx.lang_chr] at hw
    obtain ⟨b0, _, rfl, h0, m, _, rfl, hm, _, _, rfl, rfl, b1, _, rfl, h1, _, _, rfl, rfl, -⟩ := hw
    exact ⟨b0, m, b1, _, by simp; rfl, h0, hm, h1⟩
  · rintro ⟨b0, m, b1, rest, rfl, h0, hm, h1⟩
    refine List.ne_nil_of_mem (a := rest) ((Rx.mem_run _ _ _).2 ⟨b0 ++ (m ++ (tag ++ (b1 ++ ([':'] ++ [])))), by simp, ?_⟩)
    simp only [Rx.cat, Rx.lang_seq, Rx.lang_space, lang_marker, Rx.lang_lit, Rx.lang_chr, Rx.lang_opt]
    exact ⟨b0, _, rfl, h0, m, _, rfl, hm, tag, _, rfl, rfl, b1, _, rfl, h1, _, _, rfl, rfl, [], [], rfl, sps_nil, [], [], rfl,
      .starNil, [], [], rfl, sps_nil, .inr rfl⟩

end Ddl
