import Verif.Lemmas.PgUnique
import Verif.Lemmas.Content
import Verif.Lemmas.TokStr
import Verif.Spec.Tame

/-! # PostgreSQL: what no difference means -/

namespace Ddl
open Spec
set_option autoImplicit false

/-! ## Texts put together from words -/

theorem wordChar_not {c : Char} (h : WordChar c) : c ≠ ' ' ∧ c ≠ ',' ∧ c ≠ ')' ∧ c ≠ '\'' ∧ c ≠ '(' := by
  refine ⟨?_, ?_, ?_, ?_, ?_⟩ <;> (rintro rfl; revert h; simp [WordChar])

namespace Pg

theorem IsWord.not_mem {s : Str} (h : IsWord s) : ' ' ∉ s ∧ ',' ∉ s ∧ ')' ∉ s :=
  ⟨fun m => (wordChar_not (h.2 _ m)).1 rfl, fun m => (wordChar_not (h.2 _ m)).2.1 rfl, fun m => (wordChar_not (h.2 _ m)).2.2.1 rfl⟩

theorem join_comma_blank (a : Str) (r : List Str) : join s%", " (a :: r) = join [','] (a :: r.map (' ' :: ·)) := by
  induction r generalizing a with
  | nil => rfl
  | cons b r ih =>
    have := ih b
    cases r with
    | nil => simp [join]
    | cons c r =>
      simp only [join, List.map_cons] at this ⊢
      simp [this]

theorem columnsDiffStr_inj {l l' : List Ident} (h : ∀ i ∈ l, IsWord i.name) (h' : ∀ i ∈ l', IsWord i.name)
    (e : columnsDiffStr l = columnsDiffStr l') : l.map Ident.bare = l'.map Ident.bare := by
  have key : l.map Ident.diffStr = l'.map Ident.diffStr := by
    unfold columnsDiffStr at e
    cases l with
    | nil =>
      cases l' with
      | nil => rfl
      | cons j r' =>
        have hj := (h' j (by simp)).1
        cases r' with
        | nil => simp [join, Ident.diffStr] at e; exact absurd e hj
        | cons => simp [join, Ident.diffStr] at e
    | cons i r =>
      cases l' with
      | nil =>
        have hi := (h i (by simp)).1
        cases r with
        | nil => simp [join, Ident.diffStr] at e; exact absurd e hi
        | cons => simp [join, Ident.diffStr] at e
      | cons j r' =>
        simp only [List.map_cons, join_comma_blank] at e
        have := join_inj (c := ',') ?_ ?_ e
        · simp only [List.cons.injEq] at this
          simp only [List.map_cons, this.1]
          rw [List.map_injective_iff.2 (fun _ _ h => (List.cons.inj h).2) this.2]
        · intro a ha
          rcases List.mem_cons.1 ha with rfl | ha
          · exact ⟨(h i (by simp)).1, (h i (by simp)).not_mem.2.1⟩
          · obtain ⟨b, hb, rfl⟩ := List.mem_map.1 ha
            obtain ⟨k, hk, rfl⟩ := List.mem_map.1 hb
            have := (h k (by simp [hk])).not_mem.2.1
            simp [Ident.diffStr, this]
        · intro a ha
          rcases List.mem_cons.1 ha with rfl | ha
          · exact ⟨(h' j (by simp)).1, (h' j (by simp)).not_mem.2.1⟩
          · obtain ⟨b, hb, rfl⟩ := List.mem_map.1 ha
            obtain ⟨k, hk, rfl⟩ := List.mem_map.1 hb
            have := (h' k (by simp [hk])).not_mem.2.1
            simp [Ident.diffStr, this]
  have hb : ∀ m : List Ident, m.map Ident.bare = (m.map Ident.diffStr).map (fun s => (⟨s, [], []⟩ : Ident)) := by
    intro m; simp [Ident.bare, Ident.diffStr, Function.comp_def]
  rw [hb, key, ← hb]

theorem columnsDiffStr_close {l : List Ident} (h : ∀ i ∈ l, IsWord i.name) : ')' ∉ columnsDiffStr l := by
  unfold columnsDiffStr
  induction l with
  | nil => simp [join]
  | cons i r ih =>
    have hi := (h i (by simp)).not_mem.2.2
    have ih := ih fun j hj => h j (by simp [hj])
    cases r with
    | nil => simpa [join, Ident.diffStr] using hi
    | cons j r =>
      simp only [List.map_cons, join] at ih ⊢
      simp only [List.mem_append, not_or]
      exact ⟨⟨hi, by decide⟩, ih⟩

/-! ## Words of expressions -/

/-- A word without blanks, or a text in single quotes. -/
def Atom (a : Str) : Prop :=
  (a ≠ [] ∧ ' ' ∉ a ∧ a.head? ≠ some '\'') ∨ ∃ body, '\'' ∉ body ∧ a = '\'' :: (body ++ ['\''])

theorem atom_ne {a : Str} (h : Atom a) : a ≠ [] := by
  rcases h with h | ⟨_, _, rfl⟩
  · exact h.1
  · simp

theorem atom_split {a b x y : Str} (ha : Atom a) (hb : Atom b) (hx : x = [] ∨ x.head? = some ' ') (hy : y = [] ∨ y.head? = some ' ')
    (e : a ++ x = b ++ y) : a = b ∧ x = y := by
  have tk : ∀ {a x : Str}, ' ' ∉ a → (x = [] ∨ x.head? = some ' ') → (a ++ x).takeWhile (· ≠ ' ') = a := by
    intro a x ha hx
    induction a with
    | nil =>
      rcases hx with rfl | hx
      · rfl
      · cases x with
        | nil => rfl
        | cons c x => simp at hx; subst hx; simp
    | cons c a ih =>
      simp only [List.mem_cons, not_or] at ha
      rw [List.cons_append, List.takeWhile_cons, ih ha.2]
      simp [Ne.symm ha.1]
  have hd : ∀ {s : Str}, s ≠ [] → ∀ r, (s ++ r).head? = s.head? := by
    intro s hs r
    cases s with
    | nil => contradiction
    | cons => rfl
  have := congrArg List.head? e
  rw [hd (atom_ne ha), hd (atom_ne hb)] at this
  rcases ha with ha | ⟨p, hp, rfl⟩ <;> rcases hb with hb | ⟨q, hq, rfl⟩
  · have h1 := tk ha.2.1 hx
    rw [e, tk hb.2.1 hy] at h1
    subst h1
    exact ⟨rfl, List.append_cancel_left e⟩
  · exact absurd this (by simpa using ha.2.2)
  · exact absurd this.symm (by simpa using hb.2.2)
  · simp only [List.cons_append, List.append_assoc, List.cons.injEq, true_and, List.nil_append] at e
    obtain ⟨rfl, rfl⟩ := append_sep_inj hp hq e
    exact ⟨rfl, rfl⟩

theorem join_blank_inj : ∀ {l l' : List Str}, (∀ a ∈ l, Atom a) → (∀ a ∈ l', Atom a) → join s%" " l = join s%" " l' → l = l' := by
  have tail : ∀ (a : Str) (r : List Str), ∃ x, join s%" " (a :: r) = a ++ x ∧
      ((r = [] ∧ x = []) ∨ (r ≠ [] ∧ x = ' ' :: join s%" " r)) := by
    intro a r
    cases r with
    | nil => exact ⟨[], by simp [join], Or.inl ⟨rfl, rfl⟩⟩
    | cons b r => exact ⟨' ' :: join s%" " (b :: r), by simp [join], Or.inr ⟨by simp, rfl⟩⟩
  have hx : ∀ {r : List Str} {x : Str}, ((r = [] ∧ x = []) ∨ (r ≠ [] ∧ x = ' ' :: join s%" " r)) → x = [] ∨ x.head? = some ' ' := by
    rintro r x (⟨_, rfl⟩ | ⟨_, rfl⟩)
    · exact Or.inl rfl
    · exact Or.inr rfl
  intro l
  induction l with
  | nil =>
    intro l' _ h' e
    cases l' with
    | nil => rfl
    | cons b r' =>
      obtain ⟨x, e1, _⟩ := tail b r'
      rw [e1] at e
      exact absurd (List.append_eq_nil_iff.1 e.symm).1 (atom_ne (h' b (by simp)))
  | cons a r ih =>
    intro l' h h' e
    obtain ⟨x, e1, hx1⟩ := tail a r
    cases l' with
    | nil =>
      rw [e1] at e
      exact absurd (List.append_eq_nil_iff.1 e).1 (atom_ne (h a (by simp)))
    | cons b r' =>
      obtain ⟨y, e2, hy1⟩ := tail b r'
      rw [e1, e2] at e
      obtain ⟨rfl, rfl⟩ := atom_split (h a (by simp)) (h' b (by simp)) (hx hx1) (hx hy1) e
      rcases hx1 with ⟨rfl, rfl⟩ | ⟨_, rfl⟩ <;> rcases hy1 with ⟨rfl, hz⟩ | ⟨_, hz⟩
      · rfl
      · cases hz
      · cases hz
      · simp only [List.cons.injEq, true_and] at hz
        rw [ih (fun c hc => h c (by simp [hc])) (fun c hc => h' c (by simp [hc])) hz]

theorem atom_word {s : Str} (h : IsWord s) : Atom s :=
  Or.inl ⟨h.1, h.not_mem.1, fun e => (wordChar_not (h.2 _ (List.mem_of_head? e))).2.2.2.1 rfl⟩

theorem rawIdent_atom {t : Token} (h : L t) (hq : (rawIdent t.lit).quot = []) : Atom (rawIdent t.lit).name := by
  rcases h with ⟨h1, h2, _⟩ | ⟨_, q, body, hq', h2, hb⟩ | ⟨_, h1, _⟩ | ⟨_, h1, _⟩ | ⟨_, h1, hd⟩ | ⟨c, h1, h2⟩
  · have : rawIdent t.lit = ⟨t.lit, [], t.lit⟩ := newRawIdent_word h2
    rw [this]
    exact atom_word ⟨h1, h2⟩
  · simp only [quotes, List.mem_cons, List.not_mem_nil, or_false] at hq'
    rcases hq' with rfl | rfl
    · have : rawIdent t.lit = ⟨body, ['"'], '"' :: body ++ ['"']⟩ := by
        rw [h2]
        exact newRawIdentQ_quoted (by decide) (fun m => (hb _ m).1 rfl)
      rw [this] at hq
      cases hq
    · have : rawIdent t.lit = ⟨t.lit, [], t.lit⟩ := by
        refine newRawIdentQ_open ?_
        intro q hq
        simp only [quotationMarks, List.mem_singleton] at hq
        subst hq
        left
        rw [h2]
        simp
      rw [this, h2]
      exact Or.inr ⟨body, fun m => (hb _ m).1 rfl, rfl⟩
  · rw [h1]; exact Or.inl (by decide)
  · rw [h1]; exact Or.inl (by decide)
  · cases hd
  · rw [h2]
    have : ∀ p ∈ symbols, (rawIdent [p.1]).name ≠ [] ∧ ' ' ∉ (rawIdent [p.1]).name ∧ (rawIdent [p.1]).name.head? ≠ some '\'' := by
      decide
    exact Or.inl (this _ h1)

theorem cmpPair_atom {x y : Token} (hx : L x) (hy : L y) (cx : isCmp x.type) (cy : isCmp y.type) :
    Atom (rawIdent (x.lit ++ y.lit)).name := by
  have k : ∀ {t : Token}, L t → isCmp t.type → t.lit ≠ [] ∧ ∀ c ∈ t.lit, c ≠ ' ' ∧ c ≠ '\'' ∧ c ≠ '"' := by
    intro t ht ct
    refine ⟨ht.ne_nil, ?_⟩
    rcases ht.cmp ct with ⟨hw, _⟩ | h
    · intro c hc
      refine ⟨(wordChar_not (hw c hc)).1, (wordChar_not (hw c hc)).2.2.2.1, ?_⟩
      rintro rfl
      have := hw _ hc
      revert this
      simp [WordChar]
    · simp only [List.mem_cons, List.not_mem_nil, or_false] at h
      rcases h with h | h | h <;> rw [h] <;> decide
  obtain ⟨x1, x2⟩ := k hx cx
  obtain ⟨y1, y2⟩ := k hy cy
  have hall : ∀ c ∈ x.lit ++ y.lit, c ≠ ' ' ∧ c ≠ '\'' ∧ c ≠ '"' := by
    intro c hc
    rcases List.mem_append.1 hc with h | h
    · exact x2 c h
    · exact y2 c h
  have : rawIdent (x.lit ++ y.lit) = ⟨x.lit ++ y.lit, [], x.lit ++ y.lit⟩ := by
    refine newRawIdentQ_open ?_
    intro q hq
    simp only [quotationMarks, List.mem_singleton] at hq
    subst hq
    left
    intro e
    exact (hall _ (List.mem_of_head? e)).2.2 rfl
  rw [this]
  exact Or.inl ⟨by simp [x1], fun m => (hall _ m).1 rfl, fun e => (hall _ (List.mem_of_head? e)).2.1 rfl⟩

/-- Words that are not in double quotes are atoms. -/
def Bound (i : Ident) : Prop := i.quot = [] → Atom i.name

theorem Grp.bound {g : List Word} (h : Grp g) : ∀ i ∈ ids g, Bound i := by
  have hc : ∀ {w : Word} {r : List Word}, Bound w.1 → (∀ i ∈ ids r, Bound i) → ∀ i ∈ ids (w :: r), Bound i := by
    intro w r h1 h2 i hi
    simp only [ids, List.map_cons, List.mem_cons] at hi
    rcases hi with rfl | hi
    · exact h1
    · exact h2 i hi
  induction h with
  | close => exact hc (fun _ => Or.inl (by decide)) (by simp [ids])
  | opened a b _ _ iha ihb =>
    refine hc (fun _ => Or.inl (by decide)) ?_
    intro i hi
    simp only [ids, List.map_append, List.mem_append] at hi
    rcases hi with hi | hi
    · exact iha i hi
    · exact ihb i hi
  | cmp x r hx _ _ _ ih => exact hc (fun h => rawIdent_atom hx h) ih
  | cmp2 x y r hx hy _ _ cx cy _ ih => exact hc (fun _ => cmpPair_atom hx hy cx cy) ih
  | other t r ht _ _ _ ih => exact hc (fun h => rawIdent_atom ht h) ih

theorem Dft.bound {f : Bool} {g : List Word} (h : Dft f g) : ∀ i ∈ ids g, Bound i := by
  have hc : ∀ {w : Word} {r : List Word}, Bound w.1 → (∀ i ∈ ids r, Bound i) → ∀ i ∈ ids (w :: r), Bound i := by
    intro w r h1 h2 i hi
    simp only [ids, List.map_cons, List.mem_cons] at hi
    rcases hi with rfl | hi
    · exact h1
    · exact h2 i hi
  induction h with
  | nil => simp [ids]
  | ident f t r ht _ _ ih => exact hc (fun h => rawIdent_atom ht h) ih
  | group f g r hg _ ih =>
    refine hc (fun _ => Or.inl (by decide)) ?_
    intro i hi
    simp only [ids, List.map_append, List.mem_append] at hi
    rcases hi with hi | hi
    · exact hg.bound i hi
    · exact ih i hi
  | reserved f t r _ hr _ ih =>
    refine hc (fun _ => ?_) ih
    have : t.type = .NULL ∨ t.type = .TRUE ∨ t.type = .FALSE := by simpa [isReservedValue] using hr
    rcases this with h | h | h <;> rw [h] <;> exact Or.inl ⟨by simp [newIdent, TokType.str], by simp [newIdent, TokType.str], by simp [newIdent, TokType.str]⟩
  | operator f t r ht _ _ ih => exact hc (fun h => rawIdent_atom ht h) ih
  | dataType t r ht _ _ ih => exact hc (fun h => rawIdent_atom ht h) ih

theorem exprDiff_inj {e e' : Expr} (h : ∀ i ∈ e, Bound i) (h' : ∀ i ∈ e', Bound i) (ht : TameExpr e) (ht' : TameExpr e')
    (eq : join s%" " (e.map Ident.diffStr) = join s%" " (e'.map Ident.diffStr)) : e.map Ident.bare = e'.map Ident.bare := by
  have at_ : ∀ {e : Expr}, (∀ i ∈ e, Bound i) → TameExpr e → ∀ a ∈ e.map Ident.diffStr, Atom a := by
    intro e h ht a ha
    obtain ⟨i, hi, rfl⟩ := List.mem_map.1 ha
    rcases ht i hi with hq | hw
    · exact h i hi hq
    · exact atom_word hw
  have key := join_blank_inj (at_ h ht) (at_ h' ht') eq
  have hb : ∀ m : List Ident, m.map Ident.bare = (m.map Ident.diffStr).map (fun s => (⟨s, [], []⟩ : Ident)) := by
    intro m; simp [Ident.bare, Ident.diffStr, Function.comp_def]
  rw [hb, key, ← hb]

/-! ## Columns -/

theorem tameParams_words : ∀ {e : Expr}, TameParams e → ∃ ws : List Str, (∀ w ∈ ws, w ≠ [] ∧ ',' ∉ w) ∧
    (e.map Ident.diffStr).flatten = join [','] ws ∧ e.map Ident.diffStr = ws.intersperse s%"," ∧ (e = [] ↔ ws = [])
  | [], _ => ⟨[], by simp, rfl, rfl, by simp⟩
  | [i], h => ⟨[i.name], by simpa using ⟨h.1, h.not_mem.2.1⟩, by simp [join, Ident.diffStr], rfl, by simp⟩
  | i :: c :: r, h => by
    obtain ⟨h1, h2, h3, h4⟩ := h
    obtain ⟨ws, w1, w2, w3, w4⟩ := tameParams_words h4
    cases ws with
    | nil => exact absurd (w4.2 rfl) h3
    | cons v ws =>
      refine ⟨i.name :: v :: ws, ?_, ?_, ?_, by simp⟩
      · intro w hw
        rcases List.mem_cons.1 hw with rfl | hw
        · exact ⟨h1.1, h1.not_mem.2.1⟩
        · exact w1 w hw
      · simp only [List.map_cons, List.flatten_cons, w2, join]
        simp [Ident.diffStr, h2]
      · simp only [List.map_cons, w3, List.intersperse]
        simp [Ident.diffStr, h2]

theorem dataType_inj {t t' : DataType} (h : TameParams t.expr) (h' : TameParams t'.expr) (e : t.diffStr = t'.diffStr) :
    t.bare = t'.bare := by
  obtain ⟨ws, w1, w2, w3, w4⟩ := tameParams_words h
  obtain ⟨ws', w1', w2', w3', w4'⟩ := tameParams_words h'
  have hb : ∀ m : List Ident, m.map Ident.bare = (m.map Ident.diffStr).map (fun s => (⟨s, [], []⟩ : Ident)) := by
    intro m; simp [Ident.bare, Ident.diffStr, Function.comp_def]
  have key : t.type = t'.type ∧ t.expr.map Ident.bare = t'.expr.map Ident.bare := by
    unfold DataType.diffStr at e
    have hp : ∀ {a b x : Str}, '(' ∉ a → a = b ++ '(' :: x → False := by
      rintro a b x h rfl
      simp at h
    by_cases h0 : t.expr = [] <;> by_cases h0' : t'.expr = [] <;> simp only [h0, h0', if_true, if_false, List.append_nil] at e
    · exact ⟨TokType.str_inj e, by rw [h0, h0']⟩
    · simp only [List.cons_append, List.nil_append] at e
      exact (hp (TokType.str_paren _) e).elim
    · simp only [List.cons_append, List.nil_append] at e
      exact (hp (TokType.str_paren _) e.symm).elim
    · simp only [List.cons_append, List.nil_append] at e
      obtain ⟨e1, e2⟩ := append_sep_inj (TokType.str_paren _) (TokType.str_paren _) e
      refine ⟨TokType.str_inj e1, ?_⟩
      have e3 := List.append_cancel_right e2
      rw [w2, w2'] at e3
      rw [hb, w3, join_inj w1 w1' e3, ← w3', ← hb]
  obtain ⟨n, ty, ex⟩ := t
  obtain ⟨n', ty', ex'⟩ := t'
  simp only [DataType.bare] at key ⊢
  rw [key.1, key.2]

theorem default_bound {c : Column} (h : c.default ≠ some ⟨none⟩ → ∃ us, ColOk c us) {e : Expr} (hd : c.default = some ⟨some e⟩) :
    ∀ i ∈ e, Bound i := by
  obtain ⟨us, _, _, g, _, hg, _⟩ := h (by rw [hd]; simp)
  rcases hg with ⟨h1, _⟩ | ⟨h1, h2⟩
  · rw [hd] at h1; cases h1
  · rw [hd] at h1
    cases h1
    exact h2.bound

theorem alterColumn_nil {sd : Str → Str → Str} {tn : ObjectName} {b a : Column} (hb : b.default ≠ some ⟨none⟩ → ∃ us, ColOk b us)
    (ha : a.default ≠ some ⟨none⟩ → ∃ us, ColOk a us) (tb : b.Tame) (ta : a.Tame) (hn : b.name.name = a.name.name)
    (h : alterColumn sd tn b a = []) : b.bare = a.bare := by
  simp only [alterColumn, List.append_eq_nil_iff] at h
  obtain ⟨⟨h1, h2⟩, h3⟩ := h
  have d1 : b.dataType.bare = a.dataType.bare := by
    refine dataType_inj tb.1 ta.1 ?_
    by_contra hne
    rw [if_pos hne] at h1
    cases h1
  have d2 : b.default.map Default.bare = a.default.map Default.bare := by
    obtain ⟨bn, bd, bdef, bnn⟩ := b
    obtain ⟨an, ad, adef, ann⟩ := a
    simp only at *
    rcases bdef with _ | ⟨_ | be⟩
    · rcases adef with _ | ⟨_ | ae⟩
      · rfl
      · exact absurd rfl ta.2.2
      · simp [defaultDiffStr] at h2
    · exact absurd rfl tb.2.2
    · rcases adef with _ | ⟨_ | ae⟩
      · simp at h2
      · exact absurd rfl ta.2.2
      · simp only [Option.isSome_some, Option.isNone_some, Bool.false_eq_true, and_false, if_false, true_and] at h2
        have e : defaultDiffStr (some ⟨some be⟩) = defaultDiffStr (some ⟨some ae⟩) := by
          by_contra hne
          rw [if_pos hne] at h2
          cases h2
        simp only [defaultDiffStr, List.append_cancel_left_eq] at e
        have := exprDiff_inj (default_bound (c := ⟨bn, bd, some ⟨some be⟩, bnn⟩) hb rfl) (default_bound (c := ⟨an, ad, some ⟨some ae⟩, ann⟩) ha rfl) (tb.2.1 _ rfl) (ta.2.1 _ rfl) e
        simp [Default.bare, this]
  have d3 : b.notNull = a.notNull := by
    revert h3
    cases b.notNull <;> cases a.notNull <;> simp
  simp only [Column.bare, d1, d2, d3, Ident.bare, hn]

/-! ## Constraints -/

theorem check_bound {n : Ident} {e : Expr} (h : ConOk (.check n e)) : ∀ i ∈ e, Bound i := by
  obtain ⟨_, g, hg, rfl⟩ := h
  intro i hi
  rcases List.mem_cons.1 hi with rfl | hi
  · exact fun _ => Or.inl (by decide)
  · exact hg.bound i hi

theorem constraint_inj {b a : Constraint} (hb : ConOk b) (ha : ConOk a) (tb : b.Tame) (ta : a.Tame) (hn : b.name.name = a.name.name)
    (e : b.diffStr = a.diffStr) : b.bare = a.bare := by
  cases b with
  | primaryKey n cs =>
    cases a with
    | primaryKey n' cs' =>
      simp only [Constraint.name] at hn
      simp only [Constraint.diffStr, Ident.diffStr, hn, List.append_assoc, List.append_cancel_left_eq, List.append_cancel_right_eq] at e
      simp [Constraint.bare, Ident.bare, hn]
      exact columnsDiffStr_inj tb ta e
    | unique n' cs' =>
      simp only [Constraint.name] at hn
      simp [Constraint.diffStr, Ident.diffStr, hn] at e
    | foreignKey n' cs' r rcs act =>
      simp only [Constraint.name] at hn
      simp [Constraint.diffStr, Ident.diffStr, hn] at e
    | check n' x =>
      simp only [Constraint.name] at hn
      simp [Constraint.diffStr, Ident.diffStr, hn] at e
  | unique n cs =>
    cases a with
    | unique n' cs' =>
      simp only [Constraint.name] at hn
      simp only [Constraint.diffStr, Ident.diffStr, hn, List.append_assoc, List.append_cancel_left_eq, List.append_cancel_right_eq] at e
      simp [Constraint.bare, Ident.bare, hn]
      exact columnsDiffStr_inj tb ta e
    | primaryKey n' cs' =>
      simp only [Constraint.name] at hn
      simp [Constraint.diffStr, Ident.diffStr, hn] at e
    | foreignKey n' cs' r rcs act =>
      simp only [Constraint.name] at hn
      simp [Constraint.diffStr, Ident.diffStr, hn] at e
    | check n' x =>
      simp only [Constraint.name] at hn
      simp [Constraint.diffStr, Ident.diffStr, hn] at e
  | foreignKey n cs r rcs act =>
    cases a with
    | foreignKey n' cs' r' rcs' act' =>
      simp only [Constraint.name] at hn
      obtain ⟨t1, t2, t3⟩ := tb
      obtain ⟨t1', t2', t3'⟩ := ta
      simp only [Constraint.diffStr, Ident.diffStr, hn, List.append_assoc, List.append_cancel_left_eq] at e
      obtain ⟨e1, e2⟩ := append_sep_inj (c := ')') (columnsDiffStr_close t1) (columnsDiffStr_close t1') e
      replace e2 := List.append_cancel_left (as := s%" REFERENCES ") e2
      obtain ⟨e3, e4⟩ := append_sep_inj (c := ' ') t2.not_mem.1 t2'.not_mem.1 e2
      replace e4 := List.append_cancel_left (as := s%"(") e4
      obtain ⟨e5, e6⟩ := append_sep_inj (c := ')') (columnsDiffStr_close t3) (columnsDiffStr_close t3') e4
      have e7 : act = act' := by
        revert e6
        by_cases h1 : act = [] <;> by_cases h2 : act' = [] <;> simp [h1, h2]
      simp only [Constraint.bare, Ident.bare, hn, e3, e7, Constraint.foreignKey.injEq, true_and, and_true]
      exact ⟨columnsDiffStr_inj t1 t1' e1, columnsDiffStr_inj t3 t3' e5⟩
    | primaryKey n' cs' =>
      simp only [Constraint.name] at hn
      simp [Constraint.diffStr, Ident.diffStr, hn] at e
    | unique n' cs' =>
      simp only [Constraint.name] at hn
      simp [Constraint.diffStr, Ident.diffStr, hn] at e
    | check n' x =>
      simp only [Constraint.name] at hn
      simp [Constraint.diffStr, Ident.diffStr, hn] at e
  | check n x =>
    cases a with
    | check n' x' =>
      simp only [Constraint.name] at hn
      simp only [Constraint.diffStr, Ident.diffStr, hn, List.append_assoc, List.append_cancel_left_eq] at e
      simp only [Constraint.bare, Ident.bare, hn, Constraint.check.injEq, true_and]
      exact exprDiff_inj (check_bound hb) (check_bound ha) tb ta e
    | primaryKey n' cs' =>
      simp only [Constraint.name] at hn
      simp [Constraint.diffStr, Ident.diffStr, hn] at e
    | unique n' cs' =>
      simp only [Constraint.name] at hn
      simp [Constraint.diffStr, Ident.diffStr, hn] at e
    | foreignKey n' cs' r rcs act =>
      simp only [Constraint.name] at hn
      simp [Constraint.diffStr, Ident.diffStr, hn] at e

/-! ## Object names -/

/-- The object name a text without quotes stands for. -/
def bareOf (s : Str) : ObjectName :=
  match splitC '.' s with
  | [a, b] => ⟨some ⟨a, [], []⟩, ⟨b, [], []⟩⟩
  | _ => ⟨none, ⟨s, [], []⟩⟩

theorem objectName_bare {n : ObjectName} (h : ∃ raw, L ⟨.IDENT, raw⟩ ∧ n = newObjectName .postgres raw) : n.bare = bareOf n.diffStr := by
  obtain ⟨raw, h, rfl⟩ := h
  have key : ∀ a b, splitC '.' (newRawIdent .postgres raw).name = [a, b] →
      (newRawIdent .postgres ((newRawIdent .postgres raw).quot ++ a ++ (newRawIdent .postgres raw).quot)).name = a ∧
      (newRawIdent .postgres ((newRawIdent .postgres raw).quot ++ b ++ (newRawIdent .postgres raw).quot)).name = b := by
    intro a b hs
    have hj := join_splitC '.' (newRawIdent .postgres raw).name
    rw [hs] at hj
    simp only [join, List.append_assoc, List.cons_append, List.nil_append] at hj
    rcases h with ⟨h1, h2, h3⟩ | ⟨_, q, body, hq, h2, hb⟩ | ⟨h1, _⟩ | ⟨h1, _⟩ | ⟨h1, _⟩ | ⟨c, h1, _⟩
    · simp only at h2
      have hr : newRawIdent .postgres raw = ⟨raw, [], raw⟩ := newRawIdent_word h2
      rw [hr] at hj ⊢
      simp only [List.nil_append, List.append_nil]
      simp only at hj
      rw [newRawIdent_word (fun c hc => h2 c (by rw [← hj]; simp [hc])), newRawIdent_word (fun c hc => h2 c (by rw [← hj]; simp [hc]))]
      exact ⟨rfl, rfl⟩
    · simp only at h2
      simp only [quotes, List.mem_cons, List.not_mem_nil, or_false] at hq
      rcases hq with rfl | rfl
      · have k : ∀ w : Str, '"' ∉ w → newRawIdent .postgres (['"'] ++ w ++ ['"']) = ⟨w, ['"'], '"' :: w ++ ['"']⟩ :=
          fun w hw => newRawIdentQ_quoted (by decide) hw
        have hr : newRawIdent .postgres raw = ⟨body, ['"'], '"' :: body ++ ['"']⟩ := by
          rw [h2]
          exact k body (fun m => (hb _ m).1 rfl)
        rw [hr] at hj ⊢
        simp only at hj ⊢
        rw [k a (fun m => (hb '"' (by rw [← hj]; simp [m])).1 rfl), k b (fun m => (hb '"' (by rw [← hj]; simp [m])).1 rfl)]
        exact ⟨rfl, rfl⟩
      · have hr : newRawIdent .postgres raw = ⟨raw, [], raw⟩ := by
          refine newRawIdentQ_open ?_
          intro q hq
          simp only [quotationMarks, List.mem_singleton] at hq
          subst hq
          left
          rw [h2]
          simp
        rw [hr] at hj ⊢
        simp only [List.nil_append, List.append_nil] at hj ⊢
        have ha : a.head? ≠ some '"' := by
          cases a with
          | nil => simp
          | cons x r => rw [h2] at hj; simp at hj; simp [hj.1]
        have hb' : b.getLast? ≠ some '"' := by
          have e : '\'' :: body ++ ['\''] = a ++ '.' :: b := by rw [← h2, hj]
          have := congrArg List.getLast? e
          rw [List.getLast?_concat, List.getLast?_append, List.getLast?_cons] at this
          intro h
          rw [h] at this
          simp at this
        rw [show newRawIdent .postgres a = ⟨a, [], a⟩ from newRawIdentQ_open fun q hq => Or.inl (by
            simp only [quotationMarks, List.mem_singleton] at hq; exact hq ▸ ha),
          show newRawIdent .postgres b = ⟨b, [], b⟩ from newRawIdentQ_open fun q hq => Or.inr (by
            simp only [quotationMarks, List.mem_singleton] at hq; exact hq ▸ hb')]
        exact ⟨rfl, rfl⟩
    · cases h1
    · cases h1
    · cases h1
    · have : ∀ p ∈ symbols, p.2 ≠ .IDENT := by decide
      exact absurd rfl (this _ h1)
  have hj := join_splitC '.' (newRawIdent .postgres raw).name
  unfold newObjectName
  simp only
  split
  · rename_i a b hs
    obtain ⟨k1, k2⟩ := key a b hs
    rw [hs] at hj
    simp only [join] at hj
    simp only [ObjectName.diffStr, Ident.diffStr, k1, k2, hj, bareOf, hs, ObjectName.bare, Ident.bare, Option.map_some]
  · rename_i hs
    simp only [ObjectName.diffStr, Ident.diffStr, ObjectName.bare, Ident.bare, Option.map_none, bareOf]

/-! ## Tables and indexes -/

theorem table_noDiff {sd : Str → Str → Str} {t t' : CreateTable} (h : TabOk t) (h' : TabOk t') (ht : t.Tame) (ht' : t'.Tame)
    (hn : t.name.diffStr = t'.name.diffStr) (hd : DistinctNames t')
    (e : diffCreateTable sd false (some t) (some t') = .err .noDifference) : SameTable t t' := by
  have hs : ∀ {t : CreateTable}, t.Tame → t.Spelled := fun ht => ⟨fun c hc => (ht.2 c hc).2, fun c hc => (ht.1 c hc).2.2⟩
  simp only [diffCreateTable] at e
  split at e
  · rename_i hstr
    rw [tableStr_inj ⟨h, hs ht⟩ ⟨h', hs ht'⟩ hstr]
    exact ⟨rfl, fun _ => Iff.rfl, fun _ => Iff.rfl⟩
  · split at e
    · rename_i hr
      clear e
      simp only [List.isEmpty_iff, List.append_eq_nil_iff] at hr
      obtain ⟨⟨⟨⟨_, r2⟩, r3⟩, r4⟩, r5⟩ := hr
      simp only [diffColumns, List.append_eq_nil_iff, List.map_eq_nil_iff, onlyLeftColumn, List.filter_eq_nil_iff,
        List.flatMap_eq_nil_iff] at r3
      obtain ⟨c1, c2⟩ := r3
      have colFwd : ∀ c ∈ t.columns, ∃ c' ∈ t'.columns, c.bare = c'.bare ∧ findColumn c.name.name t'.columns = some c' := by
        intro c hc
        have := c1 c hc
        unfold columnRound at this
        split at this
        · cases this
        · rename_i a hf
          have hm := List.mem_of_find?_eq_some hf
          have hnm := List.find?_some hf
          simp only [beq_iff_eq] at hnm
          exact ⟨a, hm, alterColumn_nil (h.2.2.2.1 c hc) (h'.2.2.2.1 a hm) (ht.1 c hc) (ht'.1 a hm) hnm.symm this, hf⟩
      simp only [replaceConstraints, dropConstraints, List.flatMap_eq_nil_iff] at r2 r4
      have conFwd : ∀ c ∈ t.constraints, ∃ c' ∈ t'.constraints, c.bare = c'.bare ∧ findConstraint c.name.name t'.constraints = some c' := by
        intro c hc
        have k2 := r2 c hc
        have k4 := r4 c hc
        cases hf : findConstraint c.name.name t'.constraints with
        | none => rw [hf] at k2; cases k2
        | some a =>
          rw [hf] at k4
          have hm := List.mem_of_find?_eq_some hf
          have hnm := List.find?_some hf
          simp only [beq_iff_eq] at hnm
          refine ⟨a, hm, constraint_inj (h.2.2.2.2 c hc) (h'.2.2.2.2 a hm) (ht.2 c hc).1 (ht'.2 a hm).1 hnm.symm ?_, rfl⟩
          by_contra hne
          simp [hne] at k4
      have r5' : ∀ c ∈ t'.constraints, (findConstraint c.name.name t.constraints).isSome := by
        have hap : ∀ (l cs : List Constraint), cs ≠ [] → l.foldl appendConstraint cs ≠ [] := by
          intro l
          induction l with
          | nil => intro cs h; exact h
          | cons x l ih =>
            intro cs h
            refine ih _ ?_
            cases cs with
            | nil => contradiction
            | cons y cs => unfold appendConstraint; split <;> simp
        simp only [addConstraints, List.map_eq_nil_iff, onlyLeftConstraint] at r5
        intro c hc
        by_contra hno
        have hm : c ∈ t'.constraints.filter (fun c => (findConstraint c.name.name t.constraints).isNone) := by
          simp only [List.mem_filter]
          exact ⟨hc, by simpa using hno⟩
        revert r5
        cases e : t'.constraints.filter (fun c => (findConstraint c.name.name t.constraints).isNone) with
        | nil => rw [e] at hm; cases hm
        | cons x l =>
          intro r5
          exact hap l [x] (by simp) r5
      refine ⟨?_, ?_, ?_⟩
      · rw [objectName_bare h.2.2.1, objectName_bare h'.2.2.1, hn]
      · intro x
        constructor
        · intro hx
          obtain ⟨c, hc, rfl⟩ := List.mem_map.1 hx
          obtain ⟨c', hc', e, _⟩ := colFwd c hc
          exact List.mem_map.2 ⟨c', hc', e.symm⟩
        · intro hx
          obtain ⟨c', hc', rfl⟩ := List.mem_map.1 hx
          have := c2 c' hc'
          obtain ⟨c, hf⟩ : ∃ c, findColumn c'.name.name t.columns = some c := by
            cases e : findColumn c'.name.name t.columns with
            | none => rw [e] at this; simp at this
            | some c => exact ⟨c, rfl⟩
          have hm := List.mem_of_find?_eq_some hf
          have hnm := List.find?_some hf
          simp only [beq_iff_eq] at hnm
          obtain ⟨c'', hc'', e, hf'⟩ := colFwd c hm
          have : findColumn c.name.name t'.columns = some c' := by
            rw [hnm]
            exact find?_of_nodup hd.1 hc'
          rw [hf'] at this
          cases this
          exact List.mem_map.2 ⟨c, hm, e⟩
      · intro x
        constructor
        · intro hx
          obtain ⟨c, hc, rfl⟩ := List.mem_map.1 hx
          obtain ⟨c', hc', e, _⟩ := conFwd c hc
          exact List.mem_map.2 ⟨c', hc', e.symm⟩
        · intro hx
          obtain ⟨c', hc', rfl⟩ := List.mem_map.1 hx
          have := r5' c' hc'
          obtain ⟨c, hf⟩ := Option.isSome_iff_exists.1 this
          have hm := List.mem_of_find?_eq_some hf
          have hnm := List.find?_some hf
          simp only [beq_iff_eq] at hnm
          obtain ⟨c'', hc'', e, hf'⟩ := conFwd c hm
          have : findConstraint c.name.name t'.constraints = some c' := by
            rw [hnm]
            exact find?_of_nodup hd.2 hc'
          rw [hf'] at this
          cases this
          exact List.mem_map.2 ⟨c, hm, e⟩
    · cases e

theorem index_noDiff {i i' : CreateIndex} (h : IdxOk i) (h' : IdxOk i') (ht : i.Tame) (ht' : i'.Tame) (hn : i.name.name = i'.name.name)
    (e : i.diffStr = i'.diffStr) : SameIndexButMethod i i' := by
  have hu : i.isUnique = i'.isUnique := by
    revert e
    unfold CreateIndex.diffStr
    cases i.isUnique <;> cases i'.isUnique <;> simp
  simp only [CreateIndex.diffStr, hu, Ident.diffStr, hn, List.append_assoc, List.append_cancel_left_eq] at e
  obtain ⟨e1, e2⟩ := append_sep_inj (c := ' ') ht.1.not_mem.1 ht'.1.not_mem.1 e
  replace e2 := List.append_cancel_left (as := s%"(") e2
  obtain ⟨e3, _⟩ := append_sep_inj (c := ')') (columnsDiffStr_close ht.2) (columnsDiffStr_close ht'.2) e2
  have e4 := columnsDiffStr_inj ht.2 ht'.2 e3
  simp only [SameIndexButMethod, CreateIndex.bare, hu, Ident.bare, hn, CreateIndex.mk.injEq, true_and]
  refine ⟨?_, e4⟩
  rw [objectName_bare h.2.2.1, objectName_bare h'.2.2.1, e1]

end Pg

/-! ## Schemas -/

theorem bind_eq_err {α β : Type} {r : Res α} {f : α → Res β} {e : Err} (h : (r >>= f) = .err e) :
    r = .err e ∨ ∃ a, r = .ok a ∧ f a = .err e := by
  cases r <;> simp_all

theorem mapRes_err {α β : Type} {f : α → Res β} {e : Err} : ∀ {l : List α}, mapRes f l = .err e → ∃ a ∈ l, f a = .err e
  | [], h => by cases h
  | a :: l, h => by
    unfold mapRes at h
    rcases bind_eq_err h with h | ⟨b, _, h⟩
    · exact ⟨a, by simp, h⟩
    · rcases bind_eq_err h with h | ⟨_, _, h⟩
      · obtain ⟨x, hx, hf⟩ := mapRes_err h
        exact ⟨x, by simp [hx], hf⟩
      · cases h

theorem flatMapRes_err {α β : Type} {f : α → Res (List β)} {e : Err} : ∀ {l : List α}, flatMapRes f l = .err e → ∃ a ∈ l, f a = .err e
  | [], h => by cases h
  | a :: l, h => by
    unfold flatMapRes at h
    rcases bind_eq_err h with h | ⟨b, _, h⟩
    · exact ⟨a, by simp, h⟩
    · rcases bind_eq_err h with h | ⟨_, _, h⟩
      · obtain ⟨x, hx, hf⟩ := flatMapRes_err h
        exact ⟨x, by simp [hx], hf⟩
      · cases h

section
variable {T I A N : Type} {o : Ops T I A N}

theorem alterOf_no_err {a : List (Stmt T I A N)} {s : Stmt T I A N} {e : Err} : alterOf o a s ≠ .err e := by
  intro h
  cases s with
  | createTable t =>
    simp only [alterOf] at h
    split at h
    · split at h <;> cases h
    · cases h
  | createIndex i =>
    simp only [alterOf] at h
    split at h
    · split at h <;> cases h
    · cases h
  | alterTable => cases h
  | dropTable => cases h
  | dropIndex => cases h

/-- What no difference means for the statements. -/
theorem diff_noDiff {b a : List (Stmt T I A N)} (h : diff o (some b) (some a) = .err .noDifference) :
    ddlStr o b = ddlStr o a ∨ (onlyLeftStmt o b a = [] ∧ onlyLeftStmt o a b = [] ∧ ∀ s ∈ b, alterOf o a s = .ok []) := by
  simp only [diff] at h
  split at h
  · exact Or.inl ‹_›
  · right
    rcases bind_eq_err h with h | ⟨ds, h1, h⟩
    · obtain ⟨s, _, hs⟩ := mapRes_err h
      cases s <;> cases hs
    rcases bind_eq_err h with h | ⟨cs, h2, h⟩
    · obtain ⟨s, _, hs⟩ := mapRes_err h
      cases s <;> cases hs
    rcases bind_eq_err h with h | ⟨as, h3, h⟩
    · obtain ⟨s, _, hs⟩ := flatMapRes_err h
      exact absurd hs alterOf_no_err
    split at h
    · rename_i he
      simp only [List.isEmpty_iff, List.append_eq_nil_iff] at he
      obtain ⟨⟨rfl, rfl⟩, rfl⟩ := he
      refine ⟨?_, ?_, ?_⟩
      · exact List.forall₂_nil_right_iff.1 (mapRes_ok.1 h1)
      · exact List.forall₂_nil_right_iff.1 (mapRes_ok.1 h2)
      · intro s hs
        obtain ⟨rs, hr, e⟩ := flatMapRes_ok.1 h3
        obtain ⟨l, hl, hf⟩ := forall₂_mem_left hr s hs
        rw [hf, List.flatten_eq_nil_iff.1 e.symm l hl]
    · cases h

theorem onlyLeft_nil {l r : List (Stmt T I A N)} (h : onlyLeftStmt o l r = []) {s : Stmt T I A N} (hs : s ∈ l) :
    ∃ x, findStmt o s r = some x := by
  simp only [onlyLeftStmt, List.filter_eq_nil_iff] at h
  have := h s hs
  cases e : findStmt o s r with
  | none => rw [e] at this; simp at this
  | some x => exact ⟨x, rfl⟩

theorem distinct_unique {a : List (Stmt T I A N)} (hd : DistinctObjects o a) {s s' : Stmt T I A N} {k : Obj} (hs : s ∈ a) (hs' : s' ∈ a)
    (h : creates o s = some k) (h' : creates o s' = some k) : s = s' := by
  unfold DistinctObjects at hd
  induction a with
  | nil => cases hs
  | cons x a ih =>
    rcases List.mem_cons.1 hs with e | hs2 <;> rcases List.mem_cons.1 hs' with e' | hs2'
    · rw [e, e']
    · subst e
      rw [List.filterMap_cons_some h, List.nodup_cons] at hd
      exact absurd (List.mem_filterMap.2 ⟨s', hs2', h'⟩) hd.1
    · subst e'
      rw [List.filterMap_cons_some h', List.nodup_cons] at hd
      exact absurd (List.mem_filterMap.2 ⟨s, hs2, h⟩) hd.1
    · refine ih ?_ hs2 hs2'
      cases e : creates o x with
      | none => rwa [List.filterMap_cons_none e] at hd
      | some y =>
        rw [List.filterMap_cons_some e, List.nodup_cons] at hd
        exact hd.2

end

namespace Pg

theorem stmtOk_of_readFrom {s : Str} {l : List PStmt} (h : ReadFrom s l) : ∀ x ∈ l, StmtOk x := by
  obtain ⟨⟨ts, hw, hi⟩, h0, hl⟩ := h
  exact parse_post (by rw [lex_of_writes hw]; exact lx_of_writes hw h0 hi) hl

theorem noDiff_same {sd : Str → Str → Str} {b a : List PStmt} (hb : ∀ x ∈ b, StmtOk x) (ha : ∀ x ∈ a, StmtOk x)
    (tb : TameSchema b) (ta : TameSchema a) (hd : DistinctObjects (ops sd) a) (hn : ∀ t, .createTable t ∈ a → DistinctNames t)
    (h : diff (ops sd) (some b) (some a) = .err .noDifference) : SameSchema SameTable SameIndexButMethod b a := by
  have leg : ∀ {l : List PStmt}, (∀ x ∈ l, StmtOk x) → TameSchema l → ∀ x ∈ l, Legible x := by
    intro l hl tl x hx
    have := hl x hx
    cases x with
    | createTable t =>
      have ht := tl.1 t hx
      exact ⟨this, fun c hc => (ht.2 c hc).2, fun c hc => (ht.1 c hc).2.2⟩
    | createIndex i => exact this
    | alterTable => exact this
    | dropTable => exact this
    | dropIndex => exact this
  rcases diff_noDiff h with h | ⟨h1, h2, h3⟩
  · have := ddlStr_inj (leg hb tb) (leg ha ta) h
    subst this
    have refl : ∀ x ∈ b, SameStmt (A := AlterTable) (N := Ident) SameTable SameIndexButMethod x x := by
      intro x hx
      have := hb x hx
      cases x with
      | createTable t => exact .table ⟨rfl, fun _ => Iff.rfl, fun _ => Iff.rfl⟩
      | createIndex i => exact .index rfl
      | alterTable => exact this.elim
      | dropTable => exact this.elim
      | dropIndex => exact this.elim
    exact ⟨fun x hx => ⟨x, hx, refl x hx⟩, fun x hx => ⟨x, hx, refl x hx⟩⟩
  · have fwd : ∀ s ∈ b, ∃ s' ∈ a, SameStmt (A := AlterTable) (N := Ident) SameTable SameIndexButMethod s s' ∧
        findStmt (ops sd) s a = some s' := by
      intro s hs
      obtain ⟨s', hf⟩ := onlyLeft_nil h1 hs
      have h3 := h3 s hs
      obtain ⟨hm, hty, hnm⟩ := findStmt_some hf
      have hs1 := hb s hs
      have hs2 := ha s' hm
      cases s with
      | createTable t =>
        cases s' with
        | createTable t' =>
          refine ⟨_, hm, .table ?_, hf⟩
          simp only [alterOf, hf] at h3
          refine table_noDiff (sd := sd) hs1 hs2 (tb.1 t hs) (ta.1 t' hm) hnm (hn t' hm) ?_
          have hops : (ops sd).diffTable t t' = diffCreateTable sd false (some t) (some t') := rfl
          rw [hops] at h3
          cases e : diffCreateTable sd false (some t) (some t') with
          | ok l =>
            rw [e] at h3
            simp only [Res.ok.injEq] at h3
            subst h3
            simp only [diffCreateTable] at e
            split at e
            · cases e
            · split at e
              · cases e
              · rename_i hne
                simp only [Res.ok.injEq, List.map_eq_nil_iff] at e
                rw [e] at hne
                simp at hne
          | err er =>
            rw [e] at h3
            cases er <;> simp at h3 ⊢
          | panic => rw [e] at h3; cases h3
          | outOfFuel => rw [e] at h3; cases h3
        | createIndex => cases hty
        | alterTable => cases hty
        | dropTable => cases hty
        | dropIndex => cases hty
      | createIndex i =>
        cases s' with
        | createIndex i' =>
          refine ⟨_, hm, .index ?_, hf⟩
          simp only [alterOf, hf] at h3
          refine index_noDiff hs1 hs2 (tb.2 i hs) (ta.2 i' hm) hnm ?_
          by_contra hne
          have hne' : (ops sd).indexDiffStr i ≠ (ops sd).indexDiffStr i' := hne
          rw [if_pos hne'] at h3
          cases h3
        | createTable => cases hty
        | alterTable => cases hty
        | dropTable => cases hty
        | dropIndex => cases hty
      | alterTable => exact hs1.elim
      | dropTable => exact hs1.elim
      | dropIndex => exact hs1.elim
    refine ⟨fun s hs => ?_, fun s' hs' => ?_⟩
    · obtain ⟨s', h, h', _⟩ := fwd s hs
      exact ⟨s', h, h'⟩
    · obtain ⟨s, hf⟩ := onlyLeft_nil h2 hs'
      have hcr : ∃ k, creates (ops sd) s' = some k := by
        have := ha s' hs'
        cases s' with
        | createTable => exact ⟨_, rfl⟩
        | createIndex => exact ⟨_, rfl⟩
        | alterTable => exact this.elim
        | dropTable => exact this.elim
        | dropIndex => exact this.elim
      obtain ⟨k, hk⟩ := hcr
      obtain ⟨hm, hc⟩ := findStmt_creates hk hf
      obtain ⟨s'', hm'', hsame, hf''⟩ := fwd s hm
      obtain ⟨_, hc''⟩ := findStmt_creates hc hf''
      have := distinct_unique hd hs' hm'' hk hc''
      subst this
      exact ⟨s, hm, hsame⟩

end Pg
end Ddl
