import Mathlib.Data.List.Forall2
import Verif.Lemmas.Annotation
import Verif.Lemmas.Gen

/-!
# From annotated files to sorted statements
-/

namespace Ddl
open Spec Gen
set_option autoImplicit false

/-! ## CREATE statements -/

theorem lang_litI {l s : Str} : Lang (Rx.litI l) s ↔ upper s = l := by
  induction l generalizing s with
  | nil =>
    rw [Rx.litI, Rx.lang_eps]
    simp [upper]
  | cons c r ih =>
    rw [Rx.litI, Rx.lang_seq]
    constructor
    · rintro ⟨u, v, rfl, h1, h2⟩
      obtain ⟨x, rfl, hx⟩ := Rx.lang_cls.1 h1
      have := ih.1 h2
      simp only [upper] at this ⊢
      simp [this, beq_iff_eq.1 hx]
    · intro h
      cases s with
      | nil => simp [upper] at h
      | cons x s =>
        simp only [upper, List.map_cons, List.cons.injEq] at h
        exact ⟨[x], s, rfl, .cls (by simp [h.1]), ih.2 h.2⟩

theorem matchesIn_iff {a : Rx} {s : Str} : Rx.matchesIn a s = true ↔ ∃ pre w post, s = pre ++ w ++ post ∧ Lang a w := by
  have hat : ∀ s : Str, Rx.matchesAt a s = true ↔ ∃ w post, s = w ++ post ∧ Lang a w := by
    intro s
    have : Rx.matchesAt a s = true ↔ Rx.run a s ≠ [] := by simp [Rx.matchesAt]
    rw [this]
    constructor
    · intro h
      obtain ⟨r, hr⟩ := List.exists_mem_of_ne_nil _ h
      obtain ⟨w, e, hw⟩ := (Rx.mem_run _ _ _).1 hr
      exact ⟨w, r, e, hw⟩
    · rintro ⟨w, r, e, hw⟩
      exact List.ne_nil_of_mem ((Rx.mem_run _ _ r).2 ⟨w, e, hw⟩)
  induction s with
  | nil =>
    rw [Rx.matchesIn, hat]
    constructor
    · rintro ⟨w, post, e, hw⟩
      exact ⟨[], w, post, by simpa using e, hw⟩
    · rintro ⟨pre, w, post, e, hw⟩
      have := List.append_eq_nil_iff.1 e.symm
      exact ⟨w, post, by simp [this.2, (List.append_eq_nil_iff.1 this.1).2], hw⟩
  | cons c r ih =>
    rw [Rx.matchesIn, Bool.or_eq_true, hat]
    refine (or_congr Iff.rfl ih).trans ?_
    constructor
    · rintro (⟨w, post, e, hw⟩ | ⟨pre, w, post, e, hw⟩)
      · exact ⟨[], w, post, by simpa using e, hw⟩
      · exact ⟨c :: pre, w, post, by rw [e]; rfl, hw⟩
    · rintro ⟨pre, w, post, e, hw⟩
      cases pre with
      | nil => exact .inl ⟨w, post, by simpa using e, hw⟩
      | cons x pre =>
        simp only [List.cons_append, List.cons.injEq] at e
        exact .inr ⟨pre, w, post, e.2, hw⟩

theorem lang_dots {s : Str} : Lang (.star .dot) s ↔ '\n' ∉ s := by
  rw [Rx.dot, Rx.lang_star_cls]
  constructor
  · intro h hn
    have := h _ hn
    simp at this
  · intro h c hc
    have : c ≠ '\n' := fun e => h (e ▸ hc)
    simpa using this

theorem lang_spaces {s : Str} : Lang (.plus .space) s ↔ s ≠ [] ∧ Sps s := by
  rw [Rx.space, Rx.lang_plus_cls]
  simp only [Rx.isBlank_iff, Sps]

theorem isCreate_iff {object s : Str} : isCreate object s = true ↔ CreateShaped object s := by
  rw [isCreate, matchesIn_iff]
  simp only [Rx.cat, Rx.lang_seq, Rx.lang_space, lang_litI, lang_spaces, Rx.lang_opt, lang_dots, Rx.lang_word]
  constructor
  · rintro ⟨pre, _, post, rfl, b0, _, rfl, h0, c, _, rfl, hc, b1, _, rfl, h1, mid, _, rfl, hm, o, _, rfl, ho, b2, _, rfl, h2,
      mid2, w, rfl, hm2, hw⟩
    refine ⟨pre ++ b0, c, b1, mid, o, b2, mid2, w, post, by simp, hc, ho, h1.1, h1.2, h2.1, h2.2, ?_, ?_, hw⟩
    · rcases hm with h | rfl
      · exact h
      · simp
    · rcases hm2 with h | rfl
      · exact h
      · simp
  · rintro ⟨pre, c, b1, mid, o, b2, mid2, w, post, rfl, hc, ho, h1, h1', h2, h2', hm, hm2, hw⟩
    exact ⟨pre, [] ++ (c ++ (b1 ++ (mid ++ (o ++ (b2 ++ (mid2 ++ w)))))), post, by simp, [], _, rfl, sps_nil, c, _, rfl, hc, b1, _, rfl,
      ⟨h1, h1'⟩, mid, _, rfl, .inl hm, o, _, rfl, ho, b2, _, rfl, ⟨h2, h2'⟩, mid2, w, rfl, .inl hm2, hw⟩

theorem creates_table {s t : Str} : Creates s%"TABLE" s t ↔ t = setCreateTable s := by
  unfold Creates setCreateTable
  rw [← isCreate_iff]
  by_cases h : isCreate s%"TABLE" s = true <;> simp [h]

theorem creates_index {s t : Str} : Creates s%"INDEX" s t ↔ t = setCreateIndex s := by
  unfold Creates setCreateIndex
  rw [← isCreate_iff]
  by_cases h : isCreate s%"INDEX" s = true <;> simp [h]

/-! ## Positions -/

theorem substring_iff {s sub : Str} : contains s sub = true ↔ ∃ a b, s = a ++ sub ++ b := by
  induction s with
  | nil =>
    rw [contains, List.isPrefixOf_iff_prefix]
    constructor
    · intro h; rw [List.prefix_nil.1 h]; exact ⟨[], [], rfl⟩
    · rintro ⟨a, b, e⟩
      have := List.append_eq_nil_iff.1 e.symm
      rw [(List.append_eq_nil_iff.1 this.1).2]
      exact List.prefix_refl _
  | cons c r ih =>
    rw [contains, Bool.or_eq_true, List.isPrefixOf_iff_prefix, ih]
    constructor
    · rintro (⟨b, e⟩ | ⟨a, b, e⟩)
      · exact ⟨[], b, by simpa using e.symm⟩
      · exact ⟨c :: a, b, by rw [e]; rfl⟩
    · rintro ⟨a, b, e⟩
      cases a with
      | nil => exact .inl ⟨b, by simpa using e.symm⟩
      | cons x a =>
        simp only [List.cons_append, List.cons.injEq] at e
        exact .inr ⟨a, b, e.2⟩

theorem trimPrefix_suffix (s p : Str) : ∃ a, s = a ++ trimPrefix s p := by
  unfold trimPrefix
  split
  · exact ⟨s.take p.length, (List.take_append_drop _ _).symm⟩
  · exact ⟨[], rfl⟩

theorem trimSpaces_suffix (n : Nat) (s : Str) : ∃ a, s = a ++ trimSpaces n s := by
  induction n generalizing s with
  | zero => exact ⟨[], rfl⟩
  | succ n ih =>
    rw [trimSpaces]
    split
    · exact ⟨[], rfl⟩
    · obtain ⟨a, e⟩ := ih (s.drop (spaceWidth s))
      exact ⟨s.take (spaceWidth s) ++ a, by rw [List.append_assoc, ← e, List.take_append_drop]⟩

theorem trimComment_suffix (s : Str) : ∃ a, s = a ++ trimComment s := by
  unfold trimComment
  obtain ⟨a, ha⟩ := trimPrefix_suffix s s%"//"
  obtain ⟨b, hb⟩ := trimPrefix_suffix (trimPrefix s s%"//") s%"/*"
  obtain ⟨c, hc⟩ := trimPrefix_suffix (trimPrefix (trimPrefix s s%"//") s%"/*") s%"*/"
  obtain ⟨d, hd⟩ := trimSpaces_suffix (trimPrefix (trimPrefix (trimPrefix s s%"//") s%"/*") s%"*/").length
    (trimPrefix (trimPrefix (trimPrefix s s%"//") s%"/*") s%"*/")
  refine ⟨a ++ b ++ c ++ d, ?_⟩
  rw [List.append_assoc, ← hd, List.append_assoc, ← hc, List.append_assoc, ← hb, ← ha]

/-- The code finds the comment of an index: no nil dereference. -/
theorem commentLine_isSome {g : List CommentLine} {c : CommentLine} (h : c ∈ g) :
    ∃ c' ∈ g, commentLine g (trimComment c.text) = some c'.line ∧ contains c'.text (trimComment c.text) = true := by
  have hc : contains c.text (trimComment c.text) = true := by
    obtain ⟨a, ha⟩ := trimComment_suffix c.text
    exact substring_iff.2 ⟨a, [], by rw [List.append_nil]; exact ha⟩
  unfold commentLine
  cases hf : g.find? (fun c' => contains c'.text (trimComment c.text)) with
  | none => exact absurd hc (by simpa using List.find?_eq_none.1 hf c h)
  | some c' => exact ⟨c', List.mem_of_find?_eq_some hf, rfl, (List.find?_some hf :)⟩

/-! ## Sorting -/

theorem lt_append_left {p a b : Str} : p ++ a < p ++ b ↔ a < b := by
  induction p with
  | nil => rfl
  | cons c p ih =>
    rw [List.cons_append, List.cons_append, List.cons_lt_cons_iff]
    simp [ih]

theorem lt_append_right {a b : Str} {x y : Char} (h : a.length = b.length) :
    a ++ [x] < b ++ [y] ↔ a < b ∨ (a = b ∧ x < y) := by
  induction a generalizing b with
  | nil =>
    cases b with
    | nil => simp [List.cons_lt_cons_iff]
    | cons c b => simp at h
  | cons c a ih =>
    cases b with
    | nil => simp at h
    | cons d b =>
      have := ih (b := b) (by simpa using h)
      rw [List.cons_append, List.cons_append, List.cons_lt_cons_iff, List.cons_lt_cons_iff, this, List.cons.injEq]
      constructor
      · rintro (g | ⟨rfl, g | ⟨rfl, g⟩⟩)
        · exact .inl (.inl g)
        · exact .inl (.inr ⟨rfl, g⟩)
        · exact .inr ⟨⟨rfl, rfl⟩, g⟩
      · rintro ((g | ⟨rfl, g⟩) | ⟨⟨rfl, rfl⟩, g⟩)
        · exact .inl g
        · exact .inr ⟨rfl, .inl g⟩
        · exact .inr ⟨rfl, .inr ⟨rfl, g⟩⟩

theorem length_digits (k n : Nat) : (digits k n).length = k := by
  induction k generalizing n with
  | zero => rfl
  | succ k ih => simp [digits, ih]

theorem digit_lt {a b : Nat} (ha : a < 10) (hb : b < 10) : Char.ofNat (48 + a) < Char.ofNat (48 + b) ↔ a < b := by
  have h : ∀ a < 10, ∀ b < 10, (Char.ofNat (48 + a) < Char.ofNat (48 + b) ↔ a < b) := by decide
  exact h a ha b hb

theorem digits_lt {k m n : Nat} (hm : m < 10 ^ k) (hn : n < 10 ^ k) :
    (digits k m < digits k n ↔ m < n) ∧ (digits k m = digits k n ↔ m = n) := by
  induction k generalizing m n with
  | zero =>
    have : m = 0 := by simpa using hm
    have : n = 0 := by simpa using hn
    subst m n
    simp [digits]
  | succ k ih =>
    have h10 : ∀ x, x < 10 ^ (k + 1) → x / 10 < 10 ^ k := by
      intro x hx
      rw [Nat.pow_succ] at hx
      omega
    have := ih (h10 m hm) (h10 n hn)
    rw [digits, digits, lt_append_right (by rw [length_digits, length_digits]), this.1, this.2,
      digit_lt (Nat.mod_lt _ (by omega)) (Nat.mod_lt _ (by omega))]
    refine ⟨by omega, ?_⟩
    constructor
    · intro h
      obtain ⟨h1, h2⟩ := List.append_inj h (by rw [length_digits, length_digits])
      have h1 := this.2.1 h1
      have h2 : Char.ofNat (48 + m % 10) = Char.ofNat (48 + n % 10) := by simpa using h2
      have hd : ∀ a < 10, ∀ b < 10, Char.ofNat (48 + a) = Char.ofNat (48 + b) → a = b := by decide
      have := hd _ (Nat.mod_lt m (by omega)) _ (Nat.mod_lt n (by omega)) h2
      omega
    · rintro rfl; rfl

theorem sortKey_lt {a b : Gen.Stmt} (hf : a.file = b.file) (ha : a.line < 10 ^ 9) (hb : b.line < 10 ^ 9) :
    sortKey a < sortKey b ↔ a.line < b.line := by
  unfold sortKey
  rw [hf, lt_append_left, pad9, pad9, if_pos ha, if_pos hb]
  exact (digits_lt ha hb).1

theorem insertStmt_perm (s : Gen.Stmt) (l : List Gen.Stmt) : (insertStmt s l).Perm (s :: l) := by
  induction l with
  | nil => exact .refl _
  | cons x r ih =>
    rw [insertStmt]
    split
    · exact .refl _
    · exact (List.Perm.cons x ih).trans (List.Perm.swap s x r)

theorem sortStmts_perm (l : List Gen.Stmt) : (sortStmts l).Perm l := by
  have h : ∀ (l acc : List Gen.Stmt), (l.foldl (fun acc s => insertStmt s acc) acc).Perm (acc ++ l) := by
    intro l
    induction l with
    | nil => intro acc; simp
    | cons x r ih =>
      intro acc
      rw [List.foldl_cons]
      refine (ih _).trans ?_
      refine ((insertStmt_perm x acc).append_right r).trans ?_
      exact (List.perm_middle).symm
  exact h l []

theorem insertStmt_sorted {file : Str} {s : Gen.Stmt} {l : List Gen.Stmt} (hs : s.file = file ∧ s.line < 10 ^ 9)
    (hl : ∀ x ∈ l, x.file = file ∧ x.line < 10 ^ 9) (h : l.Pairwise (fun a b => a.line ≤ b.line)) :
    (insertStmt s l).Pairwise (fun a b => a.line ≤ b.line) := by
  induction l with
  | nil => simp [insertStmt]
  | cons x r ih =>
    rw [List.pairwise_cons] at h
    have hx := hl x (by simp)
    have hk := sortKey_lt (hs.1.trans hx.1.symm) hs.2 hx.2
    rw [insertStmt]
    split
    · rename_i hlt
      have hlt := hk.1 hlt
      rw [List.pairwise_cons, List.pairwise_cons]
      refine ⟨?_, h⟩
      intro y hy
      rcases List.mem_cons.1 hy with rfl | hy
      · omega
      · have := h.1 y hy
        omega
    · rename_i hlt
      have hlt : ¬ s.line < x.line := fun h => hlt (hk.2 h)
      rw [List.pairwise_cons]
      refine ⟨?_, ih (fun y hy => hl y (by simp [hy])) h.2⟩
      intro y hy
      rcases List.mem_cons.1 ((insertStmt_perm s r).mem_iff.1 hy) with rfl | hy
      · omega
      · exact h.1 y hy

theorem sortStmts_sorted {file : Str} {l : List Gen.Stmt} (hl : ∀ x ∈ l, x.file = file ∧ x.line < 10 ^ 9) :
    (sortStmts l).Pairwise (fun a b => a.line ≤ b.line) := by
  have h : ∀ (l acc : List Gen.Stmt), (∀ x ∈ l, x.file = file ∧ x.line < 10 ^ 9) → (∀ x ∈ acc, x.file = file ∧ x.line < 10 ^ 9) →
      acc.Pairwise (fun a b => a.line ≤ b.line) →
      (l.foldl (fun acc s => insertStmt s acc) acc).Pairwise (fun a b => a.line ≤ b.line) := by
    intro l
    induction l with
    | nil => intro acc _ _ h; exact h
    | cons x r ih =>
      intro acc hl hacc h
      refine ih _ (fun y hy => hl y (by simp [hy])) ?_ (insertStmt_sorted (hl x (by simp)) hacc h)
      intro y hy
      rcases List.mem_cons.1 ((insertStmt_perm x acc).mem_iff.1 hy) with rfl | hy
      · exact hl y (by simp)
      · exact hacc y hy
  exact h l [] hl (by simp) (by simp)

/-- In a list sorted by line, a statement of an earlier line comes first. -/
theorem sorted_before {l : List Gen.Stmt} (h : l.Pairwise (fun a b => a.line ≤ b.line)) {s t : Gen.Stmt} (hs : s ∈ l) (ht : t ∈ l)
    (hlt : s.line < t.line) : ∃ a b c, l = a ++ s :: b ++ t :: c := by
  obtain ⟨a, b, rfl⟩ := List.append_of_mem hs
  rw [List.pairwise_append] at h
  rcases List.mem_append.1 ht with ht | ht
  · have := h.2.2 t ht s (by simp)
    omega
  · rcases List.mem_cons.1 ht with rfl | ht
    · omega
    · obtain ⟨b, c, rfl⟩ := List.append_of_mem ht
      exact ⟨a, b, c, by simp⟩

/-! ## Files -/

theorem translateSources_ok {env : Env} {rs : List Source} {l : List Gen.Stmt} (h : translateSources env rs = .ok l) :
    ∃ ls : List (List Gen.Stmt), rs.map (translateSource env) = ls.map .ok ∧ l = ls.flatten := by
  induction rs generalizing l with
  | nil => cases h; exact ⟨[], rfl, rfl⟩
  | cons r rs ih =>
    rw [translateSources] at h
    cases h1 : translateSource env r <;> rw [h1] at h <;> try (simp at h; done)
    rename_i a
    simp only [Res.ok_bind] at h
    cases h2 : translateSources env rs <;> rw [h2] at h <;> try (simp at h; done)
    rename_i b
    simp only [Res.ok_bind, Res.ok.injEq] at h
    obtain ⟨ls, h3, h4⟩ := ih h2
    exact ⟨a :: ls, by simp [h1, h3], by simp [← h, h4]⟩

theorem inspect_eq (specs : List (Str × Option (List Field))) :
    (inspect specs).1 = (specs.map Prod.fst).getLast? ∧ (inspect specs).2 = (specs.filterMap Prod.snd).getLast? := by
  have h : ∀ (l : List (Str × Option (List Field))) (st : Option Str × Option (List Field)),
      (l.foldl (fun st p => (some p.1, match p.2 with
        | some fs => some fs
        | none => st.2)) st).1 = ((l.map Prod.fst).getLast?).or st.1 ∧
      (l.foldl (fun st p => (some p.1, match p.2 with
        | some fs => some fs
        | none => st.2)) st).2 = ((l.filterMap Prod.snd).getLast?).or st.2 := by
    intro l
    induction l with
    | nil => intro st; simp
    | cons p l ih =>
      intro st
      rw [List.foldl_cons]
      have := ih (some p.1, match p.2 with
        | some fs => some fs
        | none => st.2)
      rw [this.1, this.2, List.map_cons, List.filterMap_cons]
      obtain ⟨n, o⟩ := p
      cases o with
      | none => simp [List.getLast?_cons]
      | some fs =>
        simp [List.getLast?_cons]
  have := h specs (none, none)
  exact ⟨this.1.trans (by simp), this.2.trans (by simp)⟩

/-! ## The comments of a source -/

/-- What the comment loop has collected: in terms of the kinds of the comments. -/
theorem commentFold_contents (file : Str) (g : List CommentLine) (l : List Str) (t : Table) (idx : List Gen.Stmt) :
    let r := l.foldl (commentStep file g) (t, idx)
    r.1.sourceFile = t.sourceFile ∧ r.1.sourceLine = t.sourceLine ∧
    r.1.createTable = (((l.filterMap (fun s => match classify s with | .table x => some (setCreateTable x) | _ => none)).getLast?).getD t.createTable) ∧
    r.1.constraints = t.constraints ++ l.filterMap (fun s => match classify s with | .constraint x => some ⟨[], x⟩ | _ => none) ∧
    r.1.options = t.options ++ l.filterMap (fun s => match classify s with | .option x => some ⟨[], x⟩ | _ => none) ∧
    r.2 = idx ++ l.filterMap (fun s => match classify s with
      | .index x => some (.index ⟨file, (commentLine g s).getD 0, [s], setCreateIndex x⟩) | _ => none) := by
  induction l generalizing t idx with
  | nil => simp
  | cons c r ih =>
    simp only [List.foldl_cons]
    have := ih (commentStep file g (t, idx) c).1 (commentStep file g (t, idx) c).2
    refine ⟨this.1.trans ?_, this.2.1.trans ?_, this.2.2.1.trans ?_, this.2.2.2.1.trans ?_, this.2.2.2.2.1.trans ?_,
      this.2.2.2.2.2.trans ?_⟩ <;> simp only [commentStep, List.filterMap_cons]
    all_goals cases hc : classify c <;> simp [List.getLast?_cons]

/-! ## Comment texts -/

theorem trimPrefix_of_not {s p : Str} (h : ¬ p <+: s) : trimPrefix s p = s := by
  unfold trimPrefix
  rw [if_neg (by rwa [List.isPrefixOf_iff_prefix])]

theorem trimPrefix_append (p s : Str) : trimPrefix (p ++ s) p = s := by
  unfold trimPrefix
  rw [if_pos (List.isPrefixOf_iff_prefix.2 (List.prefix_append _ _)), List.drop_left]

theorem spaceWidth_visible {c : Char} {r : Str} (h1 : 33 ≤ c.toNat) (h2 : c.toNat < 127) : spaceWidth (c :: r) = 0 := by
  have hc : c ≠ ' ' := fun e => by rw [e] at h1; exact absurd h1 (by decide)
  unfold spaceWidth
  dsimp only
  rw [if_neg (by simp [hc]; omega)]
  split <;> first | rfl | omega

theorem trimSpaces_eq {b s : Str} (hb : ∀ c ∈ b, c = ' ' ∨ c = '\t') (hs : s = [] ∨ ∃ c r, s = c :: r ∧ 33 ≤ c.toNat ∧ c.toNat < 127)
    (n : Nat) (hn : b.length ≤ n) : trimSpaces n (b ++ s) = s := by
  have h0 : spaceWidth s = 0 := by
    rcases hs with rfl | ⟨c, r, rfl, h1, h2⟩
    · rfl
    · exact spaceWidth_visible h1 h2
  induction b generalizing n with
  | nil =>
    cases n with
    | zero => rfl
    | succ n => rw [List.nil_append, trimSpaces, if_pos h0]
  | cons c b ih =>
    cases n with
    | zero => simp at hn
    | succ n =>
      have hw : spaceWidth (c :: (b ++ s)) = 1 := by
        rcases hb c (by simp) with rfl | rfl <;> rfl
      rw [List.cons_append, trimSpaces, hw, if_neg (by decide)]
      exact ih (fun c hc => hb c (by simp [hc])) n (by simpa using hn)

theorem trimComment_eq {raw s : Str} (h : CommentText raw s) : trimComment raw = s := by
  obtain ⟨m, b, rfl, hm, hb, hs, h1, h2⟩ := h
  have e : trimPrefix (trimPrefix (trimPrefix (m ++ b ++ s) s%"//") s%"/*") s%"*/" = b ++ s := by
    rw [List.append_assoc]
    rcases hm with rfl | rfl
    · rw [trimPrefix_append, trimPrefix_of_not h1, trimPrefix_of_not h2]
    · rw [trimPrefix_of_not (p := s%"//") (by simp), trimPrefix_append, trimPrefix_of_not h2]
  simp only [trimComment, e]
  exact trimSpaces_eq hb hs _ (by simp)

theorem kindOf_inj {k k' : Key} {x y : Str} : kindOf k x = kindOf k' y ↔ k = k' ∧ x = y := by
  cases k <;> cases k' <;> simp [kindOf]

theorem says_kind {P : Str → Prop} {s : Str} {a : Option (Key × Str)} (h : Says P s a) :
    classify s = (match a with | some (k, x) => kindOf k x | none => .plain) := by
  cases a with
  | none => exact classify_plain.2 h
  | some p =>
    obtain ⟨k, x⟩ := p
    obtain ⟨w, -, hw⟩ := h
    exact classify_annLine hw

/-- Texts of the annotations in a list of comments. -/
theorem says_texts {P : Str → Prop} {l : List Str} {as : List (Option (Key × Str))} (h : List.Forall₂ (Says P) l as) (key : Key) :
    l.filterMap (fun s => match classify s with
      | .index x => if Key.index = key then some x else none
      | .table x => if Key.table = key then some x else none
      | .constraint x => if Key.constraint = key then some x else none
      | .option x => if Key.option = key then some x else none
      | .plain => none) = textsOf key as := by
  induction h with
  | nil => rfl
  | @cons s a l as h _ ih =>
    rw [List.filterMap_cons, ih, says_kind h]
    unfold textsOf
    rw [List.filterMap_cons]
    cases a with
    | none => rfl
    | some p =>
      obtain ⟨k, x⟩ := p
      cases k <;> rfl

theorem fieldStep_keeps {env : Env} {tn : Str} {t t' : Table} {fd : Field} (h : fieldStep env tn t fd = .ok t') :
    t'.createTable = t.createTable ∧ t'.constraints = t.constraints ∧ t'.options = t.options ∧
    t'.sourceFile = t.sourceFile ∧ t'.sourceLine = t.sourceLine := by
  cases ht : fd.tag with
  | none => unfold fieldStep at h; rw [ht] at h; cases h
  | some tag =>
    obtain ⟨ps, hps⟩ := fieldPairs_exists env (f := fd) (by simp [ht])
    exact (fieldStep_ok (tags := fun _ => ps) hps h).2.2

theorem fieldLoop_keeps {env : Env} {tn : Str} {l : List Field} {t t' : Table} (h : fieldLoop env tn t l = .ok t') :
    t'.createTable = t.createTable ∧ t'.constraints = t.constraints ∧ t'.options = t.options ∧
    t'.sourceFile = t.sourceFile ∧ t'.sourceLine = t.sourceLine := by
  induction l generalizing t with
  | nil => cases h; simp
  | cons x r ih =>
    rw [fieldLoop] at h
    cases hx : fieldStep env tn t x <;> rw [hx] at h <;> try (simp at h; done)
    rename_i t1
    have h1 := fieldStep_keeps hx
    have h2 := ih (t := t1) h
    exact ⟨h2.1.trans h1.1, h2.2.1.trans h1.2.1, h2.2.2.1.trans h1.2.2.1, h2.2.2.2.1.trans h1.2.2.2.1,
      h2.2.2.2.2.trans h1.2.2.2.2⟩

theorem setCreateTable_ne (s : Str) : setCreateTable s ≠ [] := by
  unfold setCreateTable
  split
  · rename_i h
    intro e
    rw [e] at h
    exact absurd h (by decide)
  · simp

/-- The table and the indexes in terms of the kinds of the comments. -/
theorem translateTable_contents {env : Env} {r : Source} {t : Table} {idx : List Gen.Stmt} (h : translateTable env r = .ok (t, idx)) :
    let l := r.comments.map (fun c => trimComment c.text)
    t.sourceFile = r.file ∧ t.sourceLine = r.line ∧
    t.createTable = (((l.filterMap (fun s => match classify s with | .table x => some (setCreateTable x) | _ => none)).getLast?).or
      (r.typeName.map setCreateTable)).getD [] ∧
    t.constraints = l.filterMap (fun s => match classify s with | .constraint x => some ⟨[], x⟩ | _ => none) ∧
    t.options = l.filterMap (fun s => match classify s with | .option x => some ⟨[], x⟩ | _ => none) ∧
    idx = l.filterMap (fun s => match classify s with
      | .index x => some (.index ⟨r.file, (commentLine r.comments s).getD 0, [s], setCreateIndex x⟩) | _ => none) := by
  intro l
  have hf := commentFold_contents r.file r.comments l ⟨r.file, r.line, [], [], [], [], [], []⟩ []
  simp only [translateTable] at hf h
  generalize l.foldl (commentStep r.file r.comments) (⟨r.file, r.line, [], [], [], [], [], []⟩, []) = st at hf h
  obtain ⟨h1, h2, h3, h4, h5, h6⟩ := hf
  have hd : (defaultName env r st.1).createTable = (((l.filterMap (fun s => match classify s with | .table x => some (setCreateTable x) | _ => none)).getLast?).or
      (r.typeName.map setCreateTable)).getD [] ∧ (defaultName env r st.1).constraints = st.1.constraints ∧
      (defaultName env r st.1).options = st.1.options ∧ (defaultName env r st.1).sourceFile = st.1.sourceFile ∧
      (defaultName env r st.1).sourceLine = st.1.sourceLine := by
    unfold defaultName
    rw [h3]
    cases hn : r.typeName with
    | none => simp [h3]
    | some n =>
      cases hl : (l.filterMap (fun s => match classify s with | .table x => some (setCreateTable x) | _ => none)).getLast? with
      | none => simp
      | some x =>
        have : x ≠ [] := by
          have := List.mem_of_getLast? hl
          rw [List.mem_filterMap] at this
          obtain ⟨s, -, hs⟩ := this
          split at hs
          · cases hs; exact setCreateTable_ne _
          · cases hs
        simp only [Option.getD_some]
        rw [if_neg this]
        simp [h3, hl]
  generalize defaultName env r st.1 = t1 at hd h
  have ha : ∀ t, (addWarnings env r t).createTable = t.createTable ∧ (addWarnings env r t).constraints = t.constraints ∧
      (addWarnings env r t).options = t.options ∧ (addWarnings env r t).sourceFile = t.sourceFile ∧
      (addWarnings env r t).sourceLine = t.sourceLine := by
    intro t
    unfold addWarnings
    split
    · simp
    · split <;> simp
  have hs : ∀ t2, structColumns env r t1 = .ok t2 → t2.createTable = t1.createTable ∧ t2.constraints = t1.constraints ∧
      t2.options = t1.options ∧ t2.sourceFile = t1.sourceFile ∧ t2.sourceLine = t1.sourceLine := by
    intro t2 ht
    unfold structColumns at ht
    split at ht
    · exact fieldLoop_keeps ht
    · cases ht; simp
  cases hr : structColumns env r t1 <;> rw [hr] at h <;> try (simp at h; done)
  rename_i t2
  simp only [Res.ok_bind, Res.ok.injEq, Prod.mk.injEq] at h
  obtain ⟨rfl, rfl⟩ := h
  obtain ⟨a1, a2, a3, a4, a5⟩ := ha t2
  obtain ⟨b1, b2, b3, b4, b5⟩ := hs t2 hr
  obtain ⟨c1, c2, c3, c4, c5⟩ := hd
  exact ⟨by rw [a4, b4, c4, h1], by rw [a5, b5, c5, h2], by rw [a1, b1, c1], by rw [a2, b2, c2, h4]; rfl,
    by rw [a3, b3, c3, h5]; rfl, by rw [h6]; rfl⟩

theorem filterMap_forall₂ {α β : Type} {R : Str → β → Prop} (l : List α) (f : α → Option Str) (g : α → Option β)
    (h : ∀ a ∈ l, (f a = none ∧ g a = none) ∨ ∃ x y, f a = some x ∧ g a = some y ∧ R x y) :
    List.Forall₂ R (l.filterMap f) (l.filterMap g) := by
  induction l with
  | nil => exact .nil
  | cons a l ih =>
    have ih := ih (fun b hb => h b (by simp [hb]))
    rcases h a (by simp) with ⟨h1, h2⟩ | ⟨x, y, h1, h2, h3⟩
    · rw [List.filterMap_cons, List.filterMap_cons, h1, h2]; exact ih
    · rw [List.filterMap_cons, List.filterMap_cons, h1, h2]; exact .cons h3 ih

/-- What the code makes of the comments of a source, whatever the words in front of the keys. -/
theorem contents_any {P : Str → Prop} {env : Env} {r : Source} {txt : CommentLine → Str} {as : List (Option (Key × Str))} {t : Table}
    {idx : List Gen.Stmt} (hc : ∀ c ∈ r.comments, CommentText c.text (txt c))
    (ha : List.Forall₂ (Says P) (r.comments.map txt) as) (h : translateTable env r = .ok (t, idx)) :
    ((textsOf .table as).getLast?.or r.typeName).elim (t.createTable = []) (fun x => Creates s%"TABLE" x t.createTable) ∧
    t.constraints.map (·.text) = textsOf .constraint as ∧
    t.options.map (·.text) = textsOf .option as ∧
    List.Forall₂ (fun x s => ∃ i, s = Gen.Stmt.index i ∧ Creates s%"INDEX" x i.createIndex) (textsOf .index as) idx := by
  have hl : r.comments.map (fun c => trimComment c.text) = r.comments.map txt :=
    List.map_congr_left (fun c hcm => trimComment_eq (hc c hcm))
  obtain ⟨-, -, h3, h4, h5, h6⟩ := translateTable_contents h
  rw [hl] at h3 h4 h5 h6
  rw [h3, h4, h5, h6]
  generalize r.comments.map txt = l at *
  refine ⟨?_, ?_, ?_, ?_⟩
  · have e : l.filterMap (fun s => match classify s with | .table x => some (setCreateTable x) | _ => none) =
        (textsOf .table as).map setCreateTable := by
      rw [← says_texts ha .table, List.map_filterMap]
      refine List.filterMap_congr (fun s _ => ?_)
      cases classify s <;> simp
    rw [e, List.getLast?_map]
    cases (textsOf .table as).getLast? with
    | some x => exact creates_table.2 rfl
    | none =>
      cases r.typeName with
      | some n => exact creates_table.2 rfl
      | none => rfl
  · rw [← says_texts ha .constraint, List.map_filterMap]
    refine List.filterMap_congr (fun s _ => ?_)
    cases classify s <;> simp
  · rw [← says_texts ha .option, List.map_filterMap]
    refine List.filterMap_congr (fun s _ => ?_)
    cases classify s <;> simp
  · rw [← says_texts ha .index]
    refine filterMap_forall₂ _ _ _ (fun s _ => ?_)
    cases classify s <;> simp
    exact creates_index.2 rfl

end Ddl
