import Verif.Spec.Apply
import Verif.Spec.Comment
import Verif.Lemmas.Cmd

/-! Lemmas about `apply`. -/

namespace Ddl
open Spec Cmd Ddl.Apply
set_option autoImplicit false

/-! ## Lines -/

/-- A text is one line or starts with a line and a line feed. -/
theorem line_cases : ∀ s : Str, '\n' ∉ s ∨ ∃ l r, '\n' ∉ l ∧ s = l ++ '\n' :: r
  | [] => .inl (by simp)
  | c :: s => by
    by_cases hc : c = '\n'
    · exact .inr ⟨[], s, by simp, by simp [hc]⟩
    · rcases line_cases s with h | ⟨l, r, h, rfl⟩
      · exact .inl (by simp [h, Ne.symm hc])
      · exact .inr ⟨c :: l, r, by simp [h, Ne.symm hc], rfl⟩

theorem rawLines_line : ∀ (l acc r : Str), '\n' ∉ l → rawLines acc (l ++ '\n' :: r) = (acc.reverse ++ l) :: rawLines [] r
  | [], acc, r, _ => by simp [rawLines]
  | c :: l, acc, r, h => by
    have hc : c ≠ '\n' := by rintro rfl; simp at h
    rw [List.cons_append, rawLines, if_neg hc, rawLines_line l (c :: acc) r (by simp at h; exact h.2)]
    simp

theorem rawLines_last : ∀ (l acc : Str), '\n' ∉ l → rawLines acc l = if acc.reverse ++ l = [] then [] else [acc.reverse ++ l]
  | [], acc, _ => by simp [rawLines]
  | c :: l, acc, h => by
    have hc : c ≠ '\n' := by rintro rfl; simp at h
    rw [rawLines, if_neg hc, rawLines_last l (c :: acc) (by simp at h; exact h.2)]
    simp

theorem scanLines_line {l r : Str} (hl : '\n' ∉ l) (hs : l.length < maxLine) :
    scanLines (l ++ '\n' :: r) = dropCR l :: scanLines r := by
  simp [scanLines, rawLines_line l [] r hl, hs]

theorem scanLines_nil : scanLines [] = [] := rfl

theorem scanLines_last {l : Str} (hl : '\n' ∉ l) (hs : l.length < maxLine) (hne : l ≠ []) : scanLines l = [dropCR l] := by
  simp [scanLines, rawLines_last l [] hl, hs, hne]

theorem removeComments_line {p l r : Str} (hl : '\n' ∉ l) (hs : l.length < maxLine) :
    removeComments p (l ++ '\n' :: r) = keepLine p (dropCR l) ++ removeComments p r := by
  simp [removeComments, scanLines_line hl hs]

/-! ## The answer to the prompt -/

theorem dropCR_yes {l : Str} : dropCR l = s%"yes" ↔ l = s%"yes" ∨ l = s%"yes\r" := by
  constructor
  · intro h
    unfold dropCR at h
    split at h
    · rename_i hl
      have hne : l ≠ [] := by rintro rfl; simp at hl
      have := List.dropLast_concat_getLast hne
      rw [List.getLast?_eq_getLast_of_ne_nil hne, Option.some.injEq] at hl
      rw [h, hl] at this
      exact .inr this.symm
    · exact .inl h
  · rintro (rfl | rfl) <;> rfl

theorem prompt_ok {stdin : Str} : prompt stdin = .ok () ↔ TypedYes stdin := by
  have key : prompt stdin = .ok () ↔ (scanLines stdin).head?.getD [] = s%"yes" := by
    unfold prompt; split <;> simp_all
  rw [key]
  constructor
  · intro h
    rcases line_cases stdin with hn | ⟨l, r, hl, rfl⟩
    · by_cases hs : stdin.length < maxLine
      · by_cases hne : stdin = []
        · subst hne; simp [scanLines_nil] at h
        · rw [scanLines_last hn hs hne] at h
          rcases dropCR_yes.1 h with h | h
          · exact .inl h
          · exact .inr (.inl h)
      · simp only [scanLines, rawLines_last stdin [] hn] at h
        split at h <;> simp [hs] at h
    · by_cases hs : l.length < maxLine
      · rw [scanLines_line hl hs] at h
        rcases dropCR_yes.1 h with h | h
        · exact .inr (.inr ⟨r, .inl (by simp [h])⟩)
        · exact .inr (.inr ⟨r, .inr (by simp [h])⟩)
      · simp [scanLines, rawLines_line l [] r hl, hs] at h
  · rintro (rfl | rfl | ⟨rest, rfl | rfl⟩)
    · decide
    · decide
    · have := scanLines_line (l := s%"yes") (r := rest) (by decide) (by decide)
      rw [show s%"yes\n" ++ rest = s%"yes" ++ '\n' :: rest from rfl, this]; rfl
    · have := scanLines_line (l := s%"yes\r") (r := rest) (by decide) (by decide)
      rw [show s%"yes\r\n" ++ rest = s%"yes\r" ++ '\n' :: rest from rfl, this]; rfl

/-! ## Trimming -/

theorem trimFront_suffix (sp : List Str) : ∀ (n : Nat) (s : Str), trimFront sp n s <:+ s
  | 0, s => List.suffix_refl s
  | n + 1, s => by
    unfold trimFront
    split
    · exact (trimFront_suffix sp n _).trans (List.drop_suffix _ _)
    · exact List.suffix_refl s

theorem trimSpace_infix (s : Str) : trimSpace s <:+: s := by
  have h1 : trimFront spaces s.length s <:+ s := trimFront_suffix _ _ _
  have h2 := trimFront_suffix (spaces.map List.reverse) (trimFront spaces s.length s).length (trimFront spaces s.length s).reverse
  have h3 : trimSpace s <+: trimFront spaces s.length s := by
    have := List.reverse_prefix.2 h2
    rwa [List.reverse_reverse] at this
  exact h3.isInfix.trans h1.isInfix

theorem trimFront_keep {sp : List Str} {d : Char} {y : Str} (hsp : ∀ p ∈ sp, d ∉ p) : ∀ (n : Nat) (x : Str),
    ∃ x', trimFront sp n (x ++ d :: y) = x' ++ d :: y
  | 0, x => ⟨x, rfl⟩
  | n + 1, x => by
    unfold trimFront
    split
    · rename_i p hp
      have hpm := List.mem_of_find?_eq_some hp
      have hpp : p <+: x ++ d :: y := by
        have := List.find?_some hp
        simpa [hasPrefix] using this
      have hle : p.length ≤ x.length := by
        by_contra hlt
        apply hsp p hpm
        rw [List.prefix_iff_eq_take.1 hpp]
        have : p.length = x.length + (p.length - x.length - 1 + 1) := by omega
        rw [this, List.take_length_add_append, List.take_succ_cons]
        simp
      rw [List.drop_append_of_le_length hle]
      exact trimFront_keep hsp n _
    · exact ⟨x, rfl⟩

theorem spaces_noDash : ∀ p ∈ spaces, '-' ∉ p := by decide

theorem spaces_rev_noDash : ∀ p ∈ spaces.map List.reverse, '-' ∉ p := by decide

theorem trimSpace_dashes (l : Str) : ∃ l', trimSpace ('-' :: '-' :: l) = '-' :: '-' :: l' := by
  have h1 : trimFront spaces ('-' :: '-' :: l).length ('-' :: '-' :: l) = '-' :: '-' :: l := by
    rw [List.length_cons, trimFront]
    have : spaces.find? (fun p => hasPrefix ('-' :: '-' :: l) p) = none := by
      simp [spaces, hasPrefix]
    rw [this]
  unfold trimSpace
  rw [h1]
  simp only [List.reverse_cons, List.append_assoc, List.singleton_append]
  obtain ⟨x', hx⟩ := trimFront_keep (d := '-') (y := ['-']) spaces_rev_noDash ('-' :: '-' :: l).length l.reverse
  rw [hx]
  exact ⟨x'.reverse, by simp⟩

/-! ## Removing comments -/

theorem before_none {p : Str} (hp : p ≠ []) : ∀ {s : Str}, ¬ p <:+: s → before p s = none
  | [], _ => by simp [before, hp]
  | c :: r, h => by
    have h1 : hasPrefix (c :: r) p = false := by
      rw [Bool.eq_false_iff]
      intro h'
      exact h (by simpa [hasPrefix] using (List.isPrefixOf_iff_prefix.1 h').isInfix)
    have h2 : ¬ p <:+: r := fun h' => h (h'.trans (List.suffix_cons c r).isInfix)
    simp [before, h1, before_none hp h2]

theorem keepLine_clean {l : Str} (h : ¬ s%"--" <:+: l) (hne : l ≠ []) : keepLine s%"--" l = l ++ s%"\n" := by
  have h1 : hasPrefix (trimSpace l) s%"--" = false := by
    rw [Bool.eq_false_iff]
    intro h'
    exact h ((List.isPrefixOf_iff_prefix.1 h').isInfix.trans (trimSpace_infix l))
  simp [keepLine, h1, before_none (by simp) h, hne]

theorem keepLine_comment (l : Str) : keepLine s%"--" ('-' :: '-' :: l) = [] := by
  obtain ⟨l', h⟩ := trimSpace_dashes l
  simp [keepLine, h, hasPrefix]

theorem dropCR_dashes (l : Str) : ∃ l', dropCR ('-' :: '-' :: l) = '-' :: '-' :: l' := by
  unfold dropCR
  split
  · cases l with
    | nil => simp_all
    | cons c r => exact ⟨(c :: r).dropLast, rfl⟩
  · exact ⟨l, rfl⟩

theorem dropCR_of_ne {l : Str} (h : l.getLast? ≠ some '\r') : dropCR l = l := if_neg h

theorem shortLines_infix {s t : Str} (h : ShortLines t) (hs : s <:+: t) : ShortLines s :=
  fun l h1 h2 => h l h1 (h2.trans hs)

theorem getLast?_append_cr {l x : Str} (h : l.getLast? = some '\r') : s%"\r\n" <:+: l ++ '\n' :: x := by
  obtain ⟨p, rfl⟩ := List.getLast?_eq_some_iff.1 h
  exact ⟨p, x, by simp⟩

/-- A block of lines that is kept as it is. -/
theorem removeComments_block (r : Str) : ∀ (n : Nat) (t : Str), t.length ≤ n → t ≠ [] → ShortLines t → ¬ s%"--" <:+: t →
    ¬ s%"\n\n" <:+: t → t.head? ≠ some '\n' → ¬ s%"\r\n" <:+: t → t.getLast? ≠ some '\r' → t.getLast? ≠ some '\n' →
    removeComments s%"--" (t ++ '\n' :: r) = t ++ '\n' :: removeComments s%"--" r
  | 0, t, hn, hne, _, _, _, _, _, _, _ => absurd (List.length_eq_zero_iff.1 (Nat.le_zero.1 hn)) hne
  | n + 1, t, hn, hne, hs, h1, h2, h3, h4, h5, h6 => by
    rcases line_cases t with ht | ⟨l, t', hl, rfl⟩
    · rw [removeComments_line ht (hs t ht (List.infix_refl t)), dropCR_of_ne h5, keepLine_clean h1 hne]
      simp
    · have hlne : l ≠ [] := by rintro rfl; simp at h3
      have hil : l <:+: l ++ '\n' :: t' := (List.prefix_append _ _).isInfix
      have hit : t' <:+: l ++ '\n' :: t' := ⟨l ++ ['\n'], [], by simp⟩
      have ht'ne : t' ≠ [] := by rintro rfl; simp at h6
      have hcr : l.getLast? ≠ some '\r' := fun h => h4 (getLast?_append_cr h)
      rw [List.append_assoc, List.cons_append, removeComments_line hl (hs l hl hil), dropCR_of_ne hcr,
        keepLine_clean (fun h => h1 (h.trans hil)) hlne]
      have ih := removeComments_block r n t' (by simp at hn; omega) ht'ne (shortLines_infix hs hit) (fun h => h1 (h.trans hit))
        (fun h => h2 (h.trans hit)) (by
          intro h
          cases t' with
          | nil => exact ht'ne rfl
          | cons c x =>
            simp at h
            subst h
            exact h2 ⟨l, x, by simp⟩) (fun h => h4 (h.trans hit)) (by
          intro h
          apply h5
          rw [List.getLast?_append, List.getLast?_cons, h]; rfl) (by
          intro h
          apply h6
          rw [List.getLast?_append, List.getLast?_cons, h]; rfl)
      rw [ih]
      simp

theorem infix_snoc {p b : Str} {c : Char} (hc : c ∉ p) (hp : p ≠ []) (h : p <:+: b ++ [c]) : p <:+: b := by
  obtain ⟨x, y, hxy⟩ := h
  rcases List.eq_nil_or_concat y with rfl | ⟨y', z, rfl⟩
  · rcases List.eq_nil_or_concat p with rfl | ⟨p', z, rfl⟩
    · exact absurd rfl hp
    · exfalso
      have : z = c := by
        have := congrArg List.getLast? hxy
        simpa using this
      simp [this] at hc
  · refine ⟨x, y', ?_⟩
    have := congrArg List.dropLast hxy
    simpa [← List.append_assoc] using this

/-- Removing comments leaves the statements. -/
theorem removeComments_shown {t : Str} {bodies : List Str} (h : Shown t bodies) (hs : ShortLines t) :
    removeComments s%"--" t = (bodies.map (fun b => b ++ s%";\n")).flatten := by
  induction h with
  | nil => rfl
  | comment line rest bodies hl _ ih =>
    have e : s%"--" ++ line ++ s%"\n" ++ rest = (s%"--" ++ line) ++ '\n' :: rest := by simp
    have hl' : '\n' ∉ s%"--" ++ line := by simpa using hl
    rw [e] at hs ⊢
    rw [removeComments_line hl' (hs _ hl' (List.prefix_append _ _).isInfix),
      ih (shortLines_infix hs ⟨s%"--" ++ line ++ s%"\n", [], by simp⟩)]
    obtain ⟨l', h⟩ := dropCR_dashes line
    rw [show s%"--" ++ line = '-' :: '-' :: line from rfl, h, keepLine_comment]
    rfl
  | stmt body rest bodies hc _ ih =>
    have e : body ++ s%";\n" ++ rest = (body ++ [';']) ++ '\n' :: rest := by simp
    rw [e] at hs ⊢
    rw [removeComments_block rest _ (body ++ [';']) (Nat.le_refl _) (by simp)
      (shortLines_infix hs (List.prefix_append _ _).isInfix)
      (fun h => hc.noDashes (infix_snoc (by decide) (by simp) h))
      (fun h => hc.noEmptyLine (infix_snoc (by decide) (by simp) h)) (by
        have := hc.noFirstEmpty
        have hne := hc.nonempty
        cases body with
        | nil => exact absurd rfl hne
        | cons c r => simpa using this)
      (fun h => hc.noCR (infix_snoc (by decide) (by simp) h)) (by simp) (by simp),
      ih (shortLines_infix hs ⟨body ++ s%";\n", [], by simp⟩)]
    simp

theorem splitStmts_stmt : ∀ (b r : Str), ¬ s%";\n" <:+: b → splitStmts (b ++ s%";\n" ++ r) = b :: splitStmts r
  | [], r, _ => by simp [splitStmts]
  | c :: b, r, h => by
    have ih := splitStmts_stmt b r (fun h' => h (h'.trans (List.suffix_cons c b).isInfix))
    cases b with
    | nil =>
      simp only [List.nil_append, List.cons_append] at ih ⊢
      rw [splitStmts, if_neg (by simp), ih]
    | cons d b =>
      simp only [List.cons_append] at ih ⊢
      rw [splitStmts, if_neg, ih]
      rintro ⟨rfl, rfl⟩
      exact h ⟨[], b, rfl⟩

theorem splitStmts_bodies : ∀ (bodies : List Str), (∀ b ∈ bodies, ¬ s%";\n" <:+: b) →
    splitStmts (bodies.map (fun b => b ++ s%";\n")).flatten = bodies ++ [[]]
  | [], _ => rfl
  | b :: bs, h => by
    rw [List.map_cons, List.flatten_cons, splitStmts_stmt b _ (h b (by simp)), splitStmts_bodies bs (fun x hx => h x (by simp [hx]))]
    rfl

theorem shown_clean {t : Str} {bodies : List Str} (h : Shown t bodies) : ∀ b ∈ bodies, Clean b := by
  induction h with
  | nil => simp
  | comment _ _ _ _ _ ih => exact ih
  | stmt body rest bodies hc _ ih =>
    intro b hb
    rcases List.mem_cons.1 hb with rfl | hb
    · exact hc
    · exact ih b hb

theorem pieces_shown {t : Str} {bodies : List Str} (h : Shown t bodies) (hs : ShortLines t) :
    splitStmts (removeComments s%"--" t) = bodies ++ [[]] := by
  rw [removeComments_shown h hs, splitStmts_bodies bodies (fun b hb => (shown_clean h b hb).noEnd)]

theorem dropLines_block {f : Str → Str} (hf : DropsCommentLines f) (r : Str) : ∀ (n : Nat) (t : Str), t.length ≤ n →
    ¬ s%"--" <:+: t → f (t ++ '\n' :: r) = t ++ '\n' :: f r
  | 0, t, hn, _ => by
    have := List.length_eq_zero_iff.1 (Nat.le_zero.1 hn)
    subst this
    simpa using hf.keep [] r (by simp) (by simp)
  | n + 1, t, hn, h1 => by
    rcases line_cases t with ht | ⟨l, t', hl, rfl⟩
    · simpa using hf.keep t r ht (fun h => h1 h.isInfix)
    · have hil : l <:+: l ++ '\n' :: t' := (List.prefix_append _ _).isInfix
      have hit : t' <:+: l ++ '\n' :: t' := ⟨l ++ ['\n'], [], by simp⟩
      have := hf.keep l (t' ++ '\n' :: r) hl (fun h => h1 (h.isInfix.trans hil))
      rw [dropLines_block hf r n t' (by simp at hn; omega) (fun h => h1 (h.trans hit))] at this
      simpa using this

theorem dropLines_shown {f : Str → Str} (hf : DropsCommentLines f) {t : Str} {bodies : List Str} (h : Shown t bodies) :
    f t = (bodies.map (fun b => b ++ s%";\n")).flatten := by
  induction h with
  | nil => exact hf.nil
  | comment line rest bodies hl _ ih => rw [hf.comment line rest hl, ih]
  | stmt body rest bodies hc _ ih =>
    have e : body ++ s%";\n" ++ rest = (body ++ [';']) ++ '\n' :: rest := by simp
    rw [e, dropLines_block hf rest _ (body ++ [';']) (Nat.le_refl _) (fun h => hc.noDashes (infix_snoc (by decide) (by simp) h)), ih]
    simp

/-! ## Execution -/

theorem answered_snoc {db : Hist → Str → Option Str} {h : Hist} {q : Str} {r : Option Str} (ha : Answered db h) (hr : r = db h q) :
    Answered db (h ++ [(q, r)]) := by
  intro a q' r' b e
  rcases List.eq_nil_or_concat b with rfl | ⟨b', z, rfl⟩
  · obtain ⟨h1, h2⟩ := List.append_inj' e rfl
    simp only [List.cons.injEq, Prod.mk.injEq, and_true] at h2
    rw [← h1, ← h2.1, ← h2.2]
    exact hr
  · have : h = a ++ (q', r') :: b' := by
      rw [List.concat_eq_append, ← List.cons_append, ← List.append_assoc] at e
      exact (List.append_inj' e rfl).1
    exact ha a q' r' b' this

/-- The nonempty pieces. -/
def nonempty (qs : List Str) : List Str := qs.filter (fun q => !q.isEmpty)

@[simp] theorem nonempty_nil : nonempty [] = [] := rfl

@[simp] theorem nonempty_empty (qs : List Str) : nonempty ([] :: qs) = nonempty qs := rfl

@[simp] theorem nonempty_cons {q : Str} (h : q ≠ []) (qs : List Str) : nonempty (q :: qs) = q :: nonempty qs := by
  cases q with
  | nil => exact absurd rfl h
  | cons c r => rfl

theorem pass_spec (db : Hist → Str → Option Str) (ig : Str → Bool) : ∀ (qs : List Str) (h : Hist) (err : Option Str),
    Answered db h → ∃ p : Hist, (pass db ig qs h err).1 = h ++ p ∧ p.map Prod.fst = nonempty qs ∧ Answered db (h ++ p) ∧
      ((pass db ig qs h err).2 = none ↔ err = none ∧ ∀ x ∈ p, Tolerated (fun m => ig m = true) x.2)
  | [], h, err, ha => ⟨[], by simp [pass], by simp, by simpa using ha, by simp [pass]⟩
  | q :: qs, h, err, ha => by
    unfold pass
    split
    · rename_i hq
      obtain ⟨p, h1, h2, h3, h4⟩ := pass_spec db ig qs h err ha
      exact ⟨p, h1, by simp [h2, hq], h3, h4⟩
    · rename_i hq
      split
      · rename_i hdb
        obtain ⟨p, h1, h2, h3, h4⟩ := pass_spec db ig qs _ err (answered_snoc ha hdb.symm)
        refine ⟨(q, none) :: p, by simp [h1], by simp [h2, hq], by simpa using h3, ?_⟩
        rw [h4]
        simp [Tolerated]
      · rename_i m hdb
        obtain ⟨p, h1, h2, h3, h4⟩ := pass_spec db ig qs (h ++ [(q, some m)]) (if ig m then err else some m) (answered_snoc ha hdb.symm)
        refine ⟨(q, some m) :: p, by simp [h1], by simp [h2, hq], by simpa using h3, ?_⟩
        rw [h4]
        cases hm : ig m <;> simp [Tolerated, hm]

/-- The passes of a retry loop. -/
theorem retryLoop_spec (w : Site) (ig : Str → Bool) (qs : List Str) : ∀ (n : Nat) (h : Hist), Answered w.db h →
    ∃ ps : List Hist, (retryLoop w ig qs n h).1 = h ++ ps.flatten ∧ ps.length ≤ n ∧
      (∀ p ∈ ps, p.map Prod.fst = nonempty qs) ∧ Answered w.db (h ++ ps.flatten) ∧
      ((retryLoop w ig qs n h).2 = .ok () → ∃ ps' p, ps = ps' ++ [p] ∧ ∀ x ∈ p, Tolerated (fun m => ig m = true) x.2) ∧
      (∀ a p b, ps = a ++ p :: b → b ≠ [] → ∃ x ∈ p, ¬ Tolerated (fun m => ig m = true) x.2)
  | 0, h, ha => ⟨[], by simp [retryLoop], by simp, by simp, by simpa using ha, by simp [retryLoop], by simp⟩
  | n + 1, h, ha => by
    unfold retryLoop
    split
    · exact ⟨[], by simp, by simp, by simp, by simpa using ha, by simp, by simp⟩
    · obtain ⟨p, h1, h2, h3, h4⟩ := pass_spec w.db ig qs h none ha
      split
      · rename_i h' heq
        rw [heq] at h1 h4
        subst h1
        refine ⟨[p], by simp, by simp, by simpa using h2, by simpa using h3, fun _ => ⟨[], p, rfl, (h4.1 rfl).2⟩, ?_⟩
        intro a p' b e hb
        rcases a with _ | ⟨_, a⟩ <;> simp at e
        exact absurd e.2 hb
      · rename_i h' e heq
        rw [heq] at h1 h4
        simp only at h1
        subst h1
        obtain ⟨ps, g1, g2, g3, g4, g5, g6⟩ := retryLoop_spec w ig qs n (h ++ p) h3
        refine ⟨p :: ps, by simp [g1], by simpa using g2, ?_, by simpa using g4, ?_, ?_⟩
        · intro x hx
          rcases List.mem_cons.1 hx with rfl | hx
          · exact h2
          · exact g3 x hx
        · intro hok
          obtain ⟨ps', p', e', hp⟩ := g5 hok
          exact ⟨p :: ps', p', by simp [e'], hp⟩
        · intro a p' b e' hb
          cases a with
          | nil =>
            simp at e'
            rw [← e'.1]
            by_contra hcon
            have : (some e : Option Str) = none := h4.2 ⟨rfl, fun x hx => by
              by_contra ht
              exact hcon ⟨x, hx, ht⟩⟩
            simp at this
          | cons y a =>
            simp at e'
            exact g6 a p' b e'.2 hb

theorem sendAll_spec (db : Hist → Str → Option Str) : ∀ (qs : List Str) (h : Hist), Answered db h →
    ∃ p : Hist, (sendAll db qs h).1 = h ++ p ∧ Answered db (h ++ p) ∧ p.map Prod.fst <+: nonempty qs ∧
      (∀ a x b, p = a ++ x :: b → b ≠ [] → x.2 = none) ∧
      ((sendAll db qs h).2 = .ok () → p.map Prod.fst = nonempty qs ∧ ∀ x ∈ p, x.2 = none)
  | [], h, ha => ⟨[], by simp [sendAll], by simpa using ha, by simp, by simp, by simp⟩
  | q :: qs, h, ha => by
    unfold sendAll
    split
    · rename_i hq
      obtain ⟨p, h1, h2, h3, h4, h5⟩ := sendAll_spec db qs h ha
      exact ⟨p, h1, h2, by simpa [hq] using h3, h4, by simpa [hq] using h5⟩
    · rename_i hq
      split
      · rename_i hdb
        obtain ⟨p, h1, h2, h3, h4, h5⟩ := sendAll_spec db qs _ (answered_snoc ha hdb.symm)
        refine ⟨(q, none) :: p, by simp [h1], by simpa using h2, by simpa [hq] using h3, ?_, ?_⟩
        · intro a x b e hb
          cases a with
          | nil => simp at e; rw [← e.1]
          | cons y a => simp at e; exact h4 a x b e.2 hb
        · intro hok
          obtain ⟨e1, e2⟩ := h5 hok
          exact ⟨by simp [e1, hq], by simpa using e2⟩
      · rename_i m hdb
        refine ⟨[(q, some m)], by simp, answered_snoc ha hdb.symm, by simp [hq], ?_, by simp⟩
        intro a x b e hb
        rcases a with _ | ⟨_, a⟩ <;> simp at e
        exact absurd e.2 hb

theorem contains_iff (sub : Str) : ∀ s : Str, contains sub s = true ↔ sub <:+: s
  | [] => by simp [contains]
  | c :: r => by
    rw [contains, Bool.or_eq_true, contains_iff sub r, List.infix_cons_iff]
    simp [hasPrefix]

theorem alreadyApplied_iff (m : Str) : alreadyApplied m = true ↔ MyAlready m := by
  simp only [alreadyApplied, MyAlready, Bool.or_eq_true, contains_iff]

theorem queriesOf_map (h : Hist) (rest : List Event) :
    queriesOf (h.map (fun x => Event.query x.1 x.2) ++ rest) = h ++ queriesOf rest := by
  induction h with
  | nil => rfl
  | cons x h ih => simp [queriesOf, ih]

theorem execute_spec (w : Site) (d dsn t : Str) : queriesOf (execute w d dsn t).1 = (applyDdl w d dsn t).1 ∧
    (execute w d dsn t).2 = (applyDdl w d dsn t).2 := by
  unfold execute
  split
  · rename_i h heq
    rw [heq]
    simp only [queriesOf, List.cons_append, queriesOf_map]
    simp
  · rename_i h r _ heq
    rw [heq]
    have := queriesOf_map h []
    simp only [queriesOf, List.append_nil] at this ⊢
    simp [this]

/-- A run of `apply` that sends queries, or all other runs. -/
theorem applyCommand_cases (w : Site) (cfg : Res Conf.Config) (args : List Str) (stdin : Str) :
    queriesOf (applyCommand w cfg args stdin).1 = [] ∧ ((applyCommand w cfg args stdin).2 = .ok () →
      ∃ c l r, cfg = .ok c ∧ args = [l, r] ∧ diffSources w.toWorld c.dialect c.language l r = .err .noDifference) ∨
    ∃ c l r t pre, cfg = .ok c ∧ args = [l, r] ∧ diffSources w.toWorld c.dialect c.language l r = .ok t ∧
      (c.autoApprove = true ∨ TypedYes stdin) ∧
      (applyCommand w cfg args stdin).1 = .print (message t) :: pre ++ (execute w c.dialect l t).1 ∧ queriesOf pre = [] ∧
      (applyCommand w cfg args stdin).2 = (applyDdl w c.dialect l t).2 := by
  cases cfg with
  | ok c =>
    match args with
    | [] => exact .inl ⟨rfl, by simp [applyCommand]⟩
    | [_] => exact .inl ⟨rfl, by simp [applyCommand]⟩
    | _ :: _ :: _ :: _ => exact .inl ⟨rfl, by simp [applyCommand]⟩
    | [l, r] =>
      cases hd : diffSources w.toWorld c.dialect c.language l r with
      | ok t =>
        simp only [applyCommand, hd, approveAndExecute]
        split
        · exact .inl ⟨rfl, by simp⟩
        · split
          · rename_i ha
            split
            · exact .inl ⟨rfl, by simp⟩
            · exact .inr ⟨c, l, r, t, [.print s%"yes (via --auto-approve option)\n"], rfl, rfl, hd, .inl ha, rfl, rfl,
                (execute_spec w c.dialect l t).2⟩
          · split
            · rename_i hp
              exact .inr ⟨c, l, r, t, [], rfl, rfl, hd, .inr (prompt_ok.1 hp), rfl, rfl, (execute_spec w c.dialect l t).2⟩
            · rename_i hp
              exact .inl ⟨rfl, fun h => absurd h hp⟩
      | err e =>
        by_cases he : e = .noDifference
        · subst he
          refine .inl ⟨by simp [applyCommand, hd, queriesOf], fun _ => ⟨c, l, r, rfl, rfl, hd⟩⟩
        · refine .inl ⟨?_, ?_⟩ <;> cases e <;> simp_all [applyCommand, queriesOf]
      | panic p => exact .inl ⟨by simp [applyCommand, hd, queriesOf], by simp [applyCommand, hd]⟩
      | outOfFuel => exact .inl ⟨by simp [applyCommand, hd, queriesOf], by simp [applyCommand, hd]⟩
  | _ => exact .inl ⟨rfl, by simp [applyCommand]⟩

theorem queriesOf_append (a b : List Event) : queriesOf (a ++ b) = queriesOf a ++ queriesOf b := by
  induction a with
  | nil => rfl
  | cons x a ih => cases x <;> simp [queriesOf, ih]

theorem diffSources_supported {w : World} {d lang l r t : Str} (h : diffSources w d lang l r = .ok t) : d ∈ dialects := by
  by_contra hd
  obtain ⟨a, -, h⟩ := bind_ok_iff.1 h
  obtain ⟨b, -, h⟩ := bind_ok_iff.1 h
  rw [diffText_unsupported hd] at h
  simp at h

/-- The queries of a run that got as far as the database. -/
theorem run_queries {w : Site} {c : Conf.Config} {l r t stdin : Str} (hd : diffSources w.toWorld c.dialect c.language l r = .ok t) :
    (queriesOf (applyCommand w (.ok c) [l, r] stdin).1 = [] ∧ (applyCommand w (.ok c) [l, r] stdin).2 ≠ .ok ()) ∨
    (queriesOf (applyCommand w (.ok c) [l, r] stdin).1 = (applyDdl w c.dialect l t).1 ∧
      (applyCommand w (.ok c) [l, r] stdin).2 = (applyDdl w c.dialect l t).2) := by
  rcases applyCommand_cases w (.ok c) [l, r] stdin with ⟨h1, h2⟩ | ⟨c', l', r', t', pre, h1, h2, h3, -, h5, h6, h7⟩
  · refine .inl ⟨h1, fun h => ?_⟩
    obtain ⟨c', l', r', e1, e2, e3⟩ := h2 h
    cases e1; cases e2
    rw [hd] at e3; simp at e3
  · cases h1; cases h2
    rw [hd] at h3
    cases h3
    refine .inr ⟨?_, h7⟩
    rw [h5, List.cons_append, queriesOf, queriesOf_append, h6, (execute_spec w c.dialect l t).1]
    rfl

/-- The dialects whose statements are sent one by one, with the errors that are tolerated. -/
theorem applyDdl_split {w : Site} {d dsn t : Str} (hd : d ∈ dialects) (hs : d ≠ s%"spanner") :
    (∃ e, applyDdl w d dsn t = ([], .err e)) ∨
    ∃ ig : Str → Bool, (∀ m, ig m = true ↔ Already d m) ∧ applyDdl w d dsn t = splitExec w ig t := by
  unfold applyDdl
  cases w.openDb (driverName d) dsn with
  | some e => exact .inl ⟨e, rfl⟩
  | none =>
    right
    simp only [dialects, List.mem_cons, List.not_mem_nil, or_false] at hd
    rcases hd with rfl | rfl | rfl | rfl
    · exact ⟨fun _ => false, by simp [Already], by simp [driverName, crdbDialect, crdbDriver, myDriver]⟩
    · exact ⟨fun _ => false, by simp [Already], by simp [driverName, crdbDialect, crdbDriver, myDriver]⟩
    · exact ⟨alreadyApplied, by simp [Already, alreadyApplied_iff], by simp [driverName, crdbDialect, myDriver]⟩
    · exact absurd rfl hs

theorem applyDdl_spanner {w : Site} {dsn t : Str} :
    (∃ e, applyDdl w s%"spanner" dsn t = ([], .err e)) ∨ applyDdl w s%"spanner" dsn t =
      sendAll w.db (s%"START BATCH DDL" :: splitStmts (w.withoutCommentLines t) ++ [s%"RUN BATCH"]) [] := by
  unfold applyDdl
  cases w.openDb (driverName s%"spanner") dsn with
  | some e => exact .inl ⟨e, rfl⟩
  | none =>
    cases hc : w.conn with
    | some e => exact .inl ⟨e, by simp [driverName, crdbDialect, crdbDriver, myDriver, spDriver]⟩
    | none => exact .inr (by simp [driverName, crdbDialect, crdbDriver, myDriver, spDriver])

theorem nonempty_bodies {t : Str} {bodies : List Str} (h : ∀ b ∈ bodies, Clean b) : nonempty (bodies ++ [t]) = bodies ++ nonempty [t] := by
  induction bodies with
  | nil => rfl
  | cons b bs ih =>
    rw [List.cons_append, nonempty_cons (h b (by simp)).nonempty, ih (fun x hx => h x (by simp [hx]))]
    rfl

theorem answered_nil {db : Hist → Str → Option Str} : Answered db [] := by
  intro a q r b h
  simp at h

theorem flatten_length_le (n : Nat) : ∀ ps : List Hist, (∀ p ∈ ps, p.length = n) → ps.flatten.length = ps.length * n
  | [], _ => by simp
  | p :: ps, h => by
    rw [List.flatten_cons, List.length_append, h p (by simp), flatten_length_le n ps (fun q hq => h q (by simp [hq])), List.length_cons,
      Nat.succ_mul, Nat.add_comm]

end Ddl
