import Verif.Lemmas.LexSpec

/-! # Concatenating texts -/

namespace Ddl
open Spec

theorem Spec.Writes.mono {d : Dialect} {s : Str} {ts : List Token} (h : Writes d false s ts) : Writes d true s ts := by
  induction h with
  | nil => exact .nil
  | blank c s ts hc _ ih => exact .blank c s ts hc ih
  | comment body s ts hb hs _ ih =>
    refine .comment body s ts hb ?_ ih
    rcases hs with h | h | h
    · exact Or.inl h
    · exact Or.inr (Or.inl h)
    · exact absurd h.1 (by decide)
  | word w t s ts hn hw ht hs _ ih => exact .word w t s ts hn hw ht hs ih
  | quoted q e body s ts hq hb he _ ih => exact .quoted q e body s ts hq hb he ih
  | concat s ts hd _ ih => exact .concat s ts hd ih
  | pipe s ts hd hn _ ih => exact .pipe s ts hd hn ih
  | annotation s ts hd _ ih => exact .annotation s ts hd ih
  | typecast s ts hd hn _ ih => exact .typecast s ts hd hn ih
  | colon s ts hd hn _ ih => exact .colon s ts hd hn ih
  | symbol c t s ts hc hm _ ih => exact .symbol c t s ts hc hm ih
  | nul s ts _ ih => exact .nul s ts ih
  | illegal c s ts hc _ ih => exact .illegal c s ts hc ih

theorem notNext_newline {c : Char} {s : Str} (hc : c ≠ '\n') (h : NotNext c s) : NotNext c (s ++ s%"\n") := by
  cases s with
  | nil => intro h; exact hc (by simpa using h.symm)
  | cons y r => exact h

/-- A line break completes every text. -/
theorem Spec.Writes.newline {d : Dialect} {s : Str} {ts : List Token} (h : Writes d true s ts) :
    Writes d false (s ++ s%"\n") ts := by
  induction h with
  | nil => exact .blank '\n' [] [] (by simp [Blank]) .nil
  | blank c s ts hc _ ih => exact .blank c _ ts hc ih
  | comment body s ts hb hs _ ih =>
    rw [List.append_assoc]
    refine .comment body _ ts hb ?_ ih
    cases s with
    | nil => exact .inl rfl
    | cons x r =>
      rcases hs with h | h | h
      · exact .inl (by simpa using h)
      · exact .inr (.inl (by simpa using h))
      · simp at h
  | word w t s ts hn hw ht hs _ ih =>
    rw [List.append_assoc]
    refine .word w t _ ts hn hw ht (fun c hc => notNext_newline ?_ (hs c hc)) ih
    exact wordChar_ne hc (by unfold WordChar; decide)
  | quoted q e body s ts hq hb he _ ih =>
    have := Writes.quoted (d := d) (fin := false) q e body _ ts hq hb he ih
    simpa using this
  | concat s ts hd _ ih => exact .concat _ ts hd ih
  | pipe s ts hd hn _ ih => exact .pipe _ ts hd (notNext_newline (by decide) hn) ih
  | annotation s ts hd _ ih => exact .annotation _ ts hd ih
  | typecast s ts hd hn _ ih => exact .typecast _ ts hd (fun h => notNext_newline (by decide) (hn h)) ih
  | colon s ts hd hn _ ih => exact .colon _ ts hd (notNext_newline (by decide) hn) ih
  | symbol c t s ts hc hm _ ih => exact .symbol c t _ ts hc (fun h => notNext_newline (by decide) (hm h)) ih
  | nul s ts _ ih => exact .nul _ ts ih
  | illegal c s ts hc _ ih => exact .illegal c _ ts hc ih

theorem noMerge_tail {a s b : Str} (h : NoMerge (a ++ s) b) : NoMerge s b := by
  intro x y hx hy
  refine h x y ?_ hy
  rw [List.getLast?_append, hx]; rfl

theorem noMerge_cons_tail {c : Char} {s b : Str} (h : NoMerge (c :: s) b) : NoMerge s b :=
  noMerge_tail (a := [c]) h

/-- If the text behind a lexeme ends there, what follows must not glue to it. -/
theorem notNext_append {l s b : Str} {x c : Char} (_hl : l.getLast? = some x) (hs : NotNext c s)
    (h : NoMerge (l ++ s) b) (hx : ∀ y, b.head? = some y → NoMerge l b → y ≠ c) : NotNext c (s ++ b) := by
  cases s with
  | nil =>
    simp only [List.append_nil, List.nil_append] at *
    intro hb
    exact hx c hb h rfl
  | cons y r => exact hs

/-- A complete text followed by any text that does not glue to it is lexed piecewise. -/
theorem lex_append {d : Dialect} {a b : Str} {ts : List Token} (ha : Writes d false a ts)
    (hm : NoMerge a b) : lex d (a ++ b) = ts ++ lex d b := by
  induction ha with
  | nil => rfl
  | blank c s ts hc _ ih =>
    rw [List.cons_append, lex_ws d c _ ((isWs_iff c).2 hc), ih (noMerge_cons_tail hm)]
  | comment body s ts hbd hs _ ih =>
    rw [List.append_assoc, ← ih (noMerge_tail hm)]
    simp only [List.cons_append, List.nil_append]
    rw [lex_comment, skipComment_body body _ hbd]
    cases s with
    | nil => simp at hs
    | cons x r =>
      rcases hs with h | h | h
      · exact Or.inl (by simpa using h)
      · exact Or.inr (Or.inl (by simpa using h))
      · simp at h
  | word w t s ts hn hw ht hs _ ih =>
    rw [List.append_assoc, List.cons_append, ← ih (noMerge_tail hm)]
    refine lex_word d w _ t hn hw ht ?_
    intro c hc
    refine notNext_append (List.getLast?_eq_some_getLast hn) (hs c hc) hm ?_
    intro y hy hm' e
    subst e
    exact (hm' _ _ (List.getLast?_eq_some_getLast hn) hy).1 ⟨hw _ (List.getLast_mem hn), hc⟩
  | quoted q e body s ts hq hbd he _ ih =>
    have : q :: body ++ e :: s = (q :: body ++ [e]) ++ s := by simp
    rw [this] at hm
    rw [List.cons_append (as := ts), ← ih (noMerge_tail hm), ← lex_quoted d q e body _ hq hbd he]
    simp
  | concat s ts hd _ ih =>
    rw [List.cons_append (as := ts), ← ih (noMerge_tail hm)]
    simp only [List.cons_append, List.nil_append]
    rw [lex_tok d '|' _ (by decide) (by simp)]
    rcases hd with rfl | rfl <;> simp [lexHead, isQuote, lexOp]
  | pipe s ts hd hn _ ih =>
    rw [List.cons_append (as := ts), ← ih (noMerge_cons_tail hm)]
    simp only [List.cons_append]
    rw [lex_tok d '|' _ (by decide) (by simp), lexHead_of_lexOp (by cases d <;> decide) (lexOp_pipe hd ?_)]
    refine notNext_append (l := s%"|") rfl hn hm ?_
    intro y hy hm' e
    exact (hm' _ _ rfl hy).2.2.1 ⟨rfl, e⟩
  | annotation s ts hd _ ih =>
    rw [List.cons_append (as := ts), ← ih (noMerge_tail hm)]
    simp only [List.cons_append, List.nil_append]
    rw [lex_tok d ':' _ (by decide) (by simp)]
    subst hd
    simp [lexHead, isQuote, lexOp]
  | typecast s ts hd hn _ ih =>
    rw [List.cons_append (as := ts), ← ih (noMerge_tail hm)]
    simp only [List.cons_append, List.nil_append]
    rw [lex_tok d ':' _ (by decide) (by simp), lexHead_of_lexOp (by cases d <;> decide) (lexOp_typecast hd ?_)]
    intro hc
    refine notNext_append (l := s%"::") rfl (hn hc) hm ?_
    intro y hy hm' e
    exact (hm' _ _ rfl hy).2.2.2 ⟨rfl, e⟩
  | colon s ts hd hn _ ih =>
    rw [List.cons_append (as := ts), ← ih (noMerge_cons_tail hm)]
    simp only [List.cons_append]
    rw [lex_tok d ':' _ (by decide) (by simp), lexHead_of_lexOp (by cases d <;> decide) (lexOp_colon hd ?_)]
    refine notNext_append (l := s%":") rfl hn hm ?_
    intro y hy hm' e
    exact (hm' _ _ rfl hy).2.2.2 ⟨rfl, e⟩
  | symbol c t s ts hc hmm _ ih =>
    rw [List.cons_append (as := ts), ← ih (noMerge_cons_tail hm), List.cons_append]
    refine lex_symbol d c t _ hc ?_
    rintro rfl
    refine notNext_append (l := s%"-") rfl (hmm rfl) hm ?_
    intro y hy hm' e
    exact (hm' _ _ rfl hy).2.1 ⟨rfl, e⟩
  | nul s ts _ ih =>
    rw [List.cons_append (as := ts), ← ih (noMerge_cons_tail hm), List.cons_append]
    exact lex_nul d _
  | illegal c s ts hc _ ih =>
    rw [List.cons_append (as := ts), ← ih (noMerge_cons_tail hm), List.cons_append]
    exact lex_illegal d c _ hc

theorem writes_blankRun {d : Dialect} {w : Str} (h : BlankRun w) : Writes d false w [] := by
  induction h with
  | nil => exact .nil
  | blank c s hc _ ih => exact .blank c s [] hc ih
  | comment body s hb _ ih =>
    exact .comment body _ _ hb (Or.inl rfl) (.blank '\n' s [] (by simp [Blank]) ih)

/-- A blank run ends with a blank character, so nothing glues to its end. -/
theorem noMerge_blankRun {w : Str} (h : BlankRun w) (b : Str) : NoMerge w b := by
  have hl : ∀ x, w.getLast? = some x → Blank x := by
    induction h with
    | nil => simp
    | blank c s hc _ ih =>
      intro x hx
      cases s with
      | nil => simp at hx; exact hx ▸ hc
      | cons y r => exact ih x (by simpa using hx)
    | comment body s hb _ ih =>
      intro x hx
      rw [List.getLast?_append] at hx
      cases s with
      | nil => simp at hx; subst hx; simp [Blank]
      | cons y r => exact ih x (by simpa using hx)
  intro x y hx _
  have := hl x hx
  have hall : ∀ x ∈ [' ', '\t', '\n', '\r'], ¬ WordChar x ∧ x ≠ '-' ∧ x ≠ '|' ∧ x ≠ ':' := by decide
  have h2 := hall x this
  exact ⟨fun h => h2.1 h.1, fun h => h2.2.1 h.1, fun h => h2.2.2.1 h.1, fun h => h2.2.2.2 h.1⟩

/-- Texts that do not glue together are written one behind the other. -/
theorem Spec.Writes.append {d : Dialect} {fin : Bool} {a b : Str} {ts us : List Token} (ha : Writes d false a ts)
    (hb : Writes d fin b us) (hm : NoMerge a b) : Writes d fin (a ++ b) (ts ++ us) := by
  induction ha with
  | nil => exact hb
  | blank c s ts hc _ ih => exact .blank c _ _ hc (ih (noMerge_cons_tail hm))
  | comment body s ts hbd hs _ ih =>
    rw [List.append_assoc]
    refine .comment body _ _ hbd ?_ (ih (noMerge_tail hm))
    cases s with
    | nil => simp at hs
    | cons x r =>
      rcases hs with h | h | h
      · exact Or.inl (by simpa using h)
      · exact Or.inr (Or.inl (by simpa using h))
      · simp at h
  | word w t s ts hn hw ht hs _ ih =>
    rw [List.append_assoc]
    refine .word w t _ _ hn hw ht ?_ (ih (noMerge_tail hm))
    intro c hc
    refine notNext_append (List.getLast?_eq_some_getLast hn) (hs c hc) hm ?_
    intro y hy hm' e
    subst e
    exact (hm' _ _ (List.getLast?_eq_some_getLast hn) hy).1 ⟨hw _ (List.getLast_mem hn), hc⟩
  | quoted q e body s ts hq hbd he _ ih =>
    have : q :: body ++ e :: s = (q :: body ++ [e]) ++ s := by simp
    rw [this] at hm
    have := Writes.quoted (d := d) (fin := fin) q e body _ _ hq hbd he (ih (noMerge_tail hm))
    simpa using this
  | concat s ts hd _ ih => exact .concat _ _ hd (ih (noMerge_tail hm))
  | pipe s ts hd hn _ ih =>
    refine .pipe _ _ hd ?_ (ih (noMerge_cons_tail hm))
    refine notNext_append (l := s%"|") rfl hn hm ?_
    intro y hy hm' e
    exact (hm' _ _ rfl hy).2.2.1 ⟨rfl, e⟩
  | annotation s ts hd _ ih => exact .annotation _ _ hd (ih (noMerge_tail hm))
  | typecast s ts hd hn _ ih =>
    refine .typecast _ _ hd ?_ (ih (noMerge_tail hm))
    intro hc
    refine notNext_append (l := s%"::") rfl (hn hc) hm ?_
    intro y hy hm' e
    exact (hm' _ _ rfl hy).2.2.2 ⟨rfl, e⟩
  | colon s ts hd hn _ ih =>
    refine .colon _ _ hd ?_ (ih (noMerge_cons_tail hm))
    refine notNext_append (l := s%":") rfl hn hm ?_
    intro y hy hm' e
    exact (hm' _ _ rfl hy).2.2.2 ⟨rfl, e⟩
  | symbol c t s ts hc hmm _ ih =>
    refine .symbol c t _ _ hc ?_ (ih (noMerge_cons_tail hm))
    rintro rfl
    refine notNext_append (l := s%"-") rfl (hmm rfl) hm ?_
    intro y hy hm' e
    exact (hm' _ _ rfl hy).2.1 ⟨rfl, e⟩
  | nul s ts _ ih => exact .nul _ _ (ih (noMerge_cons_tail hm))
  | illegal c s ts hc _ ih => exact .illegal c _ _ hc (ih (noMerge_cons_tail hm))

/-- A character that glues to nothing. -/
def Soft (c : Char) : Prop := ¬ WordChar c ∧ c ≠ '-' ∧ c ≠ '|' ∧ c ≠ ':'

instance (c : Char) : Decidable (WordChar c) := by unfold WordChar; infer_instance
instance (c : Char) : Decidable (Soft c) := by unfold Soft; infer_instance

theorem noMerge_head {a b : Str} (h : ∀ c, b.head? = some c → Soft c) : NoMerge a b := by
  intro x y _ hy
  have := h y hy
  exact ⟨fun h => this.1 h.2, fun h => this.2.1 h.2, fun h => this.2.2.1 h.2, fun h => this.2.2.2 h.2⟩

theorem noMerge_last {a b : Str} (h : ∀ c, a.getLast? = some c → Soft c) : NoMerge a b := by
  intro x y hx _
  have := h x hx
  exact ⟨fun h => this.1 h.1, fun h => this.2.1 h.1, fun h => this.2.2.1 h.1, fun h => this.2.2.2 h.1⟩

/-- A text starting with a soft character may follow anything. -/
theorem noMerge_cons {a r : Str} {c : Char} (h : Soft c) : NoMerge a (c :: r) :=
  noMerge_head (by intro x hx; cases hx; exact h)

/-- Anything may follow a text ending with a soft character. -/
theorem noMerge_snoc {a b : Str} {c : Char} (h : Soft c) : NoMerge (a ++ [c]) b :=
  noMerge_last (by intro x hx; simp at hx; exact hx ▸ h)

theorem hasDashes_tail {a s : Str} (h : hasDashes (a ++ s) = false) : hasDashes s = false := by
  induction a with
  | nil => exact h
  | cons c r ih =>
    simp only [List.cons_append, hasDashes, Bool.or_eq_false_iff] at h
    exact ih h.2

/-- A text without `--` does not end inside a comment. -/
theorem Spec.Writes.noDashes {d : Dialect} {s : Str} {ts : List Token} (h : Writes d true s ts)
    (hn : hasDashes s = false) : Writes d false s ts := by
  induction h with
  | nil => exact .nil
  | blank c s ts hc _ ih => exact .blank c s ts hc (ih (hasDashes_tail (a := [c]) hn))
  | comment body s ts hb hs _ ih =>
    rw [List.append_assoc] at hn
    exact absurd hn (by simp [hasDashes])
  | word w t s ts hne hw ht hs _ ih => exact .word w t s ts hne hw ht hs (ih (hasDashes_tail hn))
  | quoted q e body s ts hq hb he _ ih =>
    refine .quoted q e body s ts hq hb he (ih (hasDashes_tail (a := q :: body ++ [e]) ?_))
    simpa using hn
  | concat s ts hd _ ih => exact .concat s ts hd (ih (hasDashes_tail hn))
  | pipe s ts hd hn' _ ih => exact .pipe s ts hd hn' (ih (hasDashes_tail (a := ['|']) hn))
  | annotation s ts hd _ ih => exact .annotation s ts hd (ih (hasDashes_tail hn))
  | typecast s ts hd hn' _ ih => exact .typecast s ts hd hn' (ih (hasDashes_tail hn))
  | colon s ts hd hn' _ ih => exact .colon s ts hd hn' (ih (hasDashes_tail (a := [':']) hn))
  | symbol c t s ts hc hm _ ih => exact .symbol c t s ts hc hm (ih (hasDashes_tail (a := [c]) hn))
  | nul s ts _ ih => exact .nul s ts (ih (hasDashes_tail (a := [Spec.nul]) hn))
  | illegal c s ts hc _ ih => exact .illegal c s ts hc (ih (hasDashes_tail (a := [c]) hn))

/-- A text without `--` and without an open quote is complete. -/
theorem writes_noDashes {d : Dialect} {s : Str} (h1 : ∀ t ∈ lex d s, t.type ≠ .PANIC) (h2 : hasDashes s = false) :
    Writes d false s (lex d s) :=
  (writes_of_lex d s h1).noDashes h2

end Ddl
