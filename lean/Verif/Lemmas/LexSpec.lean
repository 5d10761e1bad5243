import Verif.Lemmas.Lex
import Verif.Spec.Lex

/-! # The lexer model agrees with the lexical grammar -/

namespace Ddl
open Spec

theorem isLit_iff (c : Char) : isLit c = true ↔ WordChar c := by
  simp only [isLit, WordChar, Bool.or_eq_true, Bool.and_eq_true, decide_eq_true_eq, beq_iff_eq]
  constructor
  · rintro ((((h | h) | h) | h) | h) <;> simp [h]
  · rintro (h | h | h | h | h) <;> simp [h]

theorem isWs_iff (c : Char) : isWs c = true ↔ Blank c := by
  simp [isWs, Blank, or_assoc]

theorem isQuote_iff (d : Dialect) (c : Char) : isQuote d c = true ↔ c ∈ quotes d := by
  cases d <;> simp [isQuote, quotes, or_assoc]

theorem lookupKw_mem (w : Str) : ∀ (l : List (Str × TokType)), (w, lookupKw w l) ∈ l ∨
    (lookupKw w l = .IDENT ∧ ∀ t, (w, t) ∉ l)
  | [] => by simp [lookupKw]
  | (k, t) :: r => by
    rw [lookupKw]
    split
    · rename_i h; subst h; simp
    · rename_i h
      rcases lookupKw_mem w r with h1 | ⟨h1, h2⟩
      · exact Or.inl (List.mem_cons_of_mem _ h1)
      · refine Or.inr ⟨h1, fun t' hm => ?_⟩
        rcases List.mem_cons.1 hm with h3 | h3
        · exact h (congrArg Prod.fst h3)
        · exact h2 t' h3

theorem wordType_lookup (d : Dialect) (w : Str) : WordType d w (lookupIdent d w) :=
  lookupKw_mem (upper w) (keywords d)

/-- Keys of a keyword table, for checking that they are distinct. -/
theorem lookupKw_of_mem (w : Str) (t : TokType) : ∀ (l : List (Str × TokType)), (l.map Prod.fst).Nodup →
    (w, t) ∈ l → lookupKw w l = t
  | [], _, h => by simp at h
  | (k, t') :: r, hn, h => by
    rw [lookupKw]
    simp only [List.map_cons, List.nodup_cons] at hn
    rcases List.mem_cons.1 h with h1 | h1
    · cases h1; simp
    · have : w ≠ k := by
        intro e
        subst e
        exact hn.1 (List.mem_map.2 ⟨(w, t), h1, rfl⟩)
      rw [if_neg this]
      exact lookupKw_of_mem w t r hn.2 h1

theorem keywords_nodup (d : Dialect) : ((keywords d).map Prod.fst).Nodup := by
  cases d <;> decide +kernel

theorem lookup_of_wordType (d : Dialect) (w : Str) (t : TokType) (h : WordType d w t) : lookupIdent d w = t := by
  rcases h with h | ⟨h, hn⟩
  · exact lookupKw_of_mem _ t _ (keywords_nodup d) h
  · rcases lookupKw_mem (upper w) (keywords d) with h1 | h1
    · exact absurd h1 (hn _)
    · rw [h]; exact h1.1

theorem symbol_iff (c : Char) (t : TokType) : symbol c = some t ↔ (c, t) ∈ symbols := by
  unfold symbol symbols
  simp only [List.mem_cons, Prod.mk.injEq, List.not_mem_nil, or_false]
  repeat' split
  all_goals (first | (rename_i h; subst h; simp; done) | skip)
  all_goals simp_all [eq_comm]

theorem readQuoted_ok (q e : Char) (s : Str) (he : e = q ∨ e = NUL) : ∀ (body : Str), (∀ c ∈ body, c ≠ q ∧ c ≠ NUL) →
    readQuoted q (body ++ e :: s) = some (body ++ [e], s)
  | [], _ => by simp [readQuoted, he]
  | c :: r, h => by
    have hc := h c (by simp)
    have ih := readQuoted_ok q e s he r (fun x hx => h x (by simp [hx]))
    simp [readQuoted, hc.1, hc.2, ih]

theorem readQuoted_inv (q : Char) : ∀ (s b rest : Str), readQuoted q s = some (b, rest) →
    ∃ body e, b = body ++ [e] ∧ s = body ++ e :: rest ∧ (e = q ∨ e = NUL) ∧ ∀ c ∈ body, c ≠ q ∧ c ≠ NUL
  | [], _, _, h => by simp [readQuoted] at h
  | c :: r, b, rest, h => by
    rw [readQuoted] at h
    split at h
    · rename_i hc
      simp only [Option.some.injEq, Prod.mk.injEq] at h
      exact ⟨[], c, by simp [← h.1, ← h.2, hc]⟩
    · rename_i hc
      split at h
      · simp at h
      · rename_i b' rest' heq
        simp only [Option.some.injEq, Prod.mk.injEq] at h
        obtain ⟨body, e, h1, h2, h3, h4⟩ := readQuoted_inv q r b' rest' heq
        refine ⟨c :: body, e, by simp [← h.1, h1], by simp [h2, ← h.2], h3, ?_⟩
        intro x hx
        rcases List.mem_cons.1 hx with rfl | hx
        · exact not_or.1 hc
        · exact h4 x hx

instance (c : Char) : Decidable (WordChar c) := by unfold WordChar; infer_instance
instance (c : Char) : Decidable (Blank c) := by unfold Blank; infer_instance

theorem isWs_false {c : Char} (h : ¬ Blank c) : isWs c = false := by
  rw [← isWs_iff] at h; simpa using h

theorem isQuote_false {d : Dialect} {c : Char} (h : c ∉ quotes d) : isQuote d c = false := by
  rw [← isQuote_iff] at h; simpa using h

theorem symbol_none {c : Char} (h : ∀ t, (c, t) ∉ symbols) : symbol c = none := by
  cases hs : symbol c with
  | none => rfl
  | some t => exact absurd ((symbol_iff c t).1 hs) (h t)

theorem lexOp_none {d : Dialect} {c : Char} (r : Str) (h : hasOps d → c ≠ '|' ∧ c ≠ ':') : lexOp d c r = none := by
  cases d <;> simp only [lexOp]
  all_goals
    have := h (by simp [hasOps])
    simp [this.1, this.2]

theorem wordChar_ne {c x : Char} (h : WordChar c) (hx : ¬ WordChar x) : c ≠ x := by
  rintro rfl; exact hx h

theorem wordChar_quotes {d : Dialect} {c : Char} (h : WordChar c) : c ∉ quotes d := by
  have h1 : c ≠ '"' := wordChar_ne h (by decide)
  have h2 : c ≠ '\'' := wordChar_ne h (by decide)
  have h3 : c ≠ '`' := wordChar_ne h (by decide)
  cases d <;> simp [quotes, h1, h2, h3]

theorem wordChar_symbols {c : Char} (h : WordChar c) : ∀ t, (c, t) ∉ symbols := by
  intro t hm
  have : c ∈ symbols.map Prod.fst := List.mem_map.2 ⟨_, hm, rfl⟩
  revert h
  have hall : ∀ x ∈ symbols.map Prod.fst, ¬ WordChar x := by decide
  exact hall c this

theorem wordChar_blank {c : Char} (h : WordChar c) : ¬ Blank c := by
  intro hb
  have hall : ∀ x ∈ [' ', '\t', '\n', '\r'], ¬ WordChar x := by decide
  exact hall c hb h

theorem mem_takeWhile' {p : Char → Bool} {s : Str} {c : Char} (h : c ∈ s.takeWhile p) : p c = true := by
  induction s with
  | nil => simp at h
  | cons x r ih =>
    rw [List.takeWhile_cons] at h
    split at h
    · rcases List.mem_cons.1 h with rfl | h
      · assumption
      · exact ih h
    · simp at h

theorem takeWhile_append_stop {p : Char → Bool} {w s : Str} (hw : ∀ c ∈ w, p c = true)
    (hs : ∀ c, s.head? = some c → p c = false) : (w ++ s).takeWhile p = w ∧ (w ++ s).dropWhile p = s := by
  induction w with
  | nil =>
    cases s with
    | nil => simp
    | cons c r => have := hs c rfl; simp [this]
  | cons c r ih =>
    have hc := hw c (by simp)
    have := ih (fun x hx => hw x (by simp [hx]))
    simp [hc, this]

theorem lexHead_word (d : Dialect) (c : Char) (r s : Str) (hw : ∀ x ∈ c :: r, WordChar x)
    (hs : ∀ x, WordChar x → NotNext x s) :
    lexHead d c (r ++ s) = (⟨lookupIdent d (c :: r), c :: r⟩, s) := by
  have hc := hw c (by simp)
  have hl : isLit c = true := (isLit_iff c).2 hc
  have h1 := takeWhile_append_stop (p := isLit) (w := c :: r) (s := s)
    (fun x hx => (isLit_iff x).2 (hw x hx)) (fun x hx => by
      cases hx2 : isLit x with
      | false => rfl
      | true => exact absurd hx (hs x ((isLit_iff x).1 hx2)))
  have hn : c ≠ NUL := wordChar_ne hc (by decide)
  have ho : lexOp d c (r ++ s) = none :=
    lexOp_none _ (fun _ => ⟨wordChar_ne hc (by decide), wordChar_ne hc (by decide)⟩)
  simp only [lexHead, isQuote_false (wordChar_quotes hc), ho, symbol_none (wordChar_symbols hc), hn, hl]
  simp only [List.cons_append] at h1
  simp [readIdentifier, h1.1, h1.2]

theorem skipComment_body (body s : Str) (hb : ∀ c ∈ body, c ≠ '\n' ∧ c ≠ nul)
    (hs : s.head? = some '\n' ∨ s.head? = some nul ∨ s = []) : skipComment (body ++ s) = s := by
  refine (takeWhile_append_stop (fun c hc => ?_) (fun c hc => ?_)).2
  · have := hb c hc
    simp only [Bool.and_eq_true, bne_iff_ne]
    exact this
  · rcases hs with h | h | h
    · rw [h] at hc; cases hc; decide
    · rw [h] at hc; cases hc; decide
    · rw [h] at hc; cases hc

theorem lex_symbol (d : Dialect) (c : Char) (t : TokType) (s : Str) (h : (c, t) ∈ symbols)
    (hm : c = '-' → NotNext '-' s) : lex d (c :: s) = ⟨t, [c]⟩ :: lex d s := by
  have hall : ∀ x ∈ symbols.map Prod.fst, ¬ Blank x ∧ x ≠ '|' ∧ x ≠ ':' ∧ x.toNat < 128 ∧
      ∀ d ∈ [Dialect.postgres, .cockroachdb, .mysql, .spanner], x ∉ quotes d := by decide
  have hx := hall c (List.mem_map.2 ⟨_, h, rfl⟩)
  have hq : c ∉ quotes d := hx.2.2.2.2 d (by cases d <;> decide)
  rw [lex_tok d c s (isWs_false hx.1) (fun hc => hm hc.1 hc.2)]
  simp [lexHead, isQuote_false hq, lexOp_none s (fun _ => ⟨hx.2.1, hx.2.2.1⟩), (symbol_iff c t).2 h, newToken, byteStr,
    hx.2.2.2.1]

theorem lex_quoted (d : Dialect) (q e : Char) (body s : Str) (hq : q ∈ quotes d) (hb : ∀ c ∈ body, c ≠ q ∧ c ≠ nul)
    (he : e = q ∨ e = nul) :
    lex d (q :: body ++ e :: s) = ⟨.IDENT, q :: body ++ [e]⟩ :: lex d s := by
  have hall : ∀ d ∈ [Dialect.postgres, .cockroachdb, .mysql, .spanner], ∀ x ∈ quotes d, ¬ Blank x ∧ x ≠ '-' := by
    decide
  have hx := hall d (by cases d <;> decide) q hq
  rw [List.cons_append, lex_tok d q _ (isWs_false hx.1) (fun h => hx.2 h.1)]
  simp [lexHead, (isQuote_iff d q).2 hq, readQuoted_ok q e s he body hb]

theorem lex_word (d : Dialect) (w s : Str) (t : TokType) (hn : w ≠ []) (hw : ∀ c ∈ w, WordChar c)
    (ht : WordType d w t) (hs : ∀ c, WordChar c → NotNext c s) :
    lex d (w ++ s) = ⟨t, w⟩ :: lex d s := by
  cases w with
  | nil => exact absurd rfl hn
  | cons c r =>
    have hc := hw c (by simp)
    rw [List.cons_append, lex_tok d c _ (isWs_false (wordChar_blank hc))
      (fun h => absurd h.1 (wordChar_ne hc (by decide)))]
    rw [lexHead_word d c r s hw hs, lookup_of_wordType d _ t ht]

theorem lexOp_pipe {d : Dialect} {s : Str} (hd : hasOps d) (hn : NotNext '|' s) :
    lexOp d '|' s = some (⟨.ILLEGAL, s%"|"⟩, s) := by
  rcases hd with rfl | rfl
  all_goals
    simp only [lexOp, if_true]
    split
    · exact absurd rfl hn
    · rfl

theorem lexOp_colon {d : Dialect} {s : Str} (hd : hasOps d) (hn : NotNext ':' s) :
    lexOp d ':' s = some (⟨.ILLEGAL, s%":"⟩, s) := by
  have hc : (':' : Char) ≠ '|' := by decide
  rcases hd with rfl | rfl
  all_goals
    simp only [lexOp, hc, if_true, if_false]
    split
    · exact absurd rfl hn
    · first | exact absurd rfl hn | rfl
    · rfl

theorem lexOp_typecast {d : Dialect} {s : Str} (hd : hasOps d) (hn : d = .cockroachdb → NotNext ':' s) :
    lexOp d ':' (':' :: s) = some (⟨.TYPECAST, s%"::"⟩, s) := by
  have hc : (':' : Char) ≠ '|' := by decide
  rcases hd with rfl | rfl
  · simp only [lexOp, hc, if_true, if_false]
  · simp only [lexOp, hc, if_true, if_false]
    split
    · rename_i h
      simp only [List.cons.injEq, true_and] at h
      subst h
      exact absurd rfl (hn rfl)
    · simp_all
    · simp_all

theorem lexHead_of_lexOp {d : Dialect} {c : Char} {s : Str} {x : Token × Str} (hq : isQuote d c = false)
    (h : lexOp d c s = some x) : lexHead d c s = x := by
  simp [lexHead, hq, h]

theorem lexOp_none_inv {d : Dialect} {c : Char} {r : Str} (hd : hasOps d) (h : lexOp d c r = none) :
    c ≠ '|' ∧ c ≠ ':' := by
  constructor
  · rintro rfl
    rcases hd with rfl | rfl <;> (simp only [lexOp, if_true] at h; split at h <;> cases h)
  · rintro rfl
    have hc : (':' : Char) ≠ '|' := by decide
    rcases hd with rfl | rfl <;> (simp only [lexOp, hc, if_true, if_false] at h; split at h <;> cases h)

theorem writes_lexOp {d : Dialect} {fin : Bool} {c : Char} {r : Str} {x : Token × Str} {ts : List Token}
    (h : lexOp d c r = some x) (hw : Writes d fin x.2 ts) : Writes d fin (c :: r) (x.1 :: ts) := by
  have hd : hasOps d := by
    cases d <;> simp_all [lexOp, hasOps]
  by_cases h1 : c = '|'
  · subst h1
    by_cases h2 : r.head? = some '|'
    · obtain ⟨r', rfl⟩ := List.head?_eq_some_iff.1 h2
      have : lexOp d '|' ('|' :: r') = some (⟨.STRING_CONCAT, s%"||"⟩, r') := by
        rcases hd with rfl | rfl <;> rfl
      rw [this] at h
      cases h
      exact Writes.concat _ _ hd hw
    · rw [lexOp_pipe hd h2] at h
      cases h
      exact Writes.pipe _ _ hd h2 hw
  · by_cases h1' : c = ':'
    · subst h1'
      by_cases h2 : r.head? = some ':'
      · obtain ⟨r', rfl⟩ := List.head?_eq_some_iff.1 h2
        by_cases h3 : d = .cockroachdb ∧ r'.head? = some ':'
        · obtain ⟨rfl, h4⟩ := h3
          obtain ⟨r'', rfl⟩ := List.head?_eq_some_iff.1 h4
          have : lexOp .cockroachdb ':' (':' :: ':' :: r'') = some (⟨.TYPE_ANNOTATION, s%":::"⟩, r'') := rfl
          rw [this] at h
          cases h
          exact Writes.annotation _ _ rfl hw
        · have h3' : d = .cockroachdb → NotNext ':' r' := fun h4 h5 => h3 ⟨h4, h5⟩
          rw [lexOp_typecast hd h3'] at h
          cases h
          exact Writes.typecast _ _ hd h3' hw
      · rw [lexOp_colon hd h2] at h
        cases h
        exact Writes.colon _ _ hd h2 hw
    · rw [lexOp_none r (fun _ => ⟨h1, h1'⟩)] at h
      cases h

theorem lex_nul (d : Dialect) (s : Str) : lex d (nul :: s) = ⟨.EOF, []⟩ :: lex d s := by
  rw [lex_tok d _ _ (by decide) (by intro h; exact absurd h.1 (by decide))]
  have hq : isQuote d nul = false := by cases d <;> decide
  have ho : lexOp d nul s = none := lexOp_none _ (fun _ => by decide)
  have hs : symbol nul = none := by decide
  have hn : nul = NUL := rfl
  simp only [lexHead, hq, ho, hs]
  simp [hn]

theorem lex_illegal (d : Dialect) (c : Char) (s : Str) (hc : Other d c) :
    lex d (c :: s) = ⟨.ILLEGAL, illegalText c⟩ :: lex d s := by
  obtain ⟨h1, h2, h3, h4, h5, h6⟩ := hc
  have hm : c ≠ '-' := by rintro rfl; exact h5 .MINUS (by decide)
  have hl : isLit c = false := by
    cases h : isLit c with
    | false => rfl
    | true => exact absurd ((isLit_iff c).1 h) h2
  have hn : c ≠ NUL := h3
  rw [lex_tok d _ _ (isWs_false h1) (fun h => hm h.1)]
  simp [lexHead, isQuote_false h4, lexOp_none s h6, symbol_none h5, hl, hn, newToken, byteStr, illegalText]

/-- Every way of writing a token sequence is lexed to that token sequence. -/
theorem lex_of_writes {d : Dialect} {fin : Bool} {s : Str} {ts : List Token} (h : Writes d fin s ts) : lex d s = ts := by
  induction h with
  | nil => rfl
  | blank c s ts hc _ ih => rw [lex_ws d c s ((isWs_iff c).2 hc), ih]
  | comment body s ts hb hs _ ih =>
    have hs' : s.head? = some '\n' ∨ s.head? = some nul ∨ s = [] := by
      rcases hs with h | h | h
      · exact Or.inl h
      · exact Or.inr (Or.inl h)
      · exact Or.inr (Or.inr h.2)
    simp only [List.cons_append, List.nil_append]
    rw [lex_comment, skipComment_body body s hb hs', ih]
  | word w t s ts hn hw ht hs _ ih => rw [lex_word d w s t hn hw ht hs, ih]
  | quoted q e body s ts hq hb he _ ih => rw [lex_quoted d q e body s hq hb he, ih]
  | concat s ts hd _ ih =>
    simp only [List.cons_append, List.nil_append]
    rw [lex_tok d '|' _ (by decide) (by simp)]
    rcases hd with rfl | rfl <;> simp [lexHead, isQuote, lexOp, ih]
  | pipe s ts hd hn _ ih =>
    rw [lex_tok d '|' _ (by decide) (by simp)]
    rw [lexHead_of_lexOp (by cases d <;> decide) (lexOp_pipe hd hn), ih]
  | annotation s ts hd _ ih =>
    simp only [List.cons_append, List.nil_append]
    rw [lex_tok d ':' _ (by decide) (by simp)]
    subst hd
    simp [lexHead, isQuote, lexOp, ih]
  | typecast s ts hd hn _ ih =>
    simp only [List.cons_append, List.nil_append]
    rw [lex_tok d ':' _ (by decide) (by simp)]
    rw [lexHead_of_lexOp (by cases d <;> decide) (lexOp_typecast hd hn), ih]
  | colon s ts hd hn _ ih =>
    rw [lex_tok d ':' _ (by decide) (by simp)]
    rw [lexHead_of_lexOp (by cases d <;> decide) (lexOp_colon hd hn), ih]
  | symbol c t s ts hc hm _ ih => rw [lex_symbol d c t s hc hm, ih]
  | nul s ts _ ih => rw [lex_nul, ih]
  | illegal c s ts hc _ ih => rw [lex_illegal d c s hc, ih]

theorem head_wordChar_dropWhile (s : Str) : ∀ c, WordChar c → NotNext c (s.dropWhile isLit) := by
  intro c hc hh
  have := List.head?_dropWhile_not isLit s
  rw [hh] at this
  simp only at this
  have h2 := (isLit_iff c).2 hc
  simp [h2] at this

/-- Every text without an unterminated quote is a way of writing the tokens that the lexer finds. -/
theorem writes_of_lex (d : Dialect) (s : Str) (h : ∀ t ∈ lex d s, t.type ≠ .PANIC) : Writes d true s (lex d s) := by
  match s, h with
  | [], _ => exact .nil
  | c :: r, h =>
    by_cases hw : isWs c = true
    · rw [lex_ws d c r hw] at h ⊢
      exact .blank c r _ ((isWs_iff c).1 hw) (writes_of_lex d r h)
    · have hw' : isWs c = false := by simpa using hw
      have hnb : ¬ Blank c := fun hb => hw ((isWs_iff c).2 hb)
      by_cases hc : c = '-' ∧ r.head? = some '-'
      · obtain ⟨rfl, hr⟩ := hc
        obtain ⟨r', rfl⟩ := List.head?_eq_some_iff.1 hr
        rw [lex_comment] at h ⊢
        have hlen : (skipComment r').length ≤ r'.length := length_dropWhile_le _ _
        have hs : r' = r'.takeWhile (fun c => c != '\n' && c != NUL) ++ skipComment r' :=
          List.takeWhile_append_dropWhile.symm
        have hb : ∀ c ∈ r'.takeWhile (fun c => c != '\n' && c != NUL), c ≠ '\n' ∧ c ≠ nul := by
          intro c hc
          have := mem_takeWhile' hc
          simp only [Bool.and_eq_true, bne_iff_ne] at this
          exact this
        have hh : (skipComment r').head? = some '\n' ∨ (skipComment r').head? = some nul ∨
            (true = true ∧ skipComment r' = []) := by
          have := List.head?_dropWhile_not (fun c => c != '\n' && c != NUL) r'
          unfold skipComment
          cases hx : (r'.dropWhile (fun c => c != '\n' && c != NUL)) with
          | nil => simp
          | cons y ys =>
            rw [hx] at this
            simp only [List.head?_cons] at this
            simp only [List.head?_cons, Option.some.injEq]
            by_cases hy : y = '\n'
            · exact Or.inl hy
            · refine Or.inr (Or.inl ?_)
              simp only [Bool.and_eq_false_imp, bne_iff_ne] at this
              have h3 := this hy
              simp only [bne_eq_false_iff_eq] at h3
              exact h3
        have key := Writes.comment (d := d) (fin := true) _ _ _ hb hh (writes_of_lex d (skipComment r') h)
        simp only [List.cons_append, List.nil_append] at key
        rw [← hs] at key
        exact key
      · rw [lex_tok d c r hw' hc] at h ⊢
        have hlen := lexHead_length d c r
        have hrest : ∀ t ∈ lex d (lexHead d c r).2, t.type ≠ .PANIC := fun t ht => h t (List.mem_cons_of_mem _ ht)
        have ih := writes_of_lex d (lexHead d c r).2 hrest
        have hp := h (lexHead d c r).1 (List.mem_cons_self ..)
        revert ih hp
        clear hrest
        unfold lexHead
        split
        · rename_i hq
          split
          · intro _ hp; exact absurd rfl hp
          · rename_i body rest heq
            obtain ⟨b, e, h1, h2, h3, h4⟩ := readQuoted_inv c r body rest heq
            intro ih _
            subst h1 h2
            have := Writes.quoted (d := d) (fin := true) c e b rest _ ((isQuote_iff d c).1 hq) h4 h3 ih
            simpa using this
        · rename_i hq
          have hnq : c ∉ quotes d := fun hm => hq ((isQuote_iff d c).2 hm)
          split
          · rename_i x hx
            intro ih _
            exact writes_lexOp hx ih
          · rename_i hop
            split
            · rename_i t ht
              intro ih _
              have hmem := (symbol_iff c t).1 ht
              have := Writes.symbol (d := d) (fin := true) c t r _ hmem (fun h1 h2 => hc ⟨h1, h2⟩) ih
              have hall : ∀ x ∈ symbols.map Prod.fst, x.toNat < 128 := by decide
              have hlt := hall c (List.mem_map.2 ⟨_, hmem, rfl⟩)
              simpa [newToken, byteStr, hlt] using this
            · rename_i hsym
              split
              · rename_i hn
                subst hn
                intro ih _
                exact Writes.nul r _ ih
              · rename_i hn
                split
                · rename_i hl
                  intro ih _
                  have e : (readIdentifier (c :: r)) = ((c :: r).takeWhile isLit, (c :: r).dropWhile isLit) := rfl
                  simp only [e] at ih ⊢
                  have key := Writes.word (d := d) (fin := true) ((c :: r).takeWhile isLit)
                    (lookupIdent d ((c :: r).takeWhile isLit)) ((c :: r).dropWhile isLit) _ (by simp [hl])
                    (fun x hx => (isLit_iff x).1 (mem_takeWhile' hx)) (wordType_lookup d _)
                    (head_wordChar_dropWhile _) ih
                  rwa [List.takeWhile_append_dropWhile] at key
                · rename_i hl
                  intro ih _
                  refine Writes.illegal c r _ ⟨hnb, fun hc => hl ((isLit_iff c).2 hc), hn, hnq, ?_, ?_⟩ ih
                  · intro t ht
                    rw [(symbol_iff c t).2 ht] at hsym
                    cases hsym
                  · intro hd
                    exact lexOp_none_inv hd hop
  termination_by s.length
  decreasing_by
    all_goals simp_wf
    all_goals first | omega | (subst_vars; simp only [List.length_cons]; omega)

end Ddl
