import Verif.Lemmas.LexSpec

/-! # Tokens and the visible text -/

namespace Ddl
open Spec

theorem visible_word (d : Dialect) : ∀ (w s : Str), (∀ c ∈ w, WordChar c) →
    visible d .code (w ++ s) = w ++ visible d .code s
  | [], _, _ => rfl
  | c :: r, s, h => by
    have hc := h c (by simp)
    have h1 : ¬ (c ∈ [' ', '\t', '\n', '\r'] ∨ c = nul) := by
      rintro (h | h)
      · exact wordChar_blank hc h
      · exact wordChar_ne hc (by decide) h
    have h2 := wordChar_quotes (d := d) hc
    have h3 : ¬ (c = '-' ∧ (r ++ s).head? = some '-') := fun h => wordChar_ne hc (by decide) h.1
    rw [List.cons_append, visible, if_neg h1, if_neg h2, if_neg h3,
      visible_word d r s (fun x hx => h x (by simp [hx])), List.cons_append]

theorem visible_quote (d : Dialect) (q e : Char) (s : Str) (he : e = q ∨ e = nul) : ∀ (body : Str),
    (∀ c ∈ body, c ≠ q ∧ c ≠ nul) →
    visible d (.quote q) (body ++ e :: s) = body ++ e :: visible d .code s
  | [], _ => by simp [visible, he]
  | c :: r, h => by
    have hc := h c (by simp)
    simp [visible, hc.1, hc.2, visible_quote d q e s he r (fun x hx => h x (by simp [hx]))]

theorem visible_comment (d : Dialect) (s : Str) (hs : s.head? = some '\n' ∨ s.head? = some nul ∨ s = []) :
    ∀ (body : Str), (∀ c ∈ body, c ≠ '\n' ∧ c ≠ nul) → visible d .comment (body ++ s) = visible d .code s
  | [], _ => by
    cases s with
    | nil => rfl
    | cons x r =>
      have hx : x = '\n' ∨ x = nul := by simpa using hs
      have hx' : x ∈ [' ', '\t', '\n', '\r'] ∨ x = nul := by
        rcases hx with rfl | rfl
        · exact Or.inl (by decide)
        · exact Or.inr rfl
      rw [List.nil_append, visible, visible, if_pos hx, if_pos hx']
  | c :: r, h => by
    have hc := h c (by simp)
    simp [visible, hc.1, hc.2, visible_comment d s hs r (fun x hx => h x (by simp [hx]))]

theorem visible_other {d : Dialect} {c : Char} {s : Str} (h1 : ¬ Blank c) (h2 : c ≠ nul) (h3 : c ∉ quotes d)
    (h4 : c = '-' → NotNext '-' s) : visible d .code (c :: s) = c :: visible d .code s := by
  rw [visible, if_neg (by rintro (h | h); exact h1 h; exact h2 h), if_neg h3, if_neg (fun h => h4 h.1 h.2)]

/-- The literals of the tokens, concatenated, are the visible text; characters of illegal tokens must be ASCII. -/
theorem lits_of_writes {d : Dialect} {fin : Bool} {s : Str} {ts : List Token} (h : Writes d fin s ts)
    (hi : ∀ t ∈ ts, t.type = .ILLEGAL → ∀ c ∈ t.lit, c.toNat < 128) :
    (ts.map (·.lit)).flatten = visible d .code s := by
  have hqs : ∀ x ∈ (['|', ':'] : List Char), ∀ d ∈ [Dialect.postgres, .cockroachdb, .mysql, .spanner],
      ¬ Blank x ∧ x ≠ nul ∧ x ∉ quotes d := by decide
  have hd' : d ∈ [Dialect.postgres, .cockroachdb, .mysql, .spanner] := by cases d <;> decide
  have hop : ∀ x ∈ (['|', ':'] : List Char), ∀ s, visible d .code (x :: s) = x :: visible d .code s := by
    intro x hx s
    have := hqs x hx d hd'
    refine visible_other this.1 this.2.1 this.2.2 ?_
    rintro rfl
    exact absurd hx (by decide)
  induction h with
  | nil => rfl
  | blank c s ts hc _ ih =>
    have hc' : c ∈ [' ', '\t', '\n', '\r'] := hc
    rw [ih hi, visible, if_pos (Or.inl hc')]
  | comment body s ts hb hs _ ih =>
    have hs' : s.head? = some '\n' ∨ s.head? = some nul ∨ s = [] := by
      rcases hs with h | h | h
      · exact Or.inl h
      · exact Or.inr (Or.inl h)
      · exact Or.inr (Or.inr h.2)
    rw [ih hi]
    simp only [List.cons_append, List.nil_append]
    have hq : '-' ∉ quotes d := by cases d <;> decide
    rw [visible, if_neg (by decide), if_neg hq, if_pos ⟨rfl, rfl⟩, visible, if_neg (by decide),
      visible_comment d s hs' body hb]
  | word w t s ts hn hw ht hs _ ih =>
    rw [visible_word d w s hw, List.map_cons, List.flatten_cons, ih (fun t ht => hi t (by simp [ht]))]
  | quoted q e body s ts hq hb he _ ih =>
    have hall : ∀ d ∈ [Dialect.postgres, .cockroachdb, .mysql, .spanner], ∀ x ∈ quotes d,
      ¬ (x ∈ [' ', '\t', '\n', '\r'] ∨ x = nul) := by decide
    rw [List.map_cons, List.flatten_cons, ih (fun t ht => hi t (by simp [ht])), List.cons_append (as := body),
      List.cons_append (as := body), visible, if_neg (hall d hd' q hq), if_pos hq, visible_quote d q e s he body hb]
    simp
  | concat s ts hd _ ih =>
    rw [List.map_cons, List.flatten_cons, ih (fun t ht => hi t (by simp [ht]))]
    simp only [List.cons_append, List.nil_append]
    rw [hop '|' (by decide), hop '|' (by decide)]
  | pipe s ts hd hn _ ih =>
    rw [List.map_cons, List.flatten_cons, ih (fun t ht => hi t (by simp [ht])), hop '|' (by decide)]
    rfl
  | annotation s ts hd _ ih =>
    rw [List.map_cons, List.flatten_cons, ih (fun t ht => hi t (by simp [ht]))]
    simp only [List.cons_append, List.nil_append]
    rw [hop ':' (by decide), hop ':' (by decide), hop ':' (by decide)]
  | typecast s ts hd hn _ ih =>
    rw [List.map_cons, List.flatten_cons, ih (fun t ht => hi t (by simp [ht]))]
    simp only [List.cons_append, List.nil_append]
    rw [hop ':' (by decide), hop ':' (by decide)]
  | colon s ts hd hn _ ih =>
    rw [List.map_cons, List.flatten_cons, ih (fun t ht => hi t (by simp [ht])), hop ':' (by decide)]
    rfl
  | symbol c t s ts hc hm _ ih =>
    have hall : ∀ x ∈ symbols.map Prod.fst, ¬ Blank x ∧ x ≠ nul ∧
      ∀ d ∈ [Dialect.postgres, .cockroachdb, .mysql, .spanner], x ∉ quotes d := by decide
    have hx := hall c (List.mem_map.2 ⟨_, hc, rfl⟩)
    rw [List.map_cons, List.flatten_cons, ih (fun t ht => hi t (by simp [ht])),
      visible_other hx.1 hx.2.1 (hx.2.2 d hd') hm]
    rfl
  | nul s ts _ ih =>
    rw [List.map_cons, List.flatten_cons, ih (fun t ht => hi t (by simp [ht])), visible, if_pos (Or.inr rfl)]
    rfl
  | illegal c s ts hc _ ih =>
    obtain ⟨h1, h2, h3, h4, h5, h6⟩ := hc
    have hcm : c = '-' → NotNext '-' s := by rintro rfl; exact absurd (by decide) (h5 .MINUS)
    have := hi ⟨.ILLEGAL, illegalText c⟩ (by simp) rfl
    have hlt : c.toNat < 128 := by
      by_cases hlt : c.toNat < 128
      · exact hlt
      · exfalso
        simp only [illegalText, if_neg hlt] at this
        have h7 := this (Char.ofNat (128 + c.toNat % 64)) (by simp)
        have h8 : c.toNat % 64 < 64 := Nat.mod_lt _ (by decide)
        have h9 : (Char.ofNat (128 + c.toNat % 64)).toNat = 128 + c.toNat % 64 := by
          rw [Char.ofNat, dif_pos (by unfold Nat.isValidChar; omega)]
          rfl
        omega
    rw [List.map_cons, List.flatten_cons, ih (fun t ht => hi t (by simp [ht])), visible_other h1 h3 h4 hcm]
    simp [illegalText, hlt]

end Ddl
