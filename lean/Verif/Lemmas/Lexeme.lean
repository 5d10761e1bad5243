import Verif.Lemmas.LexAppend
import Verif.Spec.RoundTrip
import Verif.Lemmas.Variants

/-! # Texts of single tokens, and texts put together from them -/

namespace Ddl
open Spec
set_option autoImplicit false

/-- The token can be written as its literal. -/
def Lx (d : Dialect) (t : Token) : Prop :=
  (t.lit ≠ [] ∧ (∀ c ∈ t.lit, WordChar c) ∧ WordType d t.lit t.type) ∨
  (t.type = .IDENT ∧ ∃ q body, q ∈ quotes d ∧ t.lit = q :: body ++ [q] ∧ ∀ c ∈ body, c ≠ q ∧ c ≠ nul) ∨
  (t.type = .STRING_CONCAT ∧ t.lit = s%"||" ∧ hasOps d) ∨
  (t.type = .TYPECAST ∧ t.lit = s%"::" ∧ hasOps d) ∨
  (t.type = .TYPE_ANNOTATION ∧ t.lit = s%":::" ∧ d = .cockroachdb) ∨
  ∃ c, (c, t.type) ∈ symbols ∧ t.lit = [c]

/-- What follows does not merge with the text in front. -/
def Apart (d : Dialect) (a s : Str) : Prop :=
  ∀ x y, a.getLast? = some x → s.head? = some y →
    ¬ (WordChar x ∧ WordChar y) ∧ ¬ (x = '-' ∧ y = '-') ∧ (d = .cockroachdb → ¬ (x = ':' ∧ y = ':'))

/-- The text starts with a character that glues to nothing in front of it. -/
def Start (s : Str) : Prop := ∀ y, s.head? = some y → ¬ WordChar y ∧ y ≠ '-' ∧ y ≠ ':'

theorem Start.apart {d : Dialect} {a s : Str} (h : Start s) : Apart d a s := by
  intro x y _ hy
  have := h y hy
  exact ⟨fun e => this.1 e.2, fun e => this.2.1 e.2, fun _ e => this.2.2 e.2⟩

theorem start_cons {c : Char} {s : Str} (h : Soft c) : Start (c :: s) := by
  intro y hy; cases hy; exact ⟨h.1, h.2.1, h.2.2.2⟩

theorem start_nil : Start [] := by intro y hy; cases hy

theorem lex_lx {d : Dialect} {t : Token} (h : Lx d t) {s : Str} (hs : Apart d t.lit s) : lex d (t.lit ++ s) = t :: lex d s := by
  obtain ⟨ty, l⟩ := t
  rcases h with ⟨h1, h2, h3⟩ | ⟨h1, q, body, hq, h2, hb⟩ | ⟨h1, h2, hd⟩ | ⟨h1, h2, hd⟩ | ⟨h1, h2, hd⟩ | ⟨c, hc, h2⟩ <;>
    simp only at *
  · refine lex_word d l s ty h1 h2 h3 (fun c hc hn => ?_)
    exact (hs _ c (List.getLast?_eq_some_getLast h1) hn).1 ⟨h2 _ (List.getLast_mem h1), hc⟩
  · subst h1 h2
    have := lex_quoted d q q body s hq hb (Or.inl rfl)
    simpa using this
  · subst h1 h2
    rw [List.cons_append, List.cons_append, lex_tok d '|' _ (by decide) (by simp)]
    rcases hd with rfl | rfl <;> simp [lexHead, isQuote, lexOp]
  · subst h1 h2
    have hn : d = .cockroachdb → NotNext ':' s := fun e hn => (hs ':' ':' rfl hn).2.2 e ⟨rfl, rfl⟩
    rw [List.cons_append, List.cons_append, List.nil_append, lex_tok d ':' _ (by decide) (by simp),
      lexHead_of_lexOp (by rcases hd with rfl | rfl <;> rfl) (lexOp_typecast hd hn)]
  · subst h1 h2 hd
    simp only [List.cons_append, List.nil_append]
    rw [lex_tok .cockroachdb ':' _ (by decide) (by simp)]
    simp [lexHead, isQuote, lexOp]
  · subst h2
    refine lex_symbol d c ty s hc ?_
    rintro rfl hn
    exact (hs '-' '-' rfl hn).2.1 ⟨rfl, rfl⟩

theorem lx_of_writes {d : Dialect} {fin : Bool} {s : Str} {ts : List Token} (h : Writes d fin s ts) (h0 : ∀ c ∈ s, c ≠ nul)
    (hi : ∀ t ∈ ts, t.type ≠ .ILLEGAL) : ∀ t ∈ ts, Lx d t := by
  induction h with
  | nil => simp
  | blank c s ts hc _ ih => exact ih (fun c hc => h0 c (by simp [hc])) hi
  | comment body s ts hb hs _ ih => exact ih (fun c hc => h0 c (by simp [hc])) hi
  | word w t s ts hn hw ht hs _ ih =>
    have ih := ih (fun c hc => h0 c (by simp [hc])) (fun t ht => hi t (by simp [ht]))
    intro t' ht'
    rcases List.mem_cons.1 ht' with rfl | ht'
    · exact Or.inl ⟨hn, hw, ht⟩
    · exact ih t' ht'
  | quoted q e body s ts hq hb he _ ih =>
    have ih := ih (fun c hc => h0 c (by simp [hc])) (fun t ht => hi t (by simp [ht]))
    intro t' ht'
    rcases List.mem_cons.1 ht' with rfl | ht'
    · have he' : e = q := he.resolve_right (h0 e (by simp))
      subst he'
      exact Or.inr (Or.inl ⟨rfl, e, body, hq, rfl, hb⟩)
    · exact ih t' ht'
  | concat s ts hd _ ih =>
    have ih := ih (fun c hc => h0 c (by simp [hc])) (fun t ht => hi t (by simp [ht]))
    intro t' ht'
    rcases List.mem_cons.1 ht' with rfl | ht'
    · exact Or.inr (Or.inr (Or.inl ⟨rfl, rfl, hd⟩))
    · exact ih t' ht'
  | pipe s ts hd hn _ ih => exact absurd rfl (hi _ (by simp; exact Or.inl rfl))
  | annotation s ts hd _ ih =>
    have ih := ih (fun c hc => h0 c (by simp [hc])) (fun t ht => hi t (by simp [ht]))
    intro t' ht'
    rcases List.mem_cons.1 ht' with rfl | ht'
    · exact Or.inr (Or.inr (Or.inr (Or.inr (Or.inl ⟨rfl, rfl, hd⟩))))
    · exact ih t' ht'
  | typecast s ts hd hn _ ih =>
    have ih := ih (fun c hc => h0 c (by simp [hc])) (fun t ht => hi t (by simp [ht]))
    intro t' ht'
    rcases List.mem_cons.1 ht' with rfl | ht'
    · exact Or.inr (Or.inr (Or.inr (Or.inl ⟨rfl, rfl, hd⟩)))
    · exact ih t' ht'
  | colon s ts hd hn _ ih => exact absurd rfl (hi _ (by simp; exact Or.inl rfl))
  | symbol c t s ts hc hm _ ih =>
    have ih := ih (fun c hc => h0 c (by simp [hc])) (fun t ht => hi t (by simp [ht]))
    intro t' ht'
    rcases List.mem_cons.1 ht' with rfl | ht'
    · exact Or.inr (Or.inr (Or.inr (Or.inr (Or.inr ⟨c, hc, rfl⟩))))
    · exact ih t' ht'
  | nul s ts _ ih => exact absurd rfl (h0 _ (by simp))
  | illegal c s ts hc _ ih => exact absurd rfl (hi _ (by simp; exact Or.inl rfl))

/-- The text `r` is read as the tokens `w` whatever follows (apart from it). -/
def LexesTo (d : Dialect) (r : Str) (w : List Token) : Prop := ∀ s, Apart d r s → lex d (r ++ s) = w ++ lex d s

theorem Lx.lexesTo {d : Dialect} {t : Token} (h : Lx d t) : LexesTo d t.lit [t] := fun _ hs => lex_lx h hs

theorem Lx.ne_nil {d : Dialect} {t : Token} (h : Lx d t) : t.lit ≠ [] := by
  rcases h with ⟨h1, _⟩ | ⟨_, q, body, _, h2, _⟩ | ⟨_, h2, _⟩ | ⟨_, h2, _⟩ | ⟨_, h2, _⟩ | ⟨c, _, h2⟩
  · exact h1
  all_goals rw [h2]; simp

/-- Text made of keywords and symbols in the program, ending with a blank or bracket. -/
theorem lex_lit {d : Dialect} {a b : Str} (h1 : ∀ t ∈ lex d a, t.type ≠ .PANIC) (h2 : hasDashes a = false)
    (h3 : ∀ c ∈ a.getLast?, Soft c) : lex d (a ++ b) = lex d a ++ lex d b :=
  lex_append (writes_noDashes h1 h2) (noMerge_last h3)

/-- Text made of keywords and symbols in the program, in front of a blank or bracket. -/
theorem lex_lit_start {d : Dialect} {a b : Str} (h1 : ∀ t ∈ lex d a, t.type ≠ .PANIC) (h2 : hasDashes a = false)
    (h3 : a.getLast? ≠ some '|') (hb : Start b) : lex d (a ++ b) = lex d a ++ lex d b := by
  refine lex_append (writes_noDashes h1 h2) ?_
  intro x y hx hy
  have := hb y hy
  exact ⟨fun e => this.1 e.2, fun e => this.2.1 e.2, fun e => h3 (e.1 ▸ hx), fun e => this.2.2 e.2⟩

theorem isName_lx {d : Dialect} {s : Str} (h : IsName d s) : Lx d ⟨.IDENT, s⟩ := by
  rcases h with ⟨h1, h2, h3⟩ | ⟨q, body, h1, h2, h3⟩
  · refine Or.inl ⟨h1, h2, Or.inr ⟨rfl, fun t' h => h3 ?_⟩⟩
    exact List.mem_map.2 ⟨_, h, rfl⟩
  · exact Or.inr (Or.inl ⟨rfl, q, body, h1, h2, h3⟩)

end Ddl
