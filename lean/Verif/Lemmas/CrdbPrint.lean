import Verif.Lemmas.Lexeme
import Verif.Crdb.Parser
import Verif.Spec.RoundTripCrdb
import Verif.Lemmas.Post
import Verif.Lemmas.Grammar

/-! # CockroachDB: what parsed statements look like, how they are printed and read again -/

namespace Ddl.Crdb
open Spec
set_option autoImplicit false

/-- An identifier with the tokens of its text. -/
abbrev Word := Ident × List Token

/-- The tokens of a list of words. -/
def toks (l : List Word) : List Token := (l.map Prod.snd).flatten

/-- The identifiers of a list of words. -/
def ids (l : List Word) : List Ident := l.map Prod.fst

@[simp] theorem toks_nil : toks [] = [] := rfl
@[simp] theorem toks_cons (w : Word) (l : List Word) : toks (w :: l) = w.2 ++ toks l := rfl
@[simp] theorem toks_append (a b : List Word) : toks (a ++ b) = toks a ++ toks b := by simp [toks]
@[simp] theorem ids_nil : ids [] = [] := rfl
@[simp] theorem ids_cons (w : Word) (l : List Word) : ids (w :: l) = w.1 :: ids l := rfl
@[simp] theorem ids_append (a b : List Word) : ids (a ++ b) = ids a ++ ids b := by simp [ids]

/-- The text of the identifier is read as its tokens. -/
def WordOk (w : Word) : Prop :=
  w.1.raw ≠ [] ∧ LexesTo .cockroachdb w.1.raw w.2 ∧
    (w.1.raw.getLast? = some ':' ∨ w.1.raw.head? = some ':' → w.1.raw ∈ [s%"::", s%":::"])

@[simp] theorem rawIdent_raw (s : Str) : (rawIdent s).raw = s := by
  unfold rawIdent newRawIdent quotationMarks
  simp only [newRawIdentQ]
  split <;> rfl

abbrev L := Lx .cockroachdb

/-- A colon at an end of a token is that of a type operator. -/
theorem L.colon {t : Token} (h : L t) (hc : t.lit.getLast? = some ':' ∨ t.lit.head? = some ':') : t.lit ∈ [s%"::", s%":::"] := by
  rcases h with ⟨h1, h2, h3⟩ | ⟨_, q, body, hq, h2, hb⟩ | ⟨_, h1, _⟩ | ⟨_, h1, _⟩ | ⟨_, h1, _⟩ | ⟨c, h1, h2⟩
  · exfalso
    rcases hc with hc | hc
    · exact absurd (h2 _ (List.mem_of_getLast? hc)) (by decide)
    · exact absurd (h2 _ (List.mem_of_mem_head? hc)) (by decide)
  · exfalso
    have hq' : q ≠ ':' := by rintro rfl; exact absurd hq (by decide)
    rw [h2] at hc
    rcases hc with hc | hc
    · rw [List.getLast?_concat] at hc
      exact hq' (Option.some.inj hc)
    · exact hq' (Option.some.inj hc)
  · rw [h1] at hc; exact absurd hc (by decide)
  · rw [h1]; decide
  · rw [h1]; decide
  · exfalso
    rw [h2] at hc
    have : ∀ p ∈ symbols, p.1 ≠ ':' := by decide
    exact this _ h1 (by simpa using hc)

theorem wordOk_tok {t : Token} (h : L t) {i : Ident} (hi : i.raw = t.lit) : WordOk (i, [t]) := by
  refine ⟨?_, ?_, ?_⟩
  · simp only [hi]; exact h.ne_nil
  · simp only [hi]; exact h.lexesTo
  · simp only [hi]; exact h.colon

def isCmp (t : TokType) : Prop := t = .EQUAL ∨ t = .GREATER ∨ t = .LESS

instance (t : TokType) : Decidable (isCmp t) := by unfold isCmp; infer_instance

def openTok : Token := ⟨.OPEN_PAREN, s%"("⟩
def closeTok : Token := ⟨.CLOSE_PAREN, s%")"⟩
def commaTok : Token := ⟨.COMMA, s%","⟩
@[simp] theorem openTok_type : openTok.type = .OPEN_PAREN := rfl
@[simp] theorem closeTok_type : closeTok.type = .CLOSE_PAREN := rfl
@[simp] theorem commaTok_type : commaTok.type = .COMMA := rfl
@[simp] theorem openTok_lit : openTok.lit = s%"(" := rfl
@[simp] theorem closeTok_lit : closeTok.lit = s%")" := rfl
@[simp] theorem commaTok_lit : commaTok.lit = s%"," := rfl

/-- The rest of an expression in brackets, up to the closing bracket. -/
inductive Grp : List Word → Prop
  | close : Grp [(rawIdent s%")", [closeTok])]
  | opened (a b : List Word) : Grp a → Grp b → Grp ((rawIdent s%"(", [openTok]) :: (a ++ b))
  | cmp (x : Token) (r : List Word) : L x → isCmp x.type → ¬ isCmp (curT (toks r)) → Grp r →
      Grp ((rawIdent x.lit, [x]) :: r)
  | cmp2 (x y : Token) (r : List Word) : L x → L y → LexesTo .cockroachdb (x.lit ++ y.lit) [x, y] → x.lit ≠ [] →
      isCmp x.type → isCmp y.type →
      Grp r → Grp ((rawIdent (x.lit ++ y.lit), [x, y]) :: r)
  | other (t : Token) (r : List Word) : L t → t.type ∉ [.OPEN_PAREN, .CLOSE_PAREN, .EQUAL, .GREATER, .LESS, .EOF] →
      (isReservedValue t.type = true → t.lit = t.type.str) → Grp r → Grp ((rawIdent t.lit, [t]) :: r)

/-- The three words that are taken for symbols, and the symbols. -/
theorem L.cmp {t : Token} (h : L t) (ht : isCmp t.type) :
    ((∀ c ∈ t.lit, WordChar c) ∧ t.lit.map Char.toUpper ∈ [s%"EQUAL", s%"GREATER", s%"LESS"]) ∨
    t.lit ∈ [s%"=", s%">", s%"<"] := by
  obtain ⟨ty, l⟩ := t
  rcases h with ⟨h1, h2, h3⟩ | ⟨h1, _⟩ | ⟨h1, _⟩ | ⟨h1, _⟩ | ⟨h1, _⟩ | ⟨c', h1, h2⟩ <;> simp only at *
  · left
    refine ⟨h2, ?_⟩
    rcases h3 with h3 | h3
    · have : ∀ p ∈ crdbKeywords, isCmp p.2 → p.1 ∈ [s%"EQUAL", s%"GREATER", s%"LESS"] := by decide
      exact this _ h3 ht
    · rw [h3.1] at ht; exact absurd ht (by decide)
  · rw [h1] at ht; exact absurd ht (by decide)
  · rw [h1] at ht; exact absurd ht (by decide)
  · rw [h1] at ht; exact absurd ht (by decide)
  · rw [h1] at ht; exact absurd ht (by decide)
  · right
    have : ∀ p ∈ symbols, isCmp p.2 → [p.1] ∈ [s%"=", s%">", s%"<"] := by decide
    rw [h2]; exact this _ h1 ht

theorem cmp_noCast {t : Token} (h : L t) (ht : isCmp t.type) : t.lit ∉ [s%"::", s%":::"] := by
  intro hc
  simp only [List.mem_cons, List.not_mem_nil, or_false] at hc
  rcases h.cmp ht with ⟨h1, _⟩ | h1
  · rcases hc with e | e <;> rw [e] at h1 <;> exact absurd (h1 ':' (by simp)) (by decide)
  · rcases hc with e | e <;> rw [e] at h1 <;> exact absurd h1 (by decide)

theorem Grp.ok {g : List Word} (h : Grp g) : ∀ w ∈ g, WordOk w := by
  induction h with
  | close =>
    intro w hw
    simp only [List.mem_singleton] at hw
    subst hw
    exact wordOk_tok (Or.inr (Or.inr (Or.inr (Or.inr (Or.inr ⟨')', by decide, rfl⟩))))) (rawIdent_raw _)
  | opened a b _ _ iha ihb =>
    intro w hw
    rcases List.mem_cons.1 hw with rfl | hw
    · exact wordOk_tok (Or.inr (Or.inr (Or.inr (Or.inr (Or.inr ⟨'(', by decide, rfl⟩))))) (rawIdent_raw _)
    · rcases List.mem_append.1 hw with hw | hw
      · exact iha w hw
      · exact ihb w hw
  | cmp x r hx _ _ _ ih =>
    intro w hw
    rcases List.mem_cons.1 hw with rfl | hw
    · exact wordOk_tok hx (rawIdent_raw _)
    · exact ih w hw
  | cmp2 x y r hx hy hl hn cx cy _ ih =>
    intro w hw
    rcases List.mem_cons.1 hw with rfl | hw
    · refine ⟨by simp [hn], by simpa using hl, ?_⟩
      simp only [rawIdent_raw]
      intro hc
      exfalso
      rcases hc with hc | hc
      · have : y.lit.getLast? = some ':' := by
          rw [List.getLast?_append] at hc
          cases e : y.lit with
          | nil => exact absurd e hy.ne_nil
          | cons a l => rw [e, List.getLast?_cons] at hc; rw [List.getLast?_cons]; simpa using hc
        exact (cmp_noCast hy cy) (hy.colon (Or.inl this))
      · have : x.lit.head? = some ':' := by
          cases e : x.lit with
          | nil => exact absurd e hx.ne_nil
          | cons a l => rw [e] at hc; exact hc
        exact (cmp_noCast hx cx) (hx.colon (Or.inr this))
    · exact ih w hw
  | other t r ht _ _ _ ih =>
    intro w hw
    rcases List.mem_cons.1 hw with rfl | hw
    · exact wordOk_tok ht (rawIdent_raw _)
    · exact ih w hw

theorem L.symbol {t : Token} (h : L t) {T : TokType} {c : Char} (ht : t.type = T) (hT : T ≠ .IDENT ∧ T ≠ .STRING_CONCAT ∧ T ≠ .TYPECAST ∧ T ≠ .TYPE_ANNOTATION)
    (hk : ∀ k, (k, T) ∉ keywords .cockroachdb) (hc : ∀ c', (c', T) ∈ symbols → c' = c) : t = ⟨T, [c]⟩ := by
  obtain ⟨ty, l⟩ := t
  simp only at ht
  subst ht
  rcases h with ⟨h1, h2, h3⟩ | ⟨h1, _⟩ | ⟨h1, _⟩ | ⟨h1, _⟩ | ⟨h1, _⟩ | ⟨c', h1, h2⟩ <;> simp only at *
  · rcases h3 with h3 | h3
    · exact absurd h3 (hk _)
    · exact absurd h3.1 hT.1
  · exact absurd h1 hT.1
  · exact absurd h1 hT.2.1
  · exact absurd h1 hT.2.2.1
  · exact absurd h1 hT.2.2.2
  · rw [h2, hc c' h1]

theorem kw_ne {T : TokType} (h : T ∉ crdbKeywords.map Prod.snd) (k : Str) : (k, T) ∉ keywords .cockroachdb :=
  fun hk => h (List.mem_map.2 ⟨_, hk, rfl⟩)

theorem L.open {t : Token} (h : L t) (ht : t.type = .OPEN_PAREN) : t = openTok :=
  h.symbol (c := '(') ht (by decide) (kw_ne (by decide)) (by simp [symbols])

theorem L.close {t : Token} (h : L t) (ht : t.type = .CLOSE_PAREN) : t = closeTok :=
  h.symbol (c := ')') ht (by decide) (kw_ne (by decide)) (by simp [symbols])

theorem apart_symbol {c : Char} {s : Str} (h : ¬ WordChar c ∧ c ≠ '-' ∧ c ≠ ':') : Apart .cockroachdb [c] s := by
  intro x y hx _
  simp only [List.getLast?_singleton, Option.some.injEq] at hx
  subst hx
  exact ⟨fun e => h.1 e.1, fun e => h.2.1 e.1, fun _ e => h.2.2 e.1⟩

/-- Two neighbouring comparison signs: they are read again as they are, or as one word. -/
theorem cmp_pair {x y : Token} (hx : L x) (hy : L y) (cx : isCmp x.type) (cy : isCmp y.type) :
    LexesTo .cockroachdb (x.lit ++ y.lit) [x, y] ∨ L ⟨.IDENT, x.lit ++ y.lit⟩ := by
  have ax : ∀ s, Apart .cockroachdb (x.lit ++ y.lit) s → Apart .cockroachdb y.lit s := by
    intro s h a b ha hb
    refine h a b ?_ hb
    rw [List.getLast?_append, ha]; rfl
  have key : Apart .cockroachdb x.lit y.lit → LexesTo .cockroachdb (x.lit ++ y.lit) [x, y] := by
    intro h s hs
    have h2 : Apart .cockroachdb x.lit (y.lit ++ s) := by
      intro a b ha hb
      refine h a b ha ?_
      cases e : y.lit with
      | nil => exact absurd e hy.ne_nil
      | cons c r => rw [e] at hb; exact hb
    rw [List.append_assoc, lex_lx hx h2, lex_lx hy (ax s hs)]
    rfl
  rcases hx.cmp cx with ⟨wx, ux⟩ | hx'
  · rcases hy.cmp cy with ⟨wy, uy⟩ | hy'
    · right
      refine Or.inl ⟨by simp [hx.ne_nil], ?_, Or.inr ⟨rfl, ?_⟩⟩
      · intro c hc
        rcases List.mem_append.1 hc with h | h
        · exact wx c h
        · exact wy c h
      · intro t' ht'
        simp only [List.map_append] at ht'
        have : ∀ a ∈ [s%"EQUAL", s%"GREATER", s%"LESS"], ∀ b ∈ [s%"EQUAL", s%"GREATER", s%"LESS"],
            a ++ b ∉ crdbKeywords.map Prod.fst := by decide
        exact this _ ux _ uy (List.mem_map.2 ⟨_, ht', rfl⟩)
    · left
      refine key (Start.apart ?_)
      simp only [List.mem_cons, List.not_mem_nil, or_false] at hy'
      rcases hy' with h | h | h <;> rw [h] <;> exact start_cons (by decide)
  · left
    refine key ?_
    simp only [List.mem_cons, List.not_mem_nil, or_false] at hx'
    rcases hx' with h | h | h <;> rw [h] <;> exact apart_symbol (by decide)

theorem cur_eq {ts : List Token} : cur ts = ⟨curT ts, curL ts⟩ := rfl

/-! ## Expressions -/

theorem reserved_lx : ∀ T, isReservedValue T = true → L ⟨T, T.str⟩ := by
  intro T h
  have : T = .NULL ∨ T = .TRUE ∨ T = .FALSE := by simpa [isReservedValue] using h
  rcases this with rfl | rfl | rfl <;> refine Or.inl ⟨by decide, by decide, Or.inl (by decide)⟩

theorem Grp.ne_nil {g : List Word} (h : Grp g) : g ≠ [] := by cases h <;> simp

theorem exprLoop_post : ∀ (n : Nat) (ts : List Token), AllTok L ts →
    Post (fun r => (∃ g, Grp g ∧ r.1 = ids g ∧ (isCmp (curT (toks g)) → isCmp (curT ts))) ∧ AllTok L r.2) (exprLoop n ts) := by
  intro n
  induction n with
  | zero => intro ts _; exact trivial
  | succ n ih =>
    intro ts hL
    unfold exprLoop
    split
    · rename_i hc
      refine Post.next_bind ((ih _ hL.tail).bind ?_)
      rintro ⟨i₁, ts₁⟩ ⟨⟨g₁, hg₁, e₁, _⟩, h₁⟩
      refine (ih _ h₁).bind ?_
      rintro ⟨i₂, ts₂⟩ ⟨⟨g₂, hg₂, e₂, _⟩, h₂⟩
      simp only at e₁ e₂
      have := (hL.cur (by simp [hc])).open hc
      refine Post.ok ⟨⟨_, .opened g₁ g₂ hg₁ hg₂, ?_, ?_⟩, h₂⟩
      · have hl : curL ts = s%"(" := by show (cur ts).lit = _; rw [this]; rfl
        simp [e₁, e₂, hl]
      · intro h; simp [isCmp] at h
    split
    · rename_i hc
      refine Post.next_bind (Post.ok ⟨⟨_, .close, ?_, ?_⟩, hL.tail⟩)
      · have := (hL.cur (by simp [hc])).close hc
        have hl : curL ts = s%")" := by show (cur ts).lit = _; rw [this]; rfl
        simp [hl]
      · intro h; exact absurd h (by decide)
    split
    · rename_i hc
      have hx : L (cur ts) := hL.cur (by rcases hc with h | h | h <;> simp [h])
      split
      · rename_i hp
        have hy : L (cur ts.tail) := hL.tail.cur (by
          rcases hp with h | h | h <;> (change curT ts.tail = _ at h; simp [h]))
        refine Post.next_bind ?_
        simp only [Res.ok_bind]
        refine Post.next_bind ((ih _ hL.tail.tail).bind ?_)
        rintro ⟨i₁, ts₁⟩ ⟨⟨g₁, hg₁, e₁, _⟩, h₁⟩
        simp only at e₁
        rcases cmp_pair hx hy hc hp with h | h
        · refine Post.ok ⟨⟨_, .cmp2 _ _ g₁ hx hy h hx.ne_nil hc hp hg₁, ?_, fun _ => hc⟩, h₁⟩
          simp [e₁]; rfl
        · refine Post.ok ⟨⟨_, .other _ g₁ h (by simp) (by simp [isReservedValue]) hg₁, ?_, fun h => by simp [isCmp] at h⟩, h₁⟩
          simp [e₁]; rfl
      · rename_i hp
        simp only [Res.ok_bind]
        refine Post.next_bind ((ih _ hL.tail).bind ?_)
        rintro ⟨i₁, ts₁⟩ ⟨⟨g₁, hg₁, e₁, hf⟩, h₁⟩
        simp only at e₁
        refine Post.ok ⟨⟨_, .cmp _ g₁ hx hc (fun h => hp (hf h)) hg₁, ?_, fun _ => hc⟩, h₁⟩
        simp [e₁]; rfl
    split
    · exact trivial
    · rename_i h1 h2 h3 h4
      refine Post.next_bind ((ih _ hL.tail).bind ?_)
      rintro ⟨i₁, ts₁⟩ ⟨⟨g₁, hg₁, e₁, _⟩, h₁⟩
      simp only at e₁ ⊢
      have hm : curT ts ∉ [.OPEN_PAREN, .CLOSE_PAREN, .EQUAL, .GREATER, .LESS, .EOF] := by
        simp only [not_or] at h3; simp [h1, h2, h3, h4]
      have hcmp : ¬ isCmp (curT ts) := h3
      split
      · rename_i hr
        refine Post.ok ⟨⟨_, .other ⟨curT ts, (curT ts).str⟩ g₁ (reserved_lx _ hr) hm (fun _ => rfl) hg₁, ?_, ?_⟩, h₁⟩
        · simp [e₁]
        · intro h; exact absurd h hcmp
      · rename_i hr
        refine Post.ok ⟨⟨_, .other (cur ts) g₁ (hL.cur h4) hm (fun h => absurd h hr) hg₁, ?_, ?_⟩, h₁⟩
        · simp [e₁]; rfl
        · intro h; exact absurd h hcmp

theorem exprLoop_reads {g : List Word} (h : Grp g) : ∀ (n : Nat) (rest : List Token), (toks g).length < n →
    NoPanic (toks g ++ rest) → exprLoop n (toks g ++ rest) = .ok (ids g, rest) := by
  induction h with
  | close =>
    intro n rest hn hp
    obtain ⟨n, rfl⟩ : ∃ m, n = m + 1 := ⟨n - 1, by omega⟩
    simp only [toks_cons, toks_nil, List.append_nil, List.cons_append, List.nil_append] at hp ⊢
    simp [exprLoop, next_cons hp]
  | opened a b _ _ iha ihb =>
    intro n rest hn hp
    obtain ⟨n, rfl⟩ : ∃ m, n = m + 1 := ⟨n - 1, by omega⟩
    simp only [toks_cons, toks_append, List.cons_append, List.nil_append, List.append_assoc, List.length_cons,
      List.length_append] at hn hp ⊢
    rw [exprLoop, if_pos (by simp), next_cons hp]
    simp only [bind_ok]
    rw [iha n _ (by omega) hp.of_cons]
    simp only [bind_ok]
    rw [ihb n _ (by omega) hp.of_cons.of_append]
    simp
  | cmp x r hx hc hr _ ih =>
    intro n rest hn hp
    obtain ⟨n, rfl⟩ : ∃ m, n = m + 1 := ⟨n - 1, by omega⟩
    have hne : toks r ≠ [] := by
      rename_i hg
      cases hg <;> simp
    simp only [toks_cons, List.cons_append, List.nil_append, List.length_cons] at hn hp ⊢
    have h1 : x.type ≠ .OPEN_PAREN ∧ x.type ≠ .CLOSE_PAREN := by rcases hc with h | h | h <;> simp [h]
    have hpk : ¬ (curT (toks r ++ rest) = .EQUAL ∨ curT (toks r ++ rest) = .GREATER ∨ curT (toks r ++ rest) = .LESS) := by
      cases e : toks r with
      | nil => exact absurd e hne
      | cons a l => rw [e] at hr; exact hr
    unfold isCmp at hc
    rw [exprLoop]
    simp only [curT_cons, if_neg h1.1, if_neg h1.2, if_pos hc, peekT_cons, if_neg hpk, bind_ok, next_cons hp]
    rw [ih n _ (by omega) hp.of_cons]
    simp
  | cmp2 x y r _ _ hl hn' hc hc' _ ih =>
    intro n rest hn hp
    obtain ⟨n, rfl⟩ : ∃ m, n = m + 1 := ⟨n - 1, by omega⟩
    simp only [toks_cons, List.cons_append, List.nil_append, List.length_cons] at hn hp ⊢
    have h1 : x.type ≠ .OPEN_PAREN ∧ x.type ≠ .CLOSE_PAREN := by rcases hc with h | h | h <;> simp [h]
    unfold isCmp at hc hc'
    rw [exprLoop]
    simp only [curT_cons, if_neg h1.1, if_neg h1.2, if_pos hc, peekT_cons, if_pos hc', next_cons hp, bind_ok,
      next_cons hp.of_cons]
    rw [ih n _ (by omega) hp.of_cons.of_cons]
    simp
  | other t r ht hm hr _ ih =>
    intro n rest hn hp
    obtain ⟨n, rfl⟩ : ∃ m, n = m + 1 := ⟨n - 1, by omega⟩
    simp only [toks_cons, List.cons_append, List.nil_append, List.length_cons] at hn hp ⊢
    simp only [List.mem_cons, List.not_mem_nil, or_false, not_or] at hm
    obtain ⟨m1, m2, m3, m4, m5, m6⟩ := hm
    rw [exprLoop, curT_cons, if_neg m1, if_neg m2, if_neg (by simp [m3, m4, m5]), if_neg m6, next_cons hp]
    simp only [bind_ok]
    rw [ih n _ (by omega) hp.of_cons]
    simp only [bind_ok, curL_cons, ids_cons]
    split
    · rename_i h; rw [hr h]
    · rfl

theorem apart_exprSep {a b : Ident} {s : Str} (hb : b.raw ≠ [])
    (hc : ¬ (a.raw ∈ [s%"::", s%":::"] ∧ b.raw ∈ [s%"::", s%":::"])) (ha : a.raw.getLast? = some ':' → a.raw ∈ [s%"::", s%":::"])
    (hb' : b.raw.head? = some ':' → b.raw ∈ [s%"::", s%":::"]) :
    Apart .cockroachdb a.raw (exprSep a b ++ (b.raw ++ s)) := by
  have head : (b.raw ++ s).head? = b.raw.head? := by
    cases e : b.raw with
    | nil => exact absurd e hb
    | cons c r => rfl
  have col : ∀ x y, a.raw.getLast? = some x → b.raw.head? = some y → ¬ (x = ':' ∧ y = ':') := by
    rintro x y hx hy ⟨rfl, rfl⟩
    exact hc ⟨ha hx, hb' hy⟩
  unfold exprSep
  split
  · exact Start.apart (start_cons (by decide))
  split
  · rename_i h
    simp only [Ident.str, List.nil_append] at h ⊢
    intro x y hx hy
    rw [head] at hy
    refine ⟨?_, ?_, fun _ => col x y hx hy⟩
    · rintro ⟨wx, wy⟩
      rcases h with h | h | h | h | h | h | h | h <;>
        first | (rw [h] at hx; cases hx; exact absurd wx (by decide)) | (rw [h] at hy; cases hy; exact absurd wy (by decide))
    · rintro ⟨wx, wy⟩
      subst wx wy
      rcases h with h | h | h | h | h | h | h | h <;>
        first | (rw [h] at hx; exact absurd hx (by decide)) | (rw [h] at hy; exact absurd hy (by decide))
  · exact Start.apart (start_cons (by decide))

theorem lex_exprSep {a b : Ident} {s : Str} : lex .cockroachdb (exprSep a b ++ s) = lex .cockroachdb s := by
  unfold exprSep
  split
  · exact lex_ws .cockroachdb ' ' s rfl
  split
  · rfl
  · exact lex_ws .cockroachdb ' ' s rfl

theorem lex_exprStrFrom {s : Str} (hs : Start s) : ∀ (l : List Word) (a : Ident), (∀ w ∈ l, WordOk w) →
    ApartCasts (a :: ids l) → (a.raw.getLast? = some ':' → a.raw ∈ [s%"::", s%":::"]) →
    Apart .cockroachdb a.raw (exprStrFrom a (ids l) ++ s) ∧
    lex .cockroachdb (exprStrFrom a (ids l) ++ s) = toks l ++ lex .cockroachdb s := by
  intro l
  induction l with
  | nil => intro a _ _ _; exact ⟨hs.apart, rfl⟩
  | cons w r ih =>
    intro a hw hc ha
    have h1 := hw w (by simp)
    have ih := ih w.1 (fun w hw' => hw w (by simp [hw'])) hc.2 (fun h => h1.2.2 (Or.inl h))
    simp only [ids_cons, exprStrFrom, Ident.str, List.append_assoc, toks_cons]
    refine ⟨apart_exprSep h1.1 hc.1 ha (fun h => h1.2.2 (Or.inr h)), ?_⟩
    rw [lex_exprSep, h1.2.1 _ ih.1, ih.2]

theorem lex_exprStr {s : Str} (hs : Start s) (l : List Word) (hw : ∀ w ∈ l, WordOk w) (hc : ApartCasts (ids l)) :
    lex .cockroachdb (exprStr (ids l) ++ s) = toks l ++ lex .cockroachdb s := by
  cases l with
  | nil => rfl
  | cons w r =>
    have h1 := hw w (by simp)
    have ih := lex_exprStrFrom hs r w.1 (fun w hw' => hw w (by simp [hw'])) hc (fun h => h1.2.2 (Or.inl h))
    simp only [ids_cons, exprStr, Ident.str, List.append_assoc, toks_cons]
    rw [h1.2.1 _ ih.1, ih.2]

/-! ## Default values -/

/-- The words of a default value; `first` tells that nothing precedes them. -/
inductive Dft : Bool → List Word → Prop
  | nil : Dft false []
  | ident (f : Bool) (t : Token) (r : List Word) : L t → t.type = .IDENT → Dft false r → Dft f ((rawIdent t.lit, [t]) :: r)
  | group (f : Bool) (g r : List Word) : Grp g → Dft false r → Dft f ((rawIdent s%"(", [openTok]) :: (g ++ r))
  | reserved (f : Bool) (t : Token) (r : List Word) : L t → isReservedValue t.type = true → Dft false r →
      Dft f ((newIdent t.type.str [] t.lit, [t]) :: r)
  | operator (f : Bool) (t : Token) (r : List Word) : L t → isOperator t.type = true → Dft false r →
      Dft f ((rawIdent t.lit, [t]) :: r)
  | dataType (t : Token) (r : List Word) : L t → isDataType t.type = true → Dft false r →
      Dft false ((rawIdent t.lit, [t]) :: r)

theorem openWord_ok : WordOk (rawIdent s%"(", [openTok]) :=
  wordOk_tok (Or.inr (Or.inr (Or.inr (Or.inr (Or.inr ⟨'(', by decide, rfl⟩))))) (rawIdent_raw _)

theorem Dft.ok {f : Bool} {g : List Word} (h : Dft f g) : ∀ w ∈ g, WordOk w := by
  induction h with
  | nil => simp
  | ident f t r ht _ _ ih =>
    intro w hw
    rcases List.mem_cons.1 hw with rfl | hw
    · exact wordOk_tok ht (rawIdent_raw _)
    · exact ih w hw
  | group f g r hg _ ih =>
    intro w hw
    rcases List.mem_cons.1 hw with rfl | hw
    · exact openWord_ok
    · rcases List.mem_append.1 hw with hw | hw
      · exact hg.ok w hw
      · exact ih w hw
  | reserved f t r ht _ _ ih =>
    intro w hw
    rcases List.mem_cons.1 hw with rfl | hw
    · exact wordOk_tok ht rfl
    · exact ih w hw
  | operator f t r ht _ _ ih =>
    intro w hw
    rcases List.mem_cons.1 hw with rfl | hw
    · exact wordOk_tok ht (rawIdent_raw _)
    · exact ih w hw
  | dataType t r ht _ _ ih =>
    intro w hw
    rcases List.mem_cons.1 hw with rfl | hw
    · exact wordOk_tok ht (rawIdent_raw _)
    · exact ih w hw

theorem parseExpr_post {ts : List Token} (hL : AllTok L ts) :
    Post (fun r => (∃ g, Grp g ∧ r.1 = rawIdent s%"(" :: ids g) ∧ AllTok L r.2) (parseExpr ts) := by
  unfold parseExpr
  refine Post.checkCur_bind (fun hc => ?_)
  simp only [List.mem_singleton] at hc
  refine Post.next_bind ((exprLoop_post _ _ hL.tail).bind ?_)
  rintro ⟨i₁, ts₁⟩ ⟨⟨g₁, hg₁, e₁, _⟩, h₁⟩
  simp only at e₁
  have := (hL.cur (by simp [hc])).open hc
  have hl : curL ts = s%"(" := by show (cur ts).lit = _; rw [this]; rfl
  exact Post.ok ⟨⟨g₁, hg₁, by simp [e₁, hl]⟩, h₁⟩

theorem parseExpr_reads {g : List Word} (h : Grp g) {rest : List Token} (hp : NoPanic (openTok :: (toks g ++ rest))) :
    parseExpr (openTok :: (toks g ++ rest)) = .ok (rawIdent s%"(" :: ids g, rest) := by
  unfold parseExpr
  simp only [checkCur, curT_cons, openTok_type, List.mem_singleton, if_true, bind_ok, next_cons hp]
  rw [exprLoop_reads h _ _ (by simp; omega) hp.of_cons]
  simp

theorem defaultLoop_post : ∀ (n : Nat) (v : Option Expr) (ts : List Token), AllTok L ts →
    Post (fun r => ((v = none ∧ r.1 = ⟨none⟩) ∨ ∃ g, Dft v.isNone g ∧ r.1 = ⟨some (v.getD [] ++ ids g)⟩) ∧ AllTok L r.2)
      (defaultLoop n v ts) := by
  intro n
  induction n with
  | zero => intro v ts _; exact trivial
  | succ n ih =>
    intro v ts hL
    -- a further piece in front of what the rest of the loop reads
    have step : ∀ (i : List Ident) (ts' : List Token), AllTok L ts' → (∀ g, Dft false g → ∃ g', Dft v.isNone g' ∧ ids g' = i ++ ids g) →
        Post (fun r => ((v = none ∧ r.1 = ⟨none⟩) ∨ ∃ g, Dft v.isNone g ∧ r.1 = ⟨some (v.getD [] ++ ids g)⟩) ∧ AllTok L r.2)
          (defaultLoop n (some (v.getD [] ++ i)) ts') := by
      intro i ts' h' hg
      refine (ih _ _ h').imp ?_
      rintro ⟨d, ts₁⟩ ⟨h, h₁⟩
      refine ⟨Or.inr ?_, h₁⟩
      rcases h with h | ⟨g, hd, e⟩
      · exact absurd h.1 (by simp)
      · obtain ⟨g', hg', e'⟩ := hg g hd
        exact ⟨g', hg', by simpa [e'] using e⟩
    have done : Post (fun r => ((v = none ∧ r.1 = ⟨none⟩) ∨ ∃ g, Dft v.isNone g ∧ r.1 = ⟨some (v.getD [] ++ ids g)⟩) ∧ AllTok L r.2)
        (.ok ((⟨v⟩ : Default), ts)) := by
      refine Post.ok ⟨?_, hL⟩
      cases v with
      | none => exact Or.inl ⟨rfl, rfl⟩
      | some e => exact Or.inr ⟨[], .nil, by simp⟩
    unfold defaultLoop
    split
    · rename_i hc
      have hx : L (cur ts) := hL.cur (by simp [hc])
      refine Post.next_bind (step _ _ hL.tail (fun g hg => ⟨_, .ident _ _ _ hx hc hg, rfl⟩))
    split
    · refine (parseExpr_post hL).bind ?_
      rintro ⟨i₁, ts₁⟩ ⟨⟨g₁, hg₁, e₁⟩, h₁⟩
      refine step _ _ h₁ (fun g hg => ⟨_, .group _ _ _ hg₁ hg, ?_⟩)
      simp only at e₁
      simp [e₁]
    split
    · exact done
    split
    · rename_i hc
      have hx : L (cur ts) := hL.cur (by intro h; rw [h] at hc; simp [isReservedValue] at hc)
      refine Post.next_bind (step _ _ hL.tail (fun g hg => ⟨_, .reserved _ _ _ hx hc hg, rfl⟩))
    split
    · rename_i hc
      have hx : L (cur ts) := hL.cur (by intro h; rw [h] at hc; simp [isOperator] at hc)
      refine Post.next_bind (step _ _ hL.tail (fun g hg => ⟨_, .operator _ _ _ hx hc hg, rfl⟩))
    split
    · rename_i hc
      have hx : L (cur ts) := hL.cur (by intro h; rw [h] at hc; simp [isDataType] at hc)
      cases v with
      | none => exact trivial
      | some e =>
        exact Post.next_bind (step _ _ hL.tail (fun g hg => ⟨_, .dataType _ _ hx hc hg, rfl⟩))
    split
    · exact done
    · exact trivial

theorem defaultLoop_reads {f : Bool} {g : List Word} (h : Dft f g) : ∀ (n : Nat) (v : Option Expr) (rest : List Token),
    (toks g).length < n → (f = false → v ≠ none) → curT rest ∈ [.NOT, .COMMA, .CLOSE_PAREN] → NoPanic (toks g ++ rest) →
    defaultLoop n v (toks g ++ rest) = .ok (⟨some (v.getD [] ++ ids g)⟩, rest) := by
  induction h with
  | nil =>
    intro n v rest hn hv hr hp
    obtain ⟨n, rfl⟩ : ∃ m, n = m + 1 := ⟨n - 1, by omega⟩
    cases v with
    | none => exact absurd rfl (hv rfl)
    | some e =>
      simp only [List.mem_cons, List.not_mem_nil, or_false] at hr
      have h1 : curT rest ≠ .IDENT ∧ curT rest ≠ .OPEN_PAREN := by rcases hr with h | h | h <;> simp [h]
      simp only [toks_nil, List.nil_append]
      unfold defaultLoop
      rw [if_neg h1.1, if_neg h1.2, if_pos hr]
      simp
  | ident f t r ht hc _ ih =>
    intro n v rest hn hv hr hp
    obtain ⟨n, rfl⟩ : ∃ m, n = m + 1 := ⟨n - 1, by omega⟩
    simp only [toks_cons, List.cons_append, List.nil_append, List.length_cons] at hn hp ⊢
    unfold defaultLoop
    rw [if_pos (by simp [hc]), next_cons hp]
    simp only [bind_ok]
    rw [ih n _ rest (by omega) (by simp [appendExpr]) hr hp.of_cons]
    simp [appendExpr]
  | group f g r hg _ ih =>
    intro n v rest hn hv hr hp
    obtain ⟨n, rfl⟩ : ∃ m, n = m + 1 := ⟨n - 1, by omega⟩
    simp only [toks_cons, toks_append, List.cons_append, List.nil_append, List.append_assoc, List.length_cons,
      List.length_append] at hn hp ⊢
    unfold defaultLoop
    rw [if_neg (by simp), if_pos (by simp), parseExpr_reads hg hp]
    simp only [bind_ok]
    rw [ih n _ rest (by omega) (by simp [appendExpr]) hr hp.of_cons.of_append]
    simp [appendExpr]
  | reserved f t r ht hc _ ih =>
    intro n v rest hn hv hr hp
    obtain ⟨n, rfl⟩ : ∃ m, n = m + 1 := ⟨n - 1, by omega⟩
    simp only [toks_cons, List.cons_append, List.nil_append, List.length_cons] at hn hp ⊢
    have hT : t.type = .NULL ∨ t.type = .TRUE ∨ t.type = .FALSE := by simpa [isReservedValue] using hc
    unfold defaultLoop
    rw [if_neg (by rcases hT with h | h | h <;> simp [h]), if_neg (by rcases hT with h | h | h <;> simp [h]),
      if_neg (by rcases hT with h | h | h <;> simp [h]), if_pos (by simpa using hc), next_cons hp]
    simp only [bind_ok]
    rw [ih n _ rest (by omega) (by simp [appendExpr]) hr hp.of_cons]
    simp [appendExpr]
  | operator f t r ht hc _ ih =>
    intro n v rest hn hv hr hp
    obtain ⟨n, rfl⟩ : ∃ m, n = m + 1 := ⟨n - 1, by omega⟩
    simp only [toks_cons, List.cons_append, List.nil_append, List.length_cons] at hn hp ⊢
    have hT : t.type ∉ [.IDENT, .OPEN_PAREN, .NOT, .COMMA, .CLOSE_PAREN] ∧ isReservedValue t.type = false := by
      revert hc; cases t.type <;> simp [isOperator, isReservedValue]
    simp only [List.mem_cons, List.not_mem_nil, or_false, not_or] at hT
    unfold defaultLoop
    rw [if_neg (by simp [hT]), if_neg (by simp [hT]),
      if_neg (by simp [hT]), if_neg (by simp [hT]), if_pos (by simpa using hc), next_cons hp]
    simp only [bind_ok]
    rw [ih n _ rest (by omega) (by simp [appendExpr]) hr hp.of_cons]
    simp [appendExpr]
  | dataType t r ht hc _ ih =>
    intro n v rest hn hv hr hp
    obtain ⟨n, rfl⟩ : ∃ m, n = m + 1 := ⟨n - 1, by omega⟩
    cases v with
    | none => exact absurd rfl (hv rfl)
    | some e =>
      simp only [toks_cons, List.cons_append, List.nil_append, List.length_cons] at hn hp ⊢
      have hT : t.type ∉ [.IDENT, .OPEN_PAREN, .NOT, .COMMA, .CLOSE_PAREN] ∧ isReservedValue t.type = false ∧
          isOperator t.type = false := by
        revert hc; cases t.type <;> simp [isOperator, isReservedValue, isDataType]
      simp only [List.mem_cons, List.not_mem_nil, or_false, not_or] at hT
      unfold defaultLoop
      rw [if_neg (by simp [hT]), if_neg (by simp [hT]),
        if_neg (by simp [hT]), if_neg (by simp [hT]), if_neg (by simp [hT]), if_pos (by simpa using hc)]
      simp only [next_cons hp, bind_ok]
      rw [ih n _ rest (by omega) (by simp) hr hp.of_cons]
      simp

theorem Dft.ids_ne {g : List Word} (h : Dft true g) : ids g ≠ [] := by
  cases h <;> simp

end Ddl.Crdb
