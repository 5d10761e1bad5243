import Verif.Spec.Grammar
import Verif.Pg.Parser
import Verif.Crdb.Parser
import Verif.My.Parser
import Verif.Sp.Parser

/-! # The parsers on tokens of a known shape -/

namespace Ddl
open Spec
set_option autoImplicit false

theorem _root_.Ddl.Spec.NoPanic.tail {ts : List Token} (h : NoPanic ts) : NoPanic ts.tail :=
  fun t ht => h t (List.mem_of_mem_tail ht)

theorem _root_.Ddl.Spec.NoPanic.of_cons {t : Token} {ts : List Token} (h : NoPanic (t :: ts)) : NoPanic ts := NoPanic.tail h

theorem _root_.Ddl.Spec.NoPanic.of_append {l r : List Token} (h : NoPanic (l ++ r)) : NoPanic r :=
  fun t ht => h t (List.mem_append_right _ ht)

theorem _root_.Ddl.Spec.NoPanic.curT {ts : List Token} (h : NoPanic ts) : curT ts ≠ .PANIC := by
  cases ts with
  | nil => simp [Ddl.curT, cur, eofToken]
  | cons t ts => exact h t (by simp)

theorem _root_.Ddl.Spec.NoPanic.next {ts : List Token} (h : NoPanic ts) : next ts = .ok ts.tail := by
  rw [Ddl.next, if_neg]
  exact (NoPanic.tail (NoPanic.tail h)).curT

theorem _root_.Ddl.Spec.NoPanic.start {ts : List Token} (h : NoPanic ts) : start ts = .ok ts := by
  rw [Ddl.start, if_neg]
  rintro (e | e)
  · exact h.curT e
  · exact h.tail.curT e

@[simp] theorem curT_cons (t : Token) (ts : List Token) : curT (t :: ts) = t.type := rfl
@[simp] theorem curL_cons (t : Token) (ts : List Token) : curL (t :: ts) = t.lit := rfl
@[simp] theorem peekT_cons (t : Token) (ts : List Token) : peekT (t :: ts) = curT ts := rfl
@[simp] theorem peekL_cons (t : Token) (ts : List Token) : peekL (t :: ts) = curL ts := rfl

theorem next_cons {t : Token} {ts : List Token} (h : NoPanic (t :: ts)) : Ddl.next (t :: ts) = .ok ts := h.next

@[simp] theorem bind_ok {α β : Type} (a : α) (f : α → Res β) : (Res.ok a >>= f) = f a := rfl
@[simp] theorem bind_err {α β : Type} (e : Err) (f : α → Res β) : ((Res.err e : Res α) >>= f) = .err e := rfl

theorem map_type_cons {a : TokType} {l : List TokType} {ts : List Token} (h : ts.map (·.type) = a :: l) :
    ∃ t r, ts = t :: r ∧ t.type = a ∧ r.map (·.type) = l := by
  cases ts with
  | nil => simp at h
  | cons t r => exact ⟨t, r, rfl, by simpa using h⟩

theorem map_type_append {a b : List TokType} {ts : List Token} (h : ts.map (·.type) = a ++ b) :
    ∃ l r, ts = l ++ r ∧ l.map (·.type) = a ∧ r.map (·.type) = b := by
  obtain ⟨l, r, h₁, h₂, h₃⟩ := List.map_eq_append_iff.mp h
  exact ⟨l, r, h₁, h₂, h₃⟩

theorem map_type_nil {ts : List Token} (h : ts.map (·.type) = []) : ts = [] := by simpa using h

theorem orderTypes_cases {o : Option Bool} {l : List Token} (h : l.map (·.type) = orderTypes o) :
    (l = [] ∧ o = none) ∨ (∃ t, l = [t] ∧ t.type = .ASC ∧ o = some false) ∨ ∃ t, l = [t] ∧ t.type = .DESC ∧ o = some true := by
  rcases o with _ | b | b
  · left; exact ⟨map_type_nil h, rfl⟩
  · right; left
    obtain ⟨t, r, e, e', e''⟩ := map_type_cons h
    rw [map_type_nil e''] at e
    exact ⟨t, e, e', rfl⟩
  · right; right
    obtain ⟨t, r, e, e', e''⟩ := map_type_cons h
    rw [map_type_nil e''] at e
    exact ⟨t, e, e', rfl⟩

theorem parseIfNotExists_shape {ine : Bool} {k : Token} {l : List Token} {r : List Token}
    (h : l.map (·.type) = if ine then [.IF, .NOT, .EXISTS] else []) (hr : curT r = .IDENT) (hn : NoPanic (k :: l ++ r)) :
    ∃ k', parseIfNotExists (k :: l ++ r) = .ok (ine, k' :: r) ∧ NoPanic (k' :: r) := by
  cases ine with
  | false =>
    rw [map_type_nil h] at hn ⊢
    refine ⟨k, ?_, hn⟩
    simp [parseIfNotExists, hr]
  | true =>
    obtain ⟨t₁, l₁, rfl, h₁, h⟩ := map_type_cons h
    obtain ⟨t₂, l₂, rfl, h₂, h⟩ := map_type_cons h
    obtain ⟨t₃, l₃, rfl, h₃, h⟩ := map_type_cons h
    rw [map_type_nil h] at hn ⊢
    simp only [List.cons_append, List.nil_append] at hn ⊢
    refine ⟨t₃, ?_, hn.of_cons.of_cons.of_cons⟩
    rw [parseIfNotExists, if_pos (by simp [h₁]), next_cons hn]
    simp [checkPeek, h₂, h₃, next_cons hn.of_cons, next_cons hn.of_cons.of_cons]

theorem Pg.columnIdentsLoop_shape {c : Token} (hc : c.type = .CLOSE_PAREN) :
    ∀ (os : List (Option Bool)) (body : List Token), (∀ o ∈ os, o = none) → body.map (·.type) = columnTypes os →
      ∃ ids, ∀ (n : Nat) (rest : List Token), body.length < n → NoPanic (body ++ c :: rest) →
      Pg.columnIdentsLoop n (body ++ c :: rest) = .ok (ids, rest) := by
  intro os
  induction os with
  | nil =>
    intro body _ hb
    refine ⟨[], fun n rest hn hp => ?_⟩
    obtain ⟨n, rfl⟩ : ∃ m', n = m' + 1 := ⟨n - 1, by omega⟩
    rw [map_type_nil hb] at hp ⊢
    simp only [List.nil_append] at hp ⊢
    simp [Pg.columnIdentsLoop, hc, next_cons hp]
  | cons o os ih =>
    intro body ho hb
    have hnone := ho o (by simp)
    subst hnone
    cases os with
    | nil =>
      obtain ⟨t, r, rfl, ht, hr⟩ := map_type_cons hb
      obtain ⟨ids, e⟩ := ih r (by simp) hr
      refine ⟨Pg.rawIdent t.lit :: ids, fun n rest hn hp => ?_⟩
      obtain ⟨m, rfl⟩ : ∃ m', n = m' + 1 := ⟨n - 1, by omega⟩
      simp only [List.cons_append] at hp ⊢
      simp [Pg.columnIdentsLoop, ht, next_cons hp, e m rest (by simpa using hn) hp.of_cons]
    | cons o' os =>
      obtain ⟨t, r, rfl, ht, hr⟩ := map_type_cons hb
      obtain ⟨k, r, rfl, hk, hr⟩ := map_type_cons hr
      obtain ⟨ids, e⟩ := ih r (fun o ho' => ho o (by simp [ho'])) hr
      refine ⟨Pg.rawIdent t.lit :: ids, fun n rest hn hp => ?_⟩
      obtain ⟨m, rfl⟩ : ∃ m', n = m' + 1 := ⟨n - 1, by omega⟩
      obtain ⟨m, rfl⟩ : ∃ m', m = m' + 1 := ⟨m - 1, by simp at hn; omega⟩
      simp only [List.cons_append] at hp ⊢
      simp [Pg.columnIdentsLoop, ht, hk, next_cons hp, next_cons hp.of_cons,
        e m rest (by simp at hn; omega) hp.of_cons.of_cons]

/-- A complete `CREATE INDEX` statement is read exactly up to its closing parenthesis. -/
theorem Pg.parseCreate_index {ts : List Token} (h : CompleteIndex false ts) :
    ∃ i, ∀ rest, NoPanic (ts ++ rest) → Pg.parseCreate (ts ++ rest) = .ok (.createIndex i, rest) := by
  obtain ⟨uq, ine, cols, _, ho, h⟩ := h
  obtain ⟨a, b, rfl, h₁, hb⟩ := map_type_append h
  obtain ⟨pre, b', rfl, h₂, hb'⟩ := map_type_append h₁
  obtain ⟨c, r, rfl, hc, h'⟩ := map_type_cons hb
  cases map_type_nil h'
  obtain ⟨ca, pre', rfl, h₃, h₄⟩ := map_type_append h₂
  obtain ⟨kc, uqs, rfl, hkc, huq⟩ := map_type_cons h₃
  obtain ⟨ki, ines, rfl, hki, hine⟩ := map_type_cons h₄
  obtain ⟨nm, r, rfl, hnm, h⟩ := map_type_cons hb'
  obtain ⟨on_, r, rfl, hon, h⟩ := map_type_cons h
  obtain ⟨tb, r, rfl, htb, h⟩ := map_type_cons h
  obtain ⟨op, body, rfl, hop, h⟩ := map_type_cons h
  obtain ⟨ids, ec⟩ := Pg.columnIdentsLoop_shape hc cols body (ho rfl) h
  refine ⟨⟨[], uq, ine, Pg.rawIdent nm.lit, newObjectName .postgres tb.lit, [], ids⟩, fun rest hp => ?_⟩
  simp only [List.append_assoc, List.cons_append, List.nil_append] at hp ⊢
  have hp₁ := hp.of_cons
  have hpu : ∃ k, Pg.parseUnique (uqs ++ ki :: (ines ++ nm :: on_ :: tb :: op :: (body ++ c :: rest))) =
      .ok (uq, k :: (ines ++ nm :: on_ :: tb :: op :: (body ++ c :: rest))) ∧
      NoPanic (k :: (ines ++ nm :: on_ :: tb :: op :: (body ++ c :: rest))) ∧
      curT (uqs ++ ki :: (ines ++ nm :: on_ :: tb :: op :: (body ++ c :: rest))) = if uq then .UNIQUE else .INDEX := by
    cases uq with
    | false =>
      cases map_type_nil huq
      exact ⟨ki, by simp [Pg.parseUnique, hki], hp₁, by simp [hki]⟩
    | true =>
      obtain ⟨u, r, rfl, hu, h⟩ := map_type_cons huq
      cases map_type_nil h
      simp only [List.cons_append, List.nil_append] at hp₁ ⊢
      exact ⟨ki, by simp [Pg.parseUnique, hu, next_cons hp₁], hp₁.of_cons, by simp [hu]⟩
  obtain ⟨k, eu, hp₂, eT⟩ := hpu
  obtain ⟨k', ei, hp₃⟩ := parseIfNotExists_shape (k := k) (r := nm :: on_ :: tb :: op :: (body ++ c :: rest)) hine
    (by simp [hnm]) (by simpa using hp₂)
  have hp₄ := hp₃.of_cons
  have hp₅ := hp₄.of_cons
  have hp₆ := hp₅.of_cons
  have hp₇ := hp₆.of_cons
  have hp₈ := hp₇.of_cons
  have ec := ec ((body ++ c :: rest).length + 1) rest (by simp; omega) hp₈
  have ec' : Pg.parseColumnIdents (op :: (body ++ c :: rest)) = .ok (ids, rest) := by
    rw [Pg.parseColumnIdents, List.length_cons, Pg.columnIdentsLoop]
    simp only [curT_cons, hop, true_or, if_true, next_cons hp₇, bind_ok, ec]
  have e : Pg.parseCreateIndex (uqs ++ ki :: (ines ++ nm :: on_ :: tb :: op :: (body ++ c :: rest))) =
      .ok (⟨[], uq, ine, Pg.rawIdent nm.lit, newObjectName .postgres tb.lit, [], ids⟩, rest) := by
    rw [Pg.parseCreateIndex, eu]
    simp only [List.cons_append] at ei
    simp [ei, next_cons hp₃, next_cons hp₄, next_cons hp₅, next_cons hp₆, checkCur, hnm, hon, htb, hop, Pg.parseUsing, ec']
  rw [Pg.parseCreate, next_cons hp]
  cases uq <;> simp [eT] at e ⊢ <;> simp [e]

theorem Crdb.parseOrder_shape {o : Option Bool} {t : Token} {l r : List Token} (hl : l.map (·.type) = orderTypes o)
    (hr : curT r ≠ .ASC ∧ curT r ≠ .DESC) (hp : NoPanic (t :: l ++ r)) :
    ∃ k, Crdb.parseOrder (t :: l ++ r) = .ok (o, k :: r) ∧ NoPanic (k :: r) := by
  rcases orderTypes_cases hl with ⟨rfl, rfl⟩ | ⟨k, rfl, hk, rfl⟩ | ⟨k, rfl, hk, rfl⟩
  · exact ⟨t, by simp [Crdb.parseOrder, hr], hp⟩
  · exact ⟨k, by simp [Crdb.parseOrder, hk, next_cons (t := t) (ts := k :: r) hp], NoPanic.of_cons (t := t) (ts := k :: r) hp⟩
  · exact ⟨k, by simp [Crdb.parseOrder, hk, next_cons (t := t) (ts := k :: r) hp], NoPanic.of_cons (t := t) (ts := k :: r) hp⟩

theorem Crdb.columnIdentsLoop_shape {c : Token} (hc : c.type = .CLOSE_PAREN) :
    ∀ (os : List (Option Bool)) (body : List Token), body.map (·.type) = columnTypes os →
      ∃ ids, ∀ (n : Nat) (rest : List Token), body.length < n → NoPanic (body ++ c :: rest) →
      Crdb.columnIdentsLoop n (body ++ c :: rest) = .ok (ids, rest) := by
  intro os
  induction os with
  | nil =>
    intro body hb
    refine ⟨[], fun n rest hn hp => ?_⟩
    obtain ⟨n, rfl⟩ : ∃ m', n = m' + 1 := ⟨n - 1, by omega⟩
    rw [map_type_nil hb] at hp ⊢
    simp only [List.nil_append] at hp ⊢
    simp [Crdb.columnIdentsLoop, hc, next_cons hp]
  | cons o os ih =>
    intro body hb
    cases os with
    | nil =>
      obtain ⟨t, r, rfl, ht, hr⟩ := map_type_cons hb
      obtain ⟨ids, e⟩ := ih [] rfl
      refine ⟨⟨Crdb.rawIdent t.lit, o⟩ :: ids, fun n rest hn hp => ?_⟩
      obtain ⟨m, rfl⟩ : ∃ m', n = m' + 1 := ⟨n - 1, by omega⟩
      simp only [List.cons_append] at hp ⊢
      obtain ⟨k, e₁, hp'⟩ := Crdb.parseOrder_shape hr (by simp [hc]) hp
      have e := e m rest (by simp at hn ⊢; omega) hp'.of_cons
      simp only [List.nil_append, List.cons_append] at e e₁
      rw [Crdb.columnIdentsLoop]
      simp [ht, e₁, next_cons hp', e]
    | cons o' os =>
      obtain ⟨t, r, rfl, ht, hr⟩ := map_type_cons hb
      obtain ⟨l, r, rfl, hl, hr⟩ := map_type_append hr
      obtain ⟨k, r, rfl, hk, hr⟩ := map_type_cons hr
      obtain ⟨ids, e⟩ := ih r hr
      refine ⟨⟨Crdb.rawIdent t.lit, o⟩ :: ids, fun n rest hn hp => ?_⟩
      obtain ⟨m, rfl⟩ : ∃ m', n = m' + 1 := ⟨n - 1, by omega⟩
      obtain ⟨m, rfl⟩ : ∃ m', m = m' + 1 := ⟨m - 1, by simp at hn; omega⟩
      simp only [List.cons_append, List.append_assoc] at hp ⊢
      obtain ⟨k', e₁, hp'⟩ := Crdb.parseOrder_shape hl (by simp [hk]) hp
      have e := e m rest (by simp at hn; omega) hp'.of_cons.of_cons
      simp only [List.cons_append] at e₁
      rw [Crdb.columnIdentsLoop]
      simp [ht, e₁, next_cons hp']
      rw [Crdb.columnIdentsLoop]
      simp [hk, next_cons hp'.of_cons, e]

/-- A complete `CREATE INDEX` statement is read exactly up to its closing parenthesis. -/
theorem Crdb.parseCreate_index {ts : List Token} (h : CompleteIndex true ts) :
    ∃ i, ∀ rest, NoPanic (ts ++ rest) → curT rest ≠ .USING → Crdb.parseCreate (ts ++ rest) = .ok (.createIndex i, rest) := by
  obtain ⟨uq, ine, cols, _, _, h⟩ := h
  obtain ⟨a, b, rfl, h₁, hb⟩ := map_type_append h
  obtain ⟨pre, b', rfl, h₂, hb'⟩ := map_type_append h₁
  obtain ⟨c, r, rfl, hc, h'⟩ := map_type_cons hb
  cases map_type_nil h'
  obtain ⟨ca, pre', rfl, h₃, h₄⟩ := map_type_append h₂
  obtain ⟨kc, uqs, rfl, hkc, huq⟩ := map_type_cons h₃
  obtain ⟨ki, ines, rfl, hki, hine⟩ := map_type_cons h₄
  obtain ⟨nm, r, rfl, hnm, h⟩ := map_type_cons hb'
  obtain ⟨on_, r, rfl, hon, h⟩ := map_type_cons h
  obtain ⟨tb, r, rfl, htb, h⟩ := map_type_cons h
  obtain ⟨op, body, rfl, hop, h⟩ := map_type_cons h
  obtain ⟨ids, ec⟩ := Crdb.columnIdentsLoop_shape hc cols body h
  refine ⟨⟨[], uq, ine, Crdb.rawIdent nm.lit, newObjectName .cockroachdb tb.lit, none, ids, none⟩, fun rest hp hu => ?_⟩
  simp only [List.append_assoc, List.cons_append, List.nil_append] at hp ⊢
  have hp₁ := hp.of_cons
  have hpu : ∃ k, Crdb.parseUnique (uqs ++ ki :: (ines ++ nm :: on_ :: tb :: op :: (body ++ c :: rest))) =
      .ok (uq, k :: (ines ++ nm :: on_ :: tb :: op :: (body ++ c :: rest))) ∧
      NoPanic (k :: (ines ++ nm :: on_ :: tb :: op :: (body ++ c :: rest))) ∧
      curT (uqs ++ ki :: (ines ++ nm :: on_ :: tb :: op :: (body ++ c :: rest))) = if uq then .UNIQUE else .INDEX := by
    cases uq with
    | false =>
      cases map_type_nil huq
      exact ⟨ki, by simp [Crdb.parseUnique, hki], hp₁, by simp [hki]⟩
    | true =>
      obtain ⟨u, r, rfl, hu, h⟩ := map_type_cons huq
      cases map_type_nil h
      simp only [List.cons_append, List.nil_append] at hp₁ ⊢
      exact ⟨ki, by simp [Crdb.parseUnique, hu, next_cons hp₁], hp₁.of_cons, by simp [hu]⟩
  obtain ⟨k, eu, hp₂, eT⟩ := hpu
  obtain ⟨k', ei, hp₃⟩ := parseIfNotExists_shape (k := k) (r := nm :: on_ :: tb :: op :: (body ++ c :: rest)) hine
    (by simp [hnm]) (by simpa using hp₂)
  have hp₄ := hp₃.of_cons
  have hp₅ := hp₄.of_cons
  have hp₆ := hp₅.of_cons
  have hp₇ := hp₆.of_cons
  have hp₈ := hp₇.of_cons
  have ec := ec ((body ++ c :: rest).length + 1) rest (by simp; omega) hp₈
  have ec' : Crdb.parseColumnIdents (op :: (body ++ c :: rest)) = .ok (ids, rest) := by
    rw [Crdb.parseColumnIdents, List.length_cons, Crdb.columnIdentsLoop]
    simp only [curT_cons, hop, true_or, if_true, next_cons hp₇, bind_ok, ec]
  have e : Crdb.parseCreateIndex (uqs ++ ki :: (ines ++ nm :: on_ :: tb :: op :: (body ++ c :: rest))) =
      .ok (⟨[], uq, ine, Crdb.rawIdent nm.lit, newObjectName .cockroachdb tb.lit, none, ids, none⟩, rest) := by
    rw [Crdb.parseCreateIndex, eu]
    simp only [List.cons_append] at ei
    simp [ei, next_cons hp₃, next_cons hp₄, next_cons hp₅, next_cons hp₆, checkCur, hnm, hon, htb, hop, Crdb.parseUsingOpt, ec', hu]
  rw [Crdb.parseCreate, next_cons hp]
  cases uq <;> simp [eT] at e ⊢ <;> simp [e]

theorem My.parseOrder_shape {o : Option Bool} {t : Token} {l r : List Token} (hl : l.map (·.type) = orderTypes o)
    (hr : curT r ≠ .ASC ∧ curT r ≠ .DESC) (hp : NoPanic (t :: l ++ r)) :
    ∃ k, My.parseOrder (t :: l ++ r) = .ok (o, k :: r) ∧ NoPanic (k :: r) := by
  rcases orderTypes_cases hl with ⟨rfl, rfl⟩ | ⟨k, rfl, hk, rfl⟩ | ⟨k, rfl, hk, rfl⟩
  · exact ⟨t, by simp [My.parseOrder, hr], hp⟩
  · exact ⟨k, by simp [My.parseOrder, hk, next_cons (t := t) (ts := k :: r) hp], NoPanic.of_cons (t := t) (ts := k :: r) hp⟩
  · exact ⟨k, by simp [My.parseOrder, hk, next_cons (t := t) (ts := k :: r) hp], NoPanic.of_cons (t := t) (ts := k :: r) hp⟩

theorem My.columnIdentsLoop_shape {c : Token} (hc : c.type = .CLOSE_PAREN) :
    ∀ (os : List (Option Bool)) (body : List Token), body.map (·.type) = columnTypes os →
      ∃ ids, ∀ (n : Nat) (rest : List Token), body.length < n → NoPanic (body ++ c :: rest) →
      My.columnIdentsLoop n (body ++ c :: rest) = .ok (ids, rest) := by
  intro os
  induction os with
  | nil =>
    intro body hb
    refine ⟨[], fun n rest hn hp => ?_⟩
    obtain ⟨n, rfl⟩ : ∃ m', n = m' + 1 := ⟨n - 1, by omega⟩
    rw [map_type_nil hb] at hp ⊢
    simp only [List.nil_append] at hp ⊢
    simp [My.columnIdentsLoop, hc, next_cons hp]
  | cons o os ih =>
    intro body hb
    cases os with
    | nil =>
      obtain ⟨t, r, rfl, ht, hr⟩ := map_type_cons hb
      obtain ⟨ids, e⟩ := ih [] rfl
      refine ⟨⟨My.rawIdent t.lit, o⟩ :: ids, fun n rest hn hp => ?_⟩
      obtain ⟨m, rfl⟩ : ∃ m', n = m' + 1 := ⟨n - 1, by omega⟩
      simp only [List.cons_append] at hp ⊢
      obtain ⟨k, e₁, hp'⟩ := My.parseOrder_shape hr (by simp [hc]) hp
      have e := e m rest (by simp at hn ⊢; omega) hp'.of_cons
      simp only [List.nil_append, List.cons_append] at e e₁
      rw [My.columnIdentsLoop]
      simp [ht, e₁, next_cons hp', e]
    | cons o' os =>
      obtain ⟨t, r, rfl, ht, hr⟩ := map_type_cons hb
      obtain ⟨l, r, rfl, hl, hr⟩ := map_type_append hr
      obtain ⟨k, r, rfl, hk, hr⟩ := map_type_cons hr
      obtain ⟨ids, e⟩ := ih r hr
      refine ⟨⟨My.rawIdent t.lit, o⟩ :: ids, fun n rest hn hp => ?_⟩
      obtain ⟨m, rfl⟩ : ∃ m', n = m' + 1 := ⟨n - 1, by omega⟩
      obtain ⟨m, rfl⟩ : ∃ m', m = m' + 1 := ⟨m - 1, by simp at hn; omega⟩
      simp only [List.cons_append, List.append_assoc] at hp ⊢
      obtain ⟨k', e₁, hp'⟩ := My.parseOrder_shape hl (by simp [hk]) hp
      have e := e m rest (by simp at hn; omega) hp'.of_cons.of_cons
      simp only [List.cons_append] at e₁
      rw [My.columnIdentsLoop]
      simp [ht, e₁, next_cons hp']
      rw [My.columnIdentsLoop]
      simp [hk, next_cons hp'.of_cons, e]

/-- A complete `CREATE INDEX` statement is read exactly up to its closing parenthesis. -/
theorem My.parseCreate_index {ts : List Token} (h : CompleteIndex true ts) :
    ∃ i, ∀ rest, NoPanic (ts ++ rest) → My.parseCreate (ts ++ rest) = .ok (.createIndex i, rest) := by
  obtain ⟨uq, ine, cols, _, _, h⟩ := h
  obtain ⟨a, b, rfl, h₁, hb⟩ := map_type_append h
  obtain ⟨pre, b', rfl, h₂, hb'⟩ := map_type_append h₁
  obtain ⟨c, r, rfl, hc, h'⟩ := map_type_cons hb
  cases map_type_nil h'
  obtain ⟨ca, pre', rfl, h₃, h₄⟩ := map_type_append h₂
  obtain ⟨kc, uqs, rfl, hkc, huq⟩ := map_type_cons h₃
  obtain ⟨ki, ines, rfl, hki, hine⟩ := map_type_cons h₄
  obtain ⟨nm, r, rfl, hnm, h⟩ := map_type_cons hb'
  obtain ⟨on_, r, rfl, hon, h⟩ := map_type_cons h
  obtain ⟨tb, r, rfl, htb, h⟩ := map_type_cons h
  obtain ⟨op, body, rfl, hop, h⟩ := map_type_cons h
  obtain ⟨ids, ec⟩ := My.columnIdentsLoop_shape hc cols body h
  refine ⟨⟨[], uq, ine, newObjectName .mysql nm.lit, newObjectName .mysql tb.lit, [], ids⟩, fun rest hp => ?_⟩
  simp only [List.append_assoc, List.cons_append, List.nil_append] at hp ⊢
  have hp₁ := hp.of_cons
  have hpu : ∃ k, My.parseUnique (uqs ++ ki :: (ines ++ nm :: on_ :: tb :: op :: (body ++ c :: rest))) =
      .ok (uq, k :: (ines ++ nm :: on_ :: tb :: op :: (body ++ c :: rest))) ∧
      NoPanic (k :: (ines ++ nm :: on_ :: tb :: op :: (body ++ c :: rest))) ∧
      curT (uqs ++ ki :: (ines ++ nm :: on_ :: tb :: op :: (body ++ c :: rest))) = if uq then .UNIQUE else .INDEX := by
    cases uq with
    | false =>
      cases map_type_nil huq
      exact ⟨ki, by simp [My.parseUnique, hki], hp₁, by simp [hki]⟩
    | true =>
      obtain ⟨u, r, rfl, hu, h⟩ := map_type_cons huq
      cases map_type_nil h
      simp only [List.cons_append, List.nil_append] at hp₁ ⊢
      exact ⟨ki, by simp [My.parseUnique, hu, next_cons hp₁], hp₁.of_cons, by simp [hu]⟩
  obtain ⟨k, eu, hp₂, eT⟩ := hpu
  obtain ⟨k', ei, hp₃⟩ := parseIfNotExists_shape (k := k) (r := nm :: on_ :: tb :: op :: (body ++ c :: rest)) hine
    (by simp [hnm]) (by simpa using hp₂)
  have hp₄ := hp₃.of_cons
  have hp₅ := hp₄.of_cons
  have hp₆ := hp₅.of_cons
  have hp₇ := hp₆.of_cons
  have hp₈ := hp₇.of_cons
  have ec := ec ((body ++ c :: rest).length + 1) rest (by simp; omega) hp₈
  have ec' : My.parseColumnIdents (op :: (body ++ c :: rest)) = .ok (ids, rest) := by
    rw [My.parseColumnIdents, List.length_cons, My.columnIdentsLoop]
    simp only [curT_cons, hop, true_or, if_true, next_cons hp₇, bind_ok, ec]
  have e : My.parseCreateIndex (uqs ++ ki :: (ines ++ nm :: on_ :: tb :: op :: (body ++ c :: rest))) =
      .ok (⟨[], uq, ine, newObjectName .mysql nm.lit, newObjectName .mysql tb.lit, [], ids⟩, rest) := by
    rw [My.parseCreateIndex, eu]
    simp only [List.cons_append] at ei
    simp [ei, next_cons hp₃, next_cons hp₄, next_cons hp₅, next_cons hp₆, checkCur, hnm, hon, htb, hop, My.parseUsing, ec']
  rw [My.parseCreate, next_cons hp]
  cases uq <;> simp [eT] at e ⊢ <;> simp [e]

theorem Sp.parseOrder_shape {o : Option Bool} {t : Token} {l r : List Token} (hl : l.map (·.type) = orderTypes o)
    (hr : curT r ≠ .ASC ∧ curT r ≠ .DESC) (hp : NoPanic (t :: l ++ r)) :
    ∃ k, Sp.parseOrder (t :: l ++ r) = .ok (o, k :: r) ∧ NoPanic (k :: r) := by
  rcases orderTypes_cases hl with ⟨rfl, rfl⟩ | ⟨k, rfl, hk, rfl⟩ | ⟨k, rfl, hk, rfl⟩
  · exact ⟨t, by simp [Sp.parseOrder, hr], hp⟩
  · exact ⟨k, by simp [Sp.parseOrder, hk, next_cons (t := t) (ts := k :: r) hp], NoPanic.of_cons (t := t) (ts := k :: r) hp⟩
  · exact ⟨k, by simp [Sp.parseOrder, hk, next_cons (t := t) (ts := k :: r) hp], NoPanic.of_cons (t := t) (ts := k :: r) hp⟩

theorem Sp.columnIdentsLoop_shape {c : Token} (hc : c.type = .CLOSE_PAREN) :
    ∀ (os : List (Option Bool)) (body : List Token), body.map (·.type) = columnTypes os →
      ∃ ids, ∀ (n : Nat) (rest : List Token), body.length < n → NoPanic (body ++ c :: rest) →
      Sp.columnIdentsLoop n (body ++ c :: rest) = .ok (ids, rest) := by
  intro os
  induction os with
  | nil =>
    intro body hb
    refine ⟨[], fun n rest hn hp => ?_⟩
    obtain ⟨n, rfl⟩ : ∃ m', n = m' + 1 := ⟨n - 1, by omega⟩
    rw [map_type_nil hb] at hp ⊢
    simp only [List.nil_append] at hp ⊢
    simp [Sp.columnIdentsLoop, hc, next_cons hp]
  | cons o os ih =>
    intro body hb
    cases os with
    | nil =>
      obtain ⟨t, r, rfl, ht, hr⟩ := map_type_cons hb
      obtain ⟨ids, e⟩ := ih [] rfl
      refine ⟨⟨Sp.rawIdent t.lit, o⟩ :: ids, fun n rest hn hp => ?_⟩
      obtain ⟨m, rfl⟩ : ∃ m', n = m' + 1 := ⟨n - 1, by omega⟩
      simp only [List.cons_append] at hp ⊢
      obtain ⟨k, e₁, hp'⟩ := Sp.parseOrder_shape hr (by simp [hc]) hp
      have e := e m rest (by simp at hn ⊢; omega) hp'.of_cons
      simp only [List.nil_append, List.cons_append] at e e₁
      rw [Sp.columnIdentsLoop]
      simp [ht, e₁, next_cons hp', e]
    | cons o' os =>
      obtain ⟨t, r, rfl, ht, hr⟩ := map_type_cons hb
      obtain ⟨l, r, rfl, hl, hr⟩ := map_type_append hr
      obtain ⟨k, r, rfl, hk, hr⟩ := map_type_cons hr
      obtain ⟨ids, e⟩ := ih r hr
      refine ⟨⟨Sp.rawIdent t.lit, o⟩ :: ids, fun n rest hn hp => ?_⟩
      obtain ⟨m, rfl⟩ : ∃ m', n = m' + 1 := ⟨n - 1, by omega⟩
      obtain ⟨m, rfl⟩ : ∃ m', m = m' + 1 := ⟨m - 1, by simp at hn; omega⟩
      simp only [List.cons_append, List.append_assoc] at hp ⊢
      obtain ⟨k', e₁, hp'⟩ := Sp.parseOrder_shape hl (by simp [hk]) hp
      have e := e m rest (by simp at hn; omega) hp'.of_cons.of_cons
      simp only [List.cons_append] at e₁
      rw [Sp.columnIdentsLoop]
      simp [ht, e₁, next_cons hp']
      rw [Sp.columnIdentsLoop]
      simp [hk, next_cons hp'.of_cons, e]

/-- A complete `CREATE INDEX` statement is read exactly up to its closing parenthesis. -/
theorem Sp.parseCreate_index {ts : List Token} (h : CompleteIndex true ts) :
    ∃ i, ∀ rest, NoPanic (ts ++ rest) → Sp.parseCreate (ts ++ rest) = .ok (.createIndex i, rest) := by
  obtain ⟨uq, ine, cols, _, _, h⟩ := h
  obtain ⟨a, b, rfl, h₁, hb⟩ := map_type_append h
  obtain ⟨pre, b', rfl, h₂, hb'⟩ := map_type_append h₁
  obtain ⟨c, r, rfl, hc, h'⟩ := map_type_cons hb
  cases map_type_nil h'
  obtain ⟨ca, pre', rfl, h₃, h₄⟩ := map_type_append h₂
  obtain ⟨kc, uqs, rfl, hkc, huq⟩ := map_type_cons h₃
  obtain ⟨ki, ines, rfl, hki, hine⟩ := map_type_cons h₄
  obtain ⟨nm, r, rfl, hnm, h⟩ := map_type_cons hb'
  obtain ⟨on_, r, rfl, hon, h⟩ := map_type_cons h
  obtain ⟨tb, r, rfl, htb, h⟩ := map_type_cons h
  obtain ⟨op, body, rfl, hop, h⟩ := map_type_cons h
  obtain ⟨ids, ec⟩ := Sp.columnIdentsLoop_shape hc cols body h
  refine ⟨⟨[], uq, ine, newObjectName .spanner nm.lit, newObjectName .spanner tb.lit, [], ids⟩, fun rest hp => ?_⟩
  simp only [List.append_assoc, List.cons_append, List.nil_append] at hp ⊢
  have hp₁ := hp.of_cons
  have hpu : ∃ k, Sp.parseUnique (uqs ++ ki :: (ines ++ nm :: on_ :: tb :: op :: (body ++ c :: rest))) =
      .ok (uq, k :: (ines ++ nm :: on_ :: tb :: op :: (body ++ c :: rest))) ∧
      NoPanic (k :: (ines ++ nm :: on_ :: tb :: op :: (body ++ c :: rest))) ∧
      curT (uqs ++ ki :: (ines ++ nm :: on_ :: tb :: op :: (body ++ c :: rest))) = if uq then .UNIQUE else .INDEX := by
    cases uq with
    | false =>
      cases map_type_nil huq
      exact ⟨ki, by simp [Sp.parseUnique, hki], hp₁, by simp [hki]⟩
    | true =>
      obtain ⟨u, r, rfl, hu, h⟩ := map_type_cons huq
      cases map_type_nil h
      simp only [List.cons_append, List.nil_append] at hp₁ ⊢
      exact ⟨ki, by simp [Sp.parseUnique, hu, next_cons hp₁], hp₁.of_cons, by simp [hu]⟩
  obtain ⟨k, eu, hp₂, eT⟩ := hpu
  obtain ⟨k', ei, hp₃⟩ := parseIfNotExists_shape (k := k) (r := nm :: on_ :: tb :: op :: (body ++ c :: rest)) hine
    (by simp [hnm]) (by simpa using hp₂)
  have hp₄ := hp₃.of_cons
  have hp₅ := hp₄.of_cons
  have hp₆ := hp₅.of_cons
  have hp₇ := hp₆.of_cons
  have hp₈ := hp₇.of_cons
  have ec := ec ((body ++ c :: rest).length + 1) rest (by simp; omega) hp₈
  have ec' : Sp.parseColumnIdents (op :: (body ++ c :: rest)) = .ok (ids, rest) := by
    rw [Sp.parseColumnIdents, List.length_cons, Sp.columnIdentsLoop]
    simp only [curT_cons, hop, true_or, if_true, next_cons hp₇, bind_ok, ec]
  have e : Sp.parseCreateIndex (uqs ++ ki :: (ines ++ nm :: on_ :: tb :: op :: (body ++ c :: rest))) =
      .ok (⟨[], uq, ine, newObjectName .spanner nm.lit, newObjectName .spanner tb.lit, [], ids⟩, rest) := by
    rw [Sp.parseCreateIndex, eu]
    simp only [List.cons_append] at ei
    simp [ei, next_cons hp₃, next_cons hp₄, next_cons hp₅, next_cons hp₆, checkCur, hnm, hon, htb, hop, Sp.parseUsing, ec']
  rw [Sp.parseCreate, next_cons hp]
  cases uq <;> simp [eT] at e ⊢ <;> simp [e]

/-- The loop of `Parse` behind the first statement: the token behind the statement is skipped. -/
theorem parseTokens_first {S : Type} {create : List Token → Res (S × List Token)} {ts r : List Token} {x : Token} {stmt : S}
    (hc : curT (ts ++ x :: r) = .CREATE) (hp : NoPanic (ts ++ x :: r)) (h : create (ts ++ x :: r) = .ok (stmt, x :: r)) :
    parseTokens create (ts ++ x :: r) =
      (do let l ← parseLoop create (ts ++ x :: r).length r
          .ok (stmt :: l)) := by
  rw [parseTokens, hp.start, bind_ok, parseLoop, if_pos hc, h]
  simp only [bind_ok, next_cons hp.of_append]

/-- With enough fuel the loop does not depend on the fuel when it stops at once. -/
theorem parseLoop_garbage {S : Type} {create : List Token → Res (S × List Token)} {y : Token} {r : List Token} {n : Nat}
    (hn : 0 < n) (hy : y.type ∉ [.CREATE, .CLOSE_PAREN, .SEMICOLON, .EOF]) :
    parseLoop create n (y :: r) = .err .unexpectedCurrentToken := by
  obtain ⟨n, rfl⟩ : ∃ m, n = m + 1 := ⟨n - 1, by omega⟩
  simp only [List.mem_cons, List.not_mem_nil, or_false, not_or] at hy
  simp [parseLoop, hy]

theorem _root_.Ddl.Spec.CompleteIndex.curT {o : Bool} {ts r : List Token} (h : CompleteIndex o ts) : curT (ts ++ r) = .CREATE := by
  obtain ⟨uq, ine, cols, _, _, h⟩ := h
  obtain ⟨t, l, rfl, ht, _⟩ := map_type_cons h
  exact ht

theorem noPanic_swap {ts r : List Token} {x y : Token} (hp : NoPanic (ts ++ x :: r)) (hy : y.type ≠ .PANIC) :
    NoPanic (ts ++ y :: r) := by
  intro t ht
  simp only [List.mem_append, List.mem_cons] at ht
  rcases ht with h | rfl | h
  · exact hp t (by simp [h])
  · exact hy
  · exact hp t (by simp [h])

end Ddl
