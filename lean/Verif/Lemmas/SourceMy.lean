import Verif.Spec.SourceMy
import Verif.Lemmas.Source
import Verif.My.Parser

/-! # What an accepted MySQL text consists of -/

set_option autoImplicit false

namespace Ddl.My.Source
open Spec Spec.Written Spec.Source Src

theorem parseOrder_source {t : Token} {r : List Token} :
    Post (fun q => ∃ o, r = o ++ q.2.tail ∧ kinds o = orderTypes q.1) (parseOrder (t :: r)) := by
  unfold parseOrder
  split
  · rename_i h
    obtain ⟨u, r, rfl, hu⟩ := cons_of (ts := r) (T := .ASC) h (by decide)
    refine Post.next_bind ?_
    exact Post.ok ⟨[u], rfl, by simp [kinds, hu, orderTypes]⟩
  · split
    · rename_i h
      obtain ⟨u, r, rfl, hu⟩ := cons_of (ts := r) (T := .DESC) h (by decide)
      refine Post.next_bind ?_
      exact Post.ok ⟨[u], rfl, by simp [kinds, hu, orderTypes]⟩
    · exact Post.ok ⟨[], rfl, rfl⟩

theorem columnIdentsLoop_source : ∀ n ts, Post (fun r => ∃ p, ts = p ++ r.2 ∧ Columns p r.1) (columnIdentsLoop n ts) := by
  intro n
  induction n with
  | zero => intro ts; exact trivial
  | succ n ih =>
    intro ts
    rw [columnIdentsLoop]
    split
    · rename_i h
      refine Post.next_bind ?_
      obtain ⟨t, r, rfl⟩ := cons_of_ne (ts := ts) (by rcases h with h | h <;> rw [h] <;> decide)
      refine (ih r).imp ?_
      rintro ⟨ids, ts'⟩ ⟨p, rfl, l, hl, e⟩
      exact ⟨t :: p, rfl, l, .skip _ _ _ h hl, e⟩
    · split
      · rename_i h
        obtain ⟨t, r, rfl, ht⟩ := cons_of h (by decide)
        refine Post.bind parseOrder_source ?_
        rintro ⟨b, ts'⟩ ⟨o, rfl, ho⟩
        refine Post.next_bind ?_
        refine Post.bind (ih ts'.tail) ?_
        rintro ⟨ids, ts''⟩ ⟨p, e, l, hl, e'⟩
        refine Post.ok ⟨t :: (o ++ p), by dsimp only at e ⊢; rw [e]; simp, (word .mysql t, b) :: l, .name _ _ _ _ _ ht ho hl, ?_⟩
        dsimp only at e' ⊢; rw [e']; rfl
      · split
        · rename_i h
          refine Post.next_bind ?_
          obtain ⟨t, r, rfl, ht⟩ := cons_of h (by decide)
          exact Post.ok ⟨[t], rfl, [], .close _ ht, rfl⟩
        · exact trivial

theorem identsLoop_source : ∀ n ts,
    Post (fun r => ∃ p, ts = p ++ r.2 ∧ curT r.2 = .CLOSE_PAREN ∧ r.1 = (p.filter fun t => t.type ≠ .OPEN_PAREN).map (word .mysql))
      (identsLoop n ts) := by
  intro n
  induction n with
  | zero => intro ts; exact trivial
  | succ n ih =>
    intro ts
    rw [identsLoop]
    split
    · rename_i h
      refine Post.next_bind ?_
      obtain ⟨t, r, rfl, ht⟩ := cons_of h (by decide)
      refine (ih r).imp ?_
      rintro ⟨ids, ts'⟩ ⟨p, rfl, hc, hn⟩
      exact ⟨t :: p, rfl, hc, by simpa [ht] using hn⟩
    · rename_i ho
      split
      · rename_i h
        exact Post.ok ⟨[], rfl, h, by simp⟩
      · split
        · exact trivial
        · rename_i h
          obtain ⟨t, r, rfl⟩ := cons_of_ne (ts := ts) (fun e => h (.inl e))
          refine Post.next_bind ?_
          refine Post.bind (ih r) ?_
          rintro ⟨ids, ts'⟩ ⟨p, rfl, hc, hn⟩
          refine Post.ok ⟨t :: p, rfl, hc, ?_⟩
          have : t.type ≠ .OPEN_PAREN := ho
          simp only [ne_eq, this, not_false_eq_true, decide_true, List.filter_cons_of_pos, List.map_cons]
          dsimp only at hn; rw [hn]; simp; rfl

/-- The name of a type, its last token not consumed yet. -/
theorem parseTypeName_source {ts : List Token} (hd : isDataType (curT ts) = true) :
    Post (fun r => ∃ ws k, ts = ws ++ k :: r.2.2.2.tail ∧ r.2.2.2 = k :: r.2.2.2.tail ∧
      ((r.2.1 ≠ .BOOLEAN ∧ ((kinds (ws ++ [k]), r.2.1) ∈ Written.types ∨ kinds (ws ++ [k]) = [r.2.1]) ∧ r.1 = join s%" " ((ws ++ [k]).map (·.lit)) ∧ r.2.2.1 = []) ∨
        (kinds (ws ++ [k]) = [.BOOLEAN] ∧ r.1 = s%"TINYINT" ∧ r.2.1 = .BOOLEAN ∧ r.2.2.1 = [newRawIdent .mysql s%"1"]))) (parseTypeName ts) := by
  unfold parseTypeName
  obtain ⟨t, r, rfl⟩ := cons_of_ne (ts := ts) (by intro e; rw [e] at hd; exact absurd hd (by decide))
  split
  · rename_i h
    have k : t.type = .BOOLEAN := h
    exact Post.ok ⟨[], t, rfl, rfl, .inr ⟨by simp [kinds, k], rfl, rfl, rfl⟩⟩
  · rename_i hb
    split
    · rename_i h
      have k : t.type = .DOUBLE := h
      split
      · rename_i h2
        obtain ⟨t2, r, rfl, k2⟩ := cons_of (ts := r) (T := .PRECISION) h2 (by decide)
        refine Post.next_bind ?_
        exact Post.ok ⟨[t], t2, rfl, rfl, .inl ⟨by simp, .inl (by simp [kinds, k, k2, Written.types]), by simp [join, curL, cur], rfl⟩⟩
      · exact Post.ok ⟨[], t, rfl, rfl, .inl ⟨by simp, .inl (by simp [kinds, k, Written.types]), by simp [join, curL, cur], rfl⟩⟩
    · split
      · rename_i h
        have k : t.type = .CHARACTER := h
        refine Post.checkPeek_bind fun h2 => ?_
        obtain ⟨t2, r, rfl, k2⟩ := cons_of (ts := r) (T := .VARYING) (by simpa [peekT] using h2) (by decide)
        refine Post.next_bind ?_
        exact Post.ok ⟨[t], t2, rfl, rfl, .inl ⟨by simp, .inl (by simp [kinds, k, k2, Written.types]), by simp [join, curL, cur], rfl⟩⟩
      · exact Post.ok ⟨[], t, rfl, rfl, .inl ⟨hb, .inr (by simp [kinds, curT, cur]), by simp [join, curL, cur], rfl⟩⟩

/-- A type, its last token not consumed yet. -/
theorem parseDataType_source {ts : List Token} (hd : isDataType (curT ts) = true) :
    Post (fun r => ∃ p, ts = p ++ r.2.tail ∧ OfType p r.1) (parseDataType ts) := by
  unfold parseDataType
  refine Post.bind (parseTypeName_source hd) ?_
  rintro ⟨name, type, ex, ts'⟩ ⟨ws, k, e, e', ht⟩
  dsimp only at e e' ht ⊢
  have fin : ∀ (p : List Token) (as : List Token), ((as = [] ∧ p = ws ++ [k]) ∨ ∃ o c, p = (ws ++ [k]) ++ o :: (as ++ [c]) ∧ o.type = .OPEN_PAREN ∧ c.type = .CLOSE_PAREN) →
      OfType p ⟨name, type, ex ++ (as.filter fun t => t.type ≠ .OPEN_PAREN).map (word .mysql)⟩ := by
    intro p as h
    rcases ht with ⟨hb, ht, hn, rfl⟩ | ⟨hw, rfl, rfl, rfl⟩
    · exact .inl ⟨hb, ws ++ [k], as, ht, hn, rfl, h⟩
    · exact .inr ⟨_, _, ⟨ws ++ [k], as, .inr hw, rfl, rfl, h⟩, rfl⟩
  split
  · rename_i ho
    refine Post.next_bind ?_
    obtain ⟨o, r, e2, ho⟩ := cons_of (ts := ts'.tail) ho (by decide)
    have hi : ∀ n ts, Post (fun r => ∃ p, ts = p ++ r.2 ∧ curT r.2 = .CLOSE_PAREN ∧ r.1 = (p.filter fun t => t.type ≠ .OPEN_PAREN).map (word .mysql)) (identsLoop n ts) := identsLoop_source
    refine Post.bind (Q := fun q => ∃ p, r = p ++ q.2 ∧ curT q.2 = .CLOSE_PAREN ∧ q.1 = (p.filter fun t => t.type ≠ .OPEN_PAREN).map (word .mysql)) ?_ ?_
    · rw [e2, parseIdents, identsLoop, if_pos (by exact ho)]
      refine Post.next_bind ?_
      exact hi _ r
    · rintro ⟨ids, ts2⟩ ⟨p, rfl, hc, hids⟩
      obtain ⟨c, r, rfl, hc⟩ := cons_of hc (by decide)
      refine Post.ok ⟨(ws ++ [k]) ++ o :: (p ++ [c]), ?_, ?_⟩
      · rw [e, e2]; simp
      · dsimp only at hids ⊢; rw [hids]; exact fin _ p (.inr ⟨o, c, rfl, ho, hc⟩)
  · refine Post.ok ⟨ws ++ [k], by rw [e]; simp, ?_⟩
    have := fin (ws ++ [k]) [] (.inl ⟨rfl, rfl⟩)
    simpa using this

theorem exprLoop_source : ∀ n ts, AllTok Constant ts →
    Post (fun r => ∃ p, ts = p ++ r.2 ∧ Spells p r.1) (exprLoop n ts) := by
  intro n
  induction n with
  | zero => intro ts _; exact trivial
  | succ n ih =>
    intro ts hP
    rw [exprLoop]
    split
    · rename_i h
      obtain ⟨t, r, rfl, ht⟩ := cons_of h (by decide)
      refine Post.next_bind ?_
      refine Post.bind (ih r hP.tail) ?_
      rintro ⟨ids, ts'⟩ ⟨p, rfl, hs⟩
      refine Post.bind (ih ts' (AllTok.append (AllTok.of_cons hP))) ?_
      rintro ⟨ids', ts''⟩ ⟨p', rfl, hs'⟩
      refine Post.ok ⟨t :: (p ++ p'), by simp, ?_⟩
      exact Spells.cons (congrArg upper (newRawIdent_raw _ _)) (hs.append hs')
    · split
      · rename_i h
        obtain ⟨t, r, rfl, ht⟩ := cons_of h (by decide)
        refine Post.next_bind ?_
        exact Post.ok ⟨[t], rfl, Spells.cons (congrArg upper (newRawIdent_raw _ _)) .nil⟩
      · split
        · rename_i h
          obtain ⟨t, r, rfl⟩ := cons_of_ne (ts := ts) (by rcases h with h | h | h <;> rw [h] <;> decide)
          dsimp only
          split
          · rename_i h2
            obtain ⟨t2, r, rfl⟩ := cons_of_ne (ts := r) (by intro e; simp [peekT, e] at h2)
            refine Post.next_bind ?_
            refine Post.next_bind ?_
            refine Post.bind (ih r hP.tail.tail) ?_
            rintro ⟨ids, ts'⟩ ⟨p, rfl, hs⟩
            refine Post.ok ⟨[t, t2] ++ p, rfl, ?_⟩
            exact Spells.append (a := [t, t2]) (v := [_]) (by simp [Spells, spelled, letters, rawIdent, newRawIdent_raw, curL, peekL, cur]) hs
          · refine Post.next_bind ?_
            refine Post.bind (ih r hP.tail) ?_
            rintro ⟨ids, ts'⟩ ⟨p, rfl, hs⟩
            exact Post.ok ⟨t :: p, rfl, Spells.cons (congrArg upper (newRawIdent_raw _ _)) hs⟩
        · split
          · exact trivial
          · rename_i h
            obtain ⟨t, r, rfl⟩ := cons_of_ne (ts := ts) h
            refine Post.next_bind ?_
            refine Post.bind (ih r hP.tail) ?_
            rintro ⟨ids, ts'⟩ ⟨p, rfl, hs⟩
            refine Post.ok ⟨t :: p, rfl, Spells.cons ?_ hs⟩
            dsimp only
            split
            · rename_i hv
              rw [rawIdent, newRawIdent_raw]
              have hc := hP t List.mem_cons_self
              have hm : t.type ∈ [.NULL, .TRUE, .FALSE] := by simpa [isReservedValue, curT, cur] using hv
              rw [hc hm]
              rcases List.mem_cons.1 hm with e | hm
              · simp [curT, cur, e, TokType.str]; decide
              · rcases List.mem_cons.1 hm with e | hm
                · simp [curT, cur, e, TokType.str]; decide
                · simp at hm; simp [curT, cur, hm, TokType.str]; decide
            · exact congrArg upper (newRawIdent_raw _ _)

theorem parseExpr_source {ts : List Token} (hP : AllTok Constant ts) :
    Post (fun r => ∃ p, ts = p ++ r.2 ∧ Spells p r.1 ∧ curT p = .OPEN_PAREN) (parseExpr ts) := by
  unfold parseExpr
  refine Post.checkCur_bind fun h => ?_
  obtain ⟨t, r, rfl, ht⟩ := cons_of (T := .OPEN_PAREN) (by simpa using h) (by decide)
  refine Post.next_bind ?_
  refine Post.bind (exprLoop_source _ r hP.tail) ?_
  rintro ⟨ids, ts'⟩ ⟨p, rfl, hs⟩
  exact Post.ok ⟨t :: p, rfl, Spells.cons (congrArg upper (newRawIdent_raw _ _)) hs, ht⟩

theorem defaultLoop_source : ∀ n v ts, AllTok Constant ts →
    Post (fun r => ∃ p ws, ts = p ++ r.2 ∧ Spells p ws ∧ r.1.value.getD [] = v.getD [] ++ ws) (defaultLoop n v ts) := by
  intro n
  induction n with
  | zero => intro v ts _; exact trivial
  | succ n ih =>
    intro v ts hP
    have one : ∀ (t : Token) (r : List Token) (i : Ident), AllTok Constant r → upper i.raw = upper t.lit →
        Post (fun q => ∃ p ws, t :: r = p ++ q.2 ∧ Spells p ws ∧ q.1.value.getD [] = v.getD [] ++ ws) (defaultLoop n (appendExpr v [i]) r) := by
      intro t r i hr hi
      refine (ih _ r hr).imp ?_
      rintro ⟨d, ts'⟩ ⟨p, ws, rfl, hs, e⟩
      exact ⟨t :: p, i :: ws, rfl, Spells.cons hi hs, by rw [e]; simp [appendExpr]⟩
    rw [defaultLoop.eq_def]; dsimp only
    split
    · rename_i h
      obtain ⟨t, r, rfl⟩ := cons_of_ne (ts := ts) (by rcases h with h | h <;> rw [h] <;> decide)
      refine Post.next_bind ?_
      exact one t r _ hP.tail (congrArg upper (newRawIdent_raw _ _))
    · split
      · refine Post.bind (parseExpr_source hP) ?_
        rintro ⟨ids, ts'⟩ ⟨p, rfl, hs, -⟩
        refine (ih _ ts' (AllTok.append hP)).imp ?_
        rintro ⟨d, ts''⟩ ⟨p', ws, rfl, hs', e⟩
        exact ⟨p ++ p', ids ++ ws, by simp, hs.append hs', by rw [e]; simp [appendExpr]⟩
      · split
        · exact Post.ok ⟨[], [], rfl, .nil, by simp⟩
        · split
          · rename_i h
            obtain ⟨t, r, rfl⟩ := cons_of_ne (ts := ts) (by intro e; rw [e] at h; exact absurd h (by decide))
            refine Post.next_bind ?_
            exact one t r _ hP.tail rfl
          · split
            · exact Post.ok ⟨[], [], rfl, .nil, by simp⟩
            · exact trivial

theorem last_none {A : Type} {f : Said → Option A} {x : Said} (h : f x = none) (as : List Said) : last f (x :: as) = last f as := by
  simp [last, h]

theorem last_some {A : Type} {f : Said → Option A} {x : Said} {a : A} (h : f x = some a) (as : List Said) : last f (x :: as) = (last f as).or (some a) := by
  simp only [last, List.filterMap_cons, h]; rw [getLast?_or_cons]

/-- What attributes that were read before and `as` say together. -/
structure Sums (a : Attrs) (as : List Said) (b : Attrs) : Prop where
  default : b.default = (last Said.default? as).or a.default
  notNull : b.notNull = (last Said.notNull? as).getD a.notNull
  autoIncrement : b.autoIncrement = true ↔ a.autoIncrement = true ∨ .autoIncrement ∈ as
  onAction : b.onAction = (last Said.onAction? as).getD a.onAction
  characterSet : b.characterSet = (last Said.characterSet? as).or a.characterSet
  collate : b.collate = (last Said.collate? as).or a.collate

theorem columnAttrsLoop_source : ∀ n a ts, AllTok Constant ts →
    Post (fun r => r.2 = [] ∨ ∃ p as, ts = p ++ r.2 ∧ Many Attribute p as ∧ Sums a as r.1) (columnAttrsLoop n a ts) := by
  intro n
  induction n with
  | zero => intro a ts _; exact trivial
  | succ n ih =>
    intro a ts hP
    have go : ∀ (q rest : List Token) (x : Said) (b : Attrs), AllTok Constant rest → Attribute q x → (∀ as c, Sums b as c → Sums a (x :: as) c) →
        Post (fun r => r.2 = [] ∨ ∃ p as, q ++ rest = p ++ r.2 ∧ Many Attribute p as ∧ Sums a as r.1) (columnAttrsLoop n b rest) := by
      intro q rest x b hr hq hs
      refine (ih b rest hr).imp ?_
      rintro ⟨c, ts'⟩ (h | ⟨p, as, rfl, hm, h⟩)
      · exact .inl h
      · exact .inr ⟨q ++ p, x :: as, by simp, .cons _ _ _ _ hq hm, hs _ _ h⟩
    have stop : ∀ (m : Nat) (b : Attrs), Post (fun r => r.2 = [] ∨ ∃ p as, ts = p ++ r.2 ∧ Many Attribute p as ∧ Sums a as r.1) (columnAttrsLoop m b []) := by
      intro m b
      cases m with
      | zero => exact trivial
      | succ m =>
        rw [columnAttrsLoop]
        simp only [curT, cur, eofToken, List.headD_nil, reduceCtorEq, if_false]
        exact Post.ok (.inl rfl)
    rw [columnAttrsLoop]
    split
    · rename_i h
      obtain ⟨t, r, rfl, ht⟩ := cons_of h (by decide)
      refine Post.checkPeek_bind fun h2 => ?_
      obtain ⟨t2, r, rfl, k2⟩ := cons_of (ts := r) (T := .NULL) (by simpa [peekT] using h2) (by decide)
      refine Post.next_bind (Post.next_bind ?_)
      refine go [t, t2] r _ _ hP.tail.tail (.notNull _ (by simp [kinds, ht, k2])) fun as c h => ?_
      exact ⟨by rw [last_none (f := Said.default?) rfl]; exact h.default, by rw [last_some (f := Said.notNull?) rfl, h.notNull]; cases last Said.notNull? as <;> rfl, by simpa using h.autoIncrement,
        by rw [last_none (f := Said.onAction?) rfl]; exact h.onAction, by rw [last_none (f := Said.characterSet?) rfl]; exact h.characterSet, by rw [last_none (f := Said.collate?) rfl]; exact h.collate⟩
    · split
      · rename_i h
        obtain ⟨t, r, rfl, ht⟩ := cons_of h (by decide)
        refine Post.next_bind ?_
        refine go [t] r _ _ hP.tail (.null _ (by simp [kinds, ht])) fun as c h => ?_
        exact ⟨by rw [last_none (f := Said.default?) rfl]; exact h.default, by rw [last_some (f := Said.notNull?) rfl, h.notNull]; cases last Said.notNull? as <;> rfl, by simpa using h.autoIncrement,
          by rw [last_none (f := Said.onAction?) rfl]; exact h.onAction, by rw [last_none (f := Said.characterSet?) rfl]; exact h.characterSet, by rw [last_none (f := Said.collate?) rfl]; exact h.collate⟩
      · split
        · rename_i h
          obtain ⟨t, r, rfl, ht⟩ := cons_of h (by decide)
          refine Post.next_bind ?_
          refine Post.bind (defaultLoop_source _ none r hP.tail) ?_
          rintro ⟨df, ts'⟩ ⟨p, ws, rfl, hs, e⟩
          have := go (t :: p) ts' (.default df) { a with default := some df } (AllTok.append (AllTok.of_cons hP))
            (.default _ _ _ ht (by dsimp only at e; rw [e]; simpa using hs)) fun as c h =>
            ⟨by rw [last_some (f := Said.default?) rfl, h.default]; cases last Said.default? as <;> rfl, by rw [last_none (f := Said.notNull?) rfl]; exact h.notNull, by simpa using h.autoIncrement,
              by rw [last_none (f := Said.onAction?) rfl]; exact h.onAction, by rw [last_none (f := Said.characterSet?) rfl]; exact h.characterSet, by rw [last_none (f := Said.collate?) rfl]; exact h.collate⟩
          simpa using this
        · split
          · rename_i h
            obtain ⟨t, r, rfl, ht⟩ := cons_of h (by decide)
            refine Post.next_bind (Post.checkCur_bind fun h2 => ?_)
            obtain ⟨t2, r, rfl, k2⟩ := cons_of_mem (ts := r) h2 (by decide)
            refine Post.next_bind (Post.checkCur_bind fun h3 => ?_)
            obtain ⟨t3, r, rfl, k3⟩ := cons_of_mem (ts := r) h3 (by decide)
            refine Post.next_bind ?_
            refine go [t, t2, t3] r _ _ hP.tail.tail.tail (.onAction _ _ _ ht k2 k3) fun as c h => ?_
            exact ⟨by rw [last_none (f := Said.default?) rfl]; exact h.default, by rw [last_none (f := Said.notNull?) rfl]; exact h.notNull, by simpa using h.autoIncrement,
              by rw [last_some (f := Said.onAction?) rfl, h.onAction]; cases last Said.onAction? as <;> simp [curL, cur], by rw [last_none (f := Said.characterSet?) rfl]; exact h.characterSet,
              by rw [last_none (f := Said.collate?) rfl]; exact h.collate⟩
          · split
            · rename_i h
              obtain ⟨t, r, rfl, ht⟩ := cons_of h (by decide)
              refine Post.next_bind (Post.checkCur_bind fun h2 => ?_)
              obtain ⟨t2, r, rfl, k2⟩ := cons_of (ts := r) (T := .SET) (by simpa using h2) (by decide)
              refine Post.next_bind (Post.next_bind ?_)
              cases r with
              | nil => exact stop _ _
              | cons t3 r =>
                refine go [t, t2, t3] r _ _ hP.tail.tail.tail (.characterSet _ _ _ ht k2) fun as c h => ?_
                exact ⟨by rw [last_none (f := Said.default?) rfl]; exact h.default, by rw [last_none (f := Said.notNull?) rfl]; exact h.notNull, by simpa using h.autoIncrement,
                  by rw [last_none (f := Said.onAction?) rfl]; exact h.onAction, by rw [last_some (f := Said.characterSet?) rfl, h.characterSet]; cases last Said.characterSet? as <;> rfl,
                  by rw [last_none (f := Said.collate?) rfl]; exact h.collate⟩
            · split
              · rename_i h
                obtain ⟨t, r, rfl, ht⟩ := cons_of h (by decide)
                refine Post.next_bind (Post.next_bind ?_)
                cases r with
                | nil => exact stop _ _
                | cons t3 r =>
                  refine go [t, t3] r _ _ hP.tail.tail (.collate _ _ ht) fun as c h => ?_
                  exact ⟨by rw [last_none (f := Said.default?) rfl]; exact h.default, by rw [last_none (f := Said.notNull?) rfl]; exact h.notNull, by simpa using h.autoIncrement,
                    by rw [last_none (f := Said.onAction?) rfl]; exact h.onAction, by rw [last_none (f := Said.characterSet?) rfl]; exact h.characterSet,
                    by rw [last_some (f := Said.collate?) rfl, h.collate]; cases last Said.collate? as <;> rfl⟩
              · split
                · rename_i h
                  obtain ⟨t, r, rfl, ht⟩ := cons_of h (by decide)
                  refine Post.next_bind ?_
                  refine go [t] r _ _ hP.tail (.autoIncrement _ ht) fun as c h => ?_
                  exact ⟨by rw [last_none (f := Said.default?) rfl]; exact h.default, by rw [last_none (f := Said.notNull?) rfl]; exact h.notNull, by have := h.autoIncrement; simpa using this,
                    by rw [last_none (f := Said.onAction?) rfl]; exact h.onAction, by rw [last_none (f := Said.characterSet?) rfl]; exact h.characterSet, by rw [last_none (f := Said.collate?) rfl]; exact h.collate⟩
                · exact Post.ok (.inr ⟨[], [], rfl, .nil, by simp [last], by simp [last], by simp, by simp [last], by simp [last], by simp [last]⟩)

theorem replaceConstraint_eq (l : List Constraint) (c : Constraint) :
    (∃ a x b, l = a ++ x :: b ∧ x.name.name = c.name.name ∧ replaceConstraint l c = some (a ++ c :: b)) ∨
      ((∀ x ∈ l, x.name.name ≠ c.name.name) ∧ replaceConstraint l c = none) := by
  induction l with
  | nil => exact .inr ⟨by simp, rfl⟩
  | cons x l ih =>
    rw [replaceConstraint]
    split
    · rename_i e; exact .inl ⟨[], x, l, rfl, e, rfl⟩
    · rename_i e
      rcases ih with ⟨a, y, b, rfl, e', h⟩ | ⟨h, h'⟩
      · exact .inl ⟨x :: a, y, b, rfl, e', by rw [h]; rfl⟩
      · exact .inr ⟨fun y hy => by
          rcases List.mem_cons.1 hy with rfl | hy
          · exact e
          · exact h y hy, by rw [h']; rfl⟩

theorem sortPrimaryKey_perm (l : List Constraint) : (sortPrimaryKey l).Perm l := by
  suffices ∀ (l acc : List Constraint), (l.foldl (fun acc c => if c.isPrimaryKey then c :: acc else acc ++ [c]) acc).Perm (acc ++ l) from this l []
  intro l
  induction l with
  | nil => intro acc; simp
  | cons x l ih =>
    intro acc
    rw [List.foldl_cons]
    refine (ih _).trans ?_
    split
    · exact List.perm_middle.symm
    · simp

theorem appendConstraint_kept (l : List Constraint) (c : Constraint) :
    Kept (fun c : Constraint => c.name.name) l [c] (appendConstraint l c) := by
  rw [appendConstraint]
  rcases replaceConstraint_eq l c with ⟨a, x, b, rfl, e, h⟩ | ⟨h, h'⟩
  · rw [h]; exact .replaced e
  · rw [h']; exact .added (sortPrimaryKey_perm _) h

/-- An action, or nothing. -/
theorem parseOnActionOpt_source (ts : List Token) :
    Post (fun r => (r.1 = none ∧ r.2 = ts ∧ curT ts ≠ .ON) ∨ ∃ act, ts = act ++ r.2 ∧ OnAction act ∧ r.1 = some (join s%" " (act.map (·.lit)))) (parseOnActionOpt ts) := by
  unfold parseOnActionOpt
  split
  · rename_i h
    refine Post.bind (Q := fun q => ∃ act, ts = act ++ q.2 ∧ OnAction act ∧ q.1 = join s%" " (act.map (·.lit))) ?_ ?_
    · unfold parseOnAction
      obtain ⟨t, r, rfl, ht⟩ := cons_of h (by decide)
      refine Post.checkCur_bind fun _ => ?_
      refine Post.next_bind (Post.checkCur_bind fun h2 => ?_)
      obtain ⟨t2, r, rfl, -⟩ := cons_of_mem (ts := r) h2 (by decide)
      refine Post.checkPeek_bind fun h3 => ?_
      obtain ⟨t3, r, rfl, k3⟩ := cons_of_mem (ts := r) h3 (by decide)
      have k2 : t2.type = .DELETE ∨ t2.type = .UPDATE := by simpa [curT, cur] using h2
      refine Post.next_bind ?_
      dsimp only
      split
      · rename_i h4
        have k5 : t3.type = .NO := h4
        refine Post.checkPeek_bind fun h5 => ?_
        obtain ⟨t4, r, rfl, k4⟩ := cons_of (ts := r) (T := .ACTION) (by simpa [peekT] using h5) (by decide)
        refine Post.next_bind (Post.next_bind ?_)
        exact Post.ok ⟨[t, t2, t3, t4], rfl, ⟨_, k2, .inr (by simp [kinds, ht, k5, k4])⟩, by simp [join, curL, cur]⟩
      · rename_i h4
        have h4 : t3.type ≠ .NO := h4
        have h3 : t3.type = .CASCADE := by
          rcases List.mem_cons.1 k3 with h | h
          · exact h
          · exact absurd (by simpa using h) h4
        refine Post.next_bind ?_
        exact Post.ok ⟨[t, t2, t3], rfl, ⟨_, k2, .inl (by simp [kinds, ht, h3])⟩, by simp [join, curL, cur]⟩
    · rintro ⟨act, ts'⟩ ⟨p, rfl, hp, e⟩
      exact Post.ok (.inr ⟨p, rfl, hp, by rw [← e]⟩)
  · rename_i h
    exact Post.ok (.inl ⟨rfl, rfl, h⟩)

theorem join_append_ne (s : Str) : ∀ (l : List Str) (x : Str) (m : List Str), l ≠ [] → join s (l ++ x :: m) = join s l ++ s ++ join s (x :: m)
  | [], _, _, h => absurd rfl h
  | [a], x, m, _ => by simp [join]
  | a :: b :: l, x, m, _ => by
    have := join_append_ne s (b :: l) x m (by simp)
    simp only [List.cons_append] at this
    simp only [List.cons_append, join, this, List.append_assoc]

/-- Up to two actions. -/
theorem actions_source {β : Type} {Q : β → Prop} (ts : List Token) (f : Option Str → Option Str → List Token → Res β)
    (hf : ∀ (acts : List (List Token)) (rest : List Token) (o₁ o₂ : Option Str), ts = acts.flatten ++ rest → acts.length ≤ 2 → (∀ a ∈ acts, OnAction a) →
      o₂.getD (o₁.getD []) = join s%" " ((acts.getLast?.getD []).map (·.lit)) →
      o₁.getD [] ++ (match o₂ with | some a => s%" " ++ a | none => []) = join s%" " (acts.flatten.map (·.lit)) → Post Q (f o₁ o₂ rest)) :
    Post Q (do
      let x ← parseOnActionOpt ts
      let y ← parseOnActionOpt x.2
      f x.1 y.1 y.2) := by
  refine Post.bind (parseOnActionOpt_source ts) ?_
  rintro ⟨o₁, ts₁⟩ h₁
  dsimp only at h₁ ⊢
  refine Post.bind (parseOnActionOpt_source ts₁) ?_
  rintro ⟨o₂, ts₂⟩ h₂
  dsimp only at h₂ ⊢
  rcases h₁ with ⟨rfl, rfl, hn⟩ | ⟨a, rfl, ha, rfl⟩
  · rcases h₂ with ⟨rfl, rfl, -⟩ | ⟨b, rfl, ⟨x, hx, hb⟩, rfl⟩
    · exact hf [] _ _ _ rfl (by simp) (by simp) rfl rfl
    · exfalso; apply hn
      cases b with
      | nil => rcases hb with hb | hb <;> simp [kinds] at hb
      | cons t b => rcases hb with hb | hb <;> simp [kinds] at hb <;> exact hb.1
  · rcases h₂ with ⟨rfl, rfl, -⟩ | ⟨b, rfl, hb, rfl⟩
    · exact hf [a] _ _ _ (by simp) (by simp) (by simpa using ha) (by simp) (by simp)
    · refine hf [a, b] _ _ _ (by simp) (by simp) (by simpa using ⟨ha, hb⟩) (by simp) ?_
      obtain ⟨x, hx, ha⟩ := ha
      have hane : a ≠ [] := by rintro rfl; rcases ha with ha | ha <;> simp [kinds] at ha
      obtain ⟨y, hy, hb⟩ := hb
      cases b with
      | nil => rcases hb with hb | hb <;> simp [kinds] at hb
      | cons t b => simp [join_append_ne _ _ _ _ (show a.map (·.lit) ≠ [] by simpa using hane)]

theorem columnConstraintsLoop_source (tbl col : Ident) : ∀ n cs ts, AllTok Constant ts →
    Post (fun r => ∃ p w, ts = p ++ r.2 ∧ Many (OfColumn tbl.name col) p w ∧ Kept (fun c : Constraint => c.name.name) cs w r.1)
      (columnConstraintsLoop tbl col n cs ts) := by
  intro n
  induction n with
  | zero => intro cs ts _; exact trivial
  | succ n ih =>
    intro cs ts hP
    have go : ∀ (p rest : List Token) (c : Constraint), AllTok Constant rest → OfColumn tbl.name col p c →
        Post (fun q => ∃ p' w, p ++ rest = p' ++ q.2 ∧ Many (OfColumn tbl.name col) p' w ∧ Kept (fun c : Constraint => c.name.name) cs w q.1)
          (columnConstraintsLoop tbl col n (appendConstraint cs c) rest) := by
      intro p rest c hr hc
      refine (ih _ rest hr).imp ?_
      rintro ⟨cs', ts'⟩ ⟨p', w, rfl, hm, hk⟩
      exact ⟨p ++ p', c :: w, by simp, .cons _ _ _ _ hc hm, (appendConstraint_kept cs c).trans hk⟩
    rw [columnConstraintsLoop]
    split
    · rename_i h
      obtain ⟨t, r, rfl, ht⟩ := cons_of h (by decide)
      refine Post.checkPeek_bind fun h2 => ?_
      obtain ⟨t2, r, rfl, k2⟩ := cons_of (ts := r) (T := .KEY) (by simpa [peekT] using h2) (by decide)
      refine Post.next_bind (Post.next_bind ?_)
      exact go [t, t2] r _ hP.tail.tail (.primaryKey _ (by simp [kinds, ht, k2]))
    · split
      · rename_i h
        obtain ⟨t, r, rfl, ht⟩ := cons_of h (by decide)
        refine Post.checkPeek_bind fun h2 => ?_
        obtain ⟨t2, r, rfl, k2⟩ := cons_of (ts := r) (T := .IDENT) (by simpa [peekT] using h2) (by decide)
        refine Post.next_bind (Post.next_bind ?_)
        refine Post.bind (columnIdentsLoop_source _ r) ?_
        rintro ⟨ids, ts'⟩ ⟨l, rfl, hl⟩
        have hP' : AllTok Constant ts' := AllTok.append (AllTok.of_cons (AllTok.of_cons hP))
        refine actions_source ts' (fun o₁ o₂ rest => do
          let rest' ← next rest
          columnConstraintsLoop tbl col n (appendConstraint cs (.foreignKey (rawIdent (tbl.diffStr ++ s%"_" ++ col.diffStr ++ s%"_fkey")) [⟨col, none⟩]
            (rawIdent (curL (t2 :: (l ++ ts')))) ids (o₂.getD (o₁.getD [])))) rest') ?_
        intro acts rest o₁ o₂ e hlen hacts e1 _
        refine Post.next_bind ?_
        obtain ⟨k, hk, e'⟩ := tail_skip rest
        have := go (t :: t2 :: (l ++ (acts.flatten ++ k))) rest.tail _ (by rw [e] at hP'; exact (AllTok.append hP').tail) (.references t t2 l k acts ids ht k2 hl hlen hacts hk)
        rw [show (t :: t2 :: (l ++ (acts.flatten ++ k))) ++ rest.tail = t :: t2 :: (l ++ ts') by
          rw [e, List.cons_append, List.cons_append, List.append_assoc, List.append_assoc, ← e']] at this
        rw [e1]
        exact this
      · split
        · rename_i h
          obtain ⟨t, r, rfl, ht⟩ := cons_of h (by decide)
          refine Post.next_bind ?_
          exact go [t] r _ hP.tail (.unique _ (by simp [kinds, ht]))
        · split
          · rename_i h
            obtain ⟨t, r, rfl, ht⟩ := cons_of h (by decide)
            refine Post.checkPeek_bind fun h2 => ?_
            refine Post.next_bind ?_
            refine Post.bind (parseExpr_source (ts := r) hP.tail) ?_
            rintro ⟨ids, ts'⟩ ⟨e, rfl, hs, -⟩
            refine Post.next_bind ?_
            obtain ⟨k, hk, e'⟩ := tail_skip ts'
            have := go (t :: (e ++ k)) ts'.tail _ (AllTok.append (AllTok.of_cons hP)).tail (.check t e k ids ht hs hk)
            rw [show (t :: (e ++ k)) ++ ts'.tail = t :: (e ++ ts') by rw [List.cons_append, List.append_assoc, ← e']] at this
            exact this
          · split
            · exact Post.ok ⟨[], [], rfl, .nil, .refl _⟩
            · exact trivial

theorem parseComment_source (ts : List Token) :
    Post (fun r => r.2 = [] ∨ ∃ m, ts = m ++ r.2 ∧ Written.Commented m r.1) (parseComment ts) := by
  unfold parseComment
  split
  · rename_i h
    obtain ⟨t, r, rfl, ht⟩ := cons_of h (by decide)
    refine Post.next_bind (Post.next_bind ?_)
    cases r with
    | nil => exact Post.ok (.inl rfl)
    | cons v r => exact Post.ok (.inr ⟨[t, v], rfl, .inr ⟨t, v, rfl, ht, rfl⟩⟩)
  · exact Post.ok (.inr ⟨[], rfl, .inl ⟨rfl, rfl⟩⟩)

theorem parseColumn_source (tbl : Ident) {ts : List Token} (hP : AllTok Constant ts) :
    Post (fun r => r.2.2 = [] ∨ ∃ p w, ts = p ++ r.2.2 ∧ OfName tbl.name p r.1 w ∧ Kept (fun c : Constraint => c.name.name) [] w r.2.1) (parseColumn tbl ts) := by
  unfold parseColumn
  refine Post.checkCur_bind fun h => ?_
  obtain ⟨t, r, rfl, ht⟩ := cons_of (T := .IDENT) (by simpa using h) (by decide)
  refine Post.next_bind ?_
  split
  · rename_i hd
    refine Post.bind (parseDataType_source hd) ?_
    rintro ⟨dt, ts'⟩ ⟨y, e, hy⟩
    refine Post.next_bind ?_
    dsimp only at e hy ⊢
    have hr : r = y ++ ts'.tail := e
    have hP1 : AllTok Constant ts'.tail := by rw [hr] at hP; exact AllTok.append (AllTok.of_cons hP)
    refine Post.bind (columnAttrsLoop_source _ _ ts'.tail hP1) ?_
    rintro ⟨x, ts2⟩ hx
    dsimp only at hx ⊢
    rcases hx with rfl | ⟨a, as, e2, ha, hsum⟩
    · exact trivial
    have hP2 : AllTok Constant ts2 := by rw [e2] at hP1; exact AllTok.append hP1
    refine Post.bind (columnConstraintsLoop_source tbl _ _ [] ts2 hP2) ?_
    rintro ⟨cs, ts3⟩ ⟨q, w, e5, hq, hk⟩
    dsimp only at e5 hk ⊢
    refine Post.bind (parseComment_source ts3) ?_
    rintro ⟨cm, ts4⟩ hcm
    dsimp only at hcm ⊢
    rcases hcm with rfl | ⟨m, e6, hm⟩
    · exact Post.ok (.inl rfl)
    refine Post.ok (.inr ⟨t :: (y ++ (a ++ (q ++ m))), w, ?_, ⟨t, y, a, q, m, as, rfl, ht, rfl, hy, ha, ?_, hsum.notNull, ?_, hsum.onAction, ?_, ?_, hq, hm⟩, ?_⟩)
    · rw [hr, e2, e5, e6]; simp
    · rw [hsum.default]; simp
    · simpa using hsum.autoIncrement
    · rw [hsum.characterSet]; simp
    · rw [hsum.collate]; simp
    · exact (Kept.foldl appendConstraint_kept cs []).part hk
  · exact trivial

theorem parseConstraintName_source (ts : List Token) :
    Post (fun r => ∃ p, ts = p ++ r.2 ∧ ((p = [] ∧ r.1 = none) ∨ ∃ k t, p = [k, t] ∧ k.type = .CONSTRAINT ∧ t.type = .IDENT ∧
      r.1 = some (word .mysql t))) (parseConstraintName ts) := by
  unfold parseConstraintName
  split
  · rename_i h
    obtain ⟨t, r, rfl, ht⟩ := cons_of h (by decide)
    refine Post.next_bind ?_
    split
    · exact trivial
    · rename_i h2
      obtain ⟨t2, r, rfl, k2⟩ := cons_of (ts := r) (T := .IDENT) (by simpa using h2) (by decide)
      refine Post.next_bind ?_
      exact Post.ok ⟨[t, t2], rfl, .inr ⟨t, t2, rfl, ht, k2, rfl⟩⟩
  · exact Post.ok ⟨[], rfl, .inl ⟨rfl, rfl⟩⟩

theorem named_source {p : List Token} {o : Option Ident}
    (h : (p = [] ∧ o = none) ∨ ∃ k t, p = [k, t] ∧ k.type = .CONSTRAINT ∧ t.type = .IDENT ∧ o = some (word .mysql t)) (s : Str) :
    NamedAs .mysql p s (o.getD (rawIdent s)) := by
  rcases h with ⟨rfl, rfl⟩ | ⟨k, t, rfl, hk, ht, rfl⟩
  · exact .inl ⟨rfl, rfl⟩
  · exact .inr ⟨k, t, rfl, hk, ht, rfl⟩

theorem underscored_eq (l : List ColumnIdent) :
    underscored l = l.flatMap fun c => s%"_" ++ c.ident.name ++ (if c.order = some true then s%" DESC" else []) := by
  simp [underscored, List.flatMap, ColumnIdent.diffStr, Ident.diffStr]

theorem parseTableConstraint_source (tbl : Ident) (ts : List Token) (hP : AllTok Constant ts) :
    Post (fun r => ∃ p, ts = p ++ r.2 ∧ OfTable tbl.name p r.1) (parseTableConstraint tbl ts) := by
  unfold parseTableConstraint
  refine Post.bind (parseConstraintName_source ts) ?_
  rintro ⟨cn, ts'⟩ ⟨a, rfl, ha⟩
  dsimp only at ha ⊢
  split
  · rename_i h
    obtain ⟨t, r, rfl, ht⟩ := cons_of h (by decide)
    refine Post.checkPeek_bind fun h2 => ?_
    obtain ⟨t2, r, rfl, k2⟩ := cons_of (ts := r) (T := .KEY) (by simpa [peekT] using h2) (by decide)
    refine Post.next_bind (Post.checkPeek_bind fun h3 => Post.next_bind ?_)
    refine Post.bind (columnIdentsLoop_source _ r) ?_
    rintro ⟨ids, ts'⟩ ⟨l, rfl, hl⟩
    exact Post.ok ⟨a ++ ([t, t2] ++ l), by simp, .primaryKey _ _ _ [] _ _ (named_source ha _) (by simp [kinds, ht, k2]) hl⟩
  · split
    · rename_i h
      obtain ⟨t, r, rfl, ht⟩ := cons_of h (by decide)
      refine Post.checkPeek_bind fun h2 => ?_
      obtain ⟨t2, r, rfl, k2⟩ := cons_of (ts := r) (T := .KEY) (by simpa [peekT] using h2) (by decide)
      refine Post.next_bind (Post.checkPeek_bind fun h3 => Post.next_bind ?_)
      refine Post.bind (columnIdentsLoop_source _ r) ?_
      rintro ⟨ids, ts'⟩ ⟨l, rfl, hl⟩
      refine Post.checkCur_bind fun h4 => ?_
      obtain ⟨t4, r, rfl, k4⟩ := cons_of (ts := ts') (T := .REFERENCES) (by simpa using h4) (by decide)
      refine Post.next_bind (Post.checkCur_bind fun h5 => ?_)
      obtain ⟨t5, r, rfl, k5⟩ := cons_of (ts := r) (T := .IDENT) (by simpa using h5) (by decide)
      refine Post.next_bind ?_
      refine Post.bind (columnIdentsLoop_source _ r) ?_
      rintro ⟨idsRef, ts'⟩ ⟨m, rfl, hm⟩
      refine actions_source ts' (fun o₁ o₂ rest => Res.ok (Constraint.foreignKey (cn.getD (rawIdent (tbl.diffStr ++ underscored ids ++ s%"_fkey"))) ids
        (rawIdent (curL (t5 :: (m ++ ts')))) idsRef (o₁.getD [] ++ (match o₂ with | some a => s%" " ++ a | none => [])), rest)) ?_
      intro acts rest o₁ o₂ e hlen hacts _ e2
      refine Post.ok ⟨a ++ ([t, t2] ++ (l ++ t4 :: t5 :: (m ++ acts.flatten))), by dsimp only; rw [e]; simp, ?_⟩
      dsimp only
      rw [e2]
      refine .foreignKey _ _ _ _ _ _ _ _ _ _ ?_ (by simp [kinds, ht, k2]) hl k4 k5 hm hlen hacts
      rw [underscored_eq]
      exact named_source ha _
    · split
      · rename_i h
        have go : ∀ (u : Bool) (k0 ts2 : List Token), ts' = k0 ++ ts2 → (∀ t, t.type = .INDEX ∨ t.type = .KEY → kinds (k0 ++ [t]) ∈ (if u then [[.UNIQUE, .INDEX], [.UNIQUE, .KEY]] else [[.INDEX], [.KEY]])) →
            Post (fun r => ∃ p, a ++ ts' = p ++ r.2 ∧ OfTable tbl.name p r.1) (do
              checkCur [.INDEX, .KEY] ts2
              let ts ← next ts2
              checkCur [.IDENT] ts
              checkPeek [.OPEN_PAREN] ts
              let ts₁ ← next ts
              let x ← parseColumnIdents ts₁
              Res.ok (Constraint.index (rawIdent (curL ts)) u x.1, x.2)) := by
          intro u k0 ts2 e hk
          refine Post.checkCur_bind fun h2 => ?_
          obtain ⟨k, r, rfl, hk'⟩ := cons_of_mem (ts := ts2) h2 (by decide)
          refine Post.next_bind (Post.checkCur_bind fun h3 => ?_)
          obtain ⟨n, r, rfl, hn⟩ := cons_of (ts := r) (T := .IDENT) (by simpa using h3) (by decide)
          refine Post.checkPeek_bind fun h4 => Post.next_bind ?_
          refine Post.bind (columnIdentsLoop_source _ r) ?_
          rintro ⟨ids, ts3⟩ ⟨l, rfl, hl⟩
          exact Post.ok ⟨a ++ ((k0 ++ [k]) ++ n :: l), by rw [e]; simp, .index _ _ _ [] _ _ _ _ (named_source ha _) (hk k (by simpa using hk')) hn hl⟩
        split
        · rename_i h2
          obtain ⟨t, r, rfl, ht⟩ := cons_of h2 (by decide)
          refine Post.next_bind ?_
          exact go true [t] r rfl (by rintro u (hu | hu) <;> simp [kinds, ht, hu])
        · exact go false [] ts' rfl (by rintro u (hu | hu) <;> simp [kinds, hu])
      · split
        · rename_i h
          obtain ⟨t, r, rfl, ht⟩ := cons_of h (by decide)
          refine Post.checkPeek_bind fun h3 => Post.next_bind ?_
          refine Post.bind (parseExpr_source (ts := r) (AllTok.append hP).tail) ?_
          rintro ⟨ids, ts2⟩ ⟨e, rfl, hs, -⟩
          exact Post.ok ⟨a ++ t :: e, by simp, .check _ _ _ _ _ (named_source ha _) ht hs⟩
        · exact trivial

theorem tableLoop_source (tbl : Ident) : ∀ n cols cs ts, AllTok Constant ts →
    Post (fun r => ∃ p c cols' w, ts = p ++ c :: r.2.2 ∧ c.type = .CLOSE_PAREN ∧ Body (OfName tbl.name) (OfTable tbl.name) p cols' w ∧ r.1 = cols ++ cols' ∧
      Kept (fun c : Constraint => c.name.name) cs w r.2.1) (tableLoop tbl n cols cs ts) := by
  intro n
  induction n with
  | zero => intro cols cs ts _; exact trivial
  | succ n ih =>
    intro cols cs ts hP
    rw [tableLoop]
    split
    · refine Post.bind (parseColumn_source tbl hP) ?_
      rintro ⟨c, ccs, ts'⟩ h
      dsimp only at h ⊢
      rcases h with rfl | ⟨p, w, rfl, hc, hk⟩
      · cases n with
        | zero => exact trivial
        | succ n =>
          rw [tableLoop]
          simp [curT, cur, eofToken, isConstraint]
          exact trivial
      refine (ih _ _ ts' (AllTok.append hP)).imp ?_
      rintro ⟨cols2, cs2, ts2⟩ ⟨p', k, cols', w', rfl, hk2, hb, e, hk'⟩
      refine ⟨p ++ p', k, c :: cols', w ++ w', by simp, hk2, .column _ _ _ _ _ _ hc hb, by simpa using e, ?_⟩
      exact ((Kept.foldl appendConstraint_kept ccs cs).part hk).trans hk'
    · split
      · refine Post.bind (parseTableConstraint_source tbl ts hP) ?_
        rintro ⟨c, ts'⟩ ⟨p, rfl, hc⟩
        refine (ih _ _ ts' (AllTok.append hP)).imp ?_
        rintro ⟨cols2, cs2, ts2⟩ ⟨p', k, cols', w', rfl, hk2, hb, e, hk'⟩
        exact ⟨p ++ p', k, cols', c :: w', by simp, hk2, .constraint _ _ _ _ _ hc hb, e, (appendConstraint_kept cs c).trans hk'⟩
      · split
        · rename_i h
          obtain ⟨t, r, rfl, ht⟩ := cons_of h (by decide)
          refine Post.next_bind ?_
          refine (ih _ _ r hP.tail).imp ?_
          rintro ⟨cols2, cs2, ts2⟩ ⟨p', k, cols', w', rfl, hk2, hb, e, hk'⟩
          exact ⟨t :: p', k, cols', w', rfl, hk2, .comma _ _ _ _ ht hb, e, hk'⟩
        · split
          · rename_i h
            obtain ⟨t, r, rfl, ht⟩ := cons_of h (by decide)
            refine Post.next_bind ?_
            exact Post.ok ⟨[], t, [], [], rfl, ht, .nil, by simp, .refl _⟩
          · exact trivial

theorem parseOptionValue_source (ts : List Token) :
    Post (fun r => ∃ e v, ts.tail = e :: v :: r.2.tail ∧ e.type = .EQUAL ∧ v.type = .IDENT ∧ r.1 = [word .mysql v]) (parseOptionValue ts) := by
  unfold parseOptionValue
  refine Post.next_bind (Post.checkCur_bind fun h => ?_)
  obtain ⟨e, r, e1, he⟩ := cons_of (ts := ts.tail) (T := .EQUAL) (by simpa using h) (by decide)
  rw [e1]
  refine Post.next_bind (Post.checkCur_bind fun h2 => ?_)
  obtain ⟨v, r, rfl, hv⟩ := cons_of (ts := r) (T := .IDENT) (by simpa using h2) (by decide)
  exact Post.ok ⟨e, v, rfl, he, hv, rfl⟩

theorem parseOption_source (ts : List Token) :
    Post (fun r => ∃ k e v name, ts = k ++ e :: v :: r.2.tail ∧ (kinds k, name) ∈ Written.optionNames ∧ e.type = .EQUAL ∧ v.type = .IDENT ∧
      r.1 = ⟨name, [word .mysql v]⟩) (parseOption ts) := by
  have one : ∀ (T : TokType) (name : Str), ([T], name) ∈ Written.optionNames → T ≠ .EOF → curT ts = T →
      Post (fun r => ∃ k e v name, ts = k ++ e :: v :: r.2.tail ∧ (kinds k, name) ∈ Written.optionNames ∧ e.type = .EQUAL ∧ v.type = .IDENT ∧
        r.1 = ⟨name, [word .mysql v]⟩) (do
        let x ← parseOptionValue ts
        Res.ok ((⟨name, x.1⟩ : TableOption), x.2)) := by
    intro T name hm hT h
    obtain ⟨t, r, rfl, ht⟩ := cons_of h hT
    refine Post.bind (parseOptionValue_source (t :: r)) ?_
    rintro ⟨x, ts'⟩ ⟨e, v, e1, he, hv, e2⟩
    exact Post.ok ⟨[t], e, v, name, congrArg (t :: ·) e1, by simpa [kinds, ht] using hm, he, hv, by dsimp only at e2 ⊢; rw [e2]⟩
  unfold parseOption
  split
  · rename_i h; exact one .ENGINE _ (by decide) (by decide) h
  · split
    · rename_i h; exact one .AUTO_INCREMENT _ (by decide) (by decide) h
    · split
      · rename_i h
        obtain ⟨t, r, rfl, ht⟩ := cons_of h (by decide)
        refine Post.checkPeek_bind fun h2 => ?_
        obtain ⟨t2, r, rfl, k2⟩ := cons_of (ts := r) (T := .CHARSET) (by simpa [peekT] using h2) (by decide)
        refine Post.next_bind ?_
        refine Post.bind (parseOptionValue_source (t2 :: r)) ?_
        rintro ⟨x, ts'⟩ ⟨e, v, e1, he, hv, e2⟩
        exact Post.ok ⟨[t, t2], e, v, s%"DEFAULT CHARSET", congrArg (fun x => t :: t2 :: x) e1, by simp [kinds, ht, k2, Written.optionNames], he, hv, by dsimp only at e2 ⊢; rw [e2]⟩
      · split
        · rename_i h; exact one .COLLATE _ (by decide) (by decide) h
        · split
          · rename_i h; exact one .COMMENT _ (by decide) (by decide) h
          · exact trivial

theorem optionsLoop_source : ∀ n ts, Post (fun r => ∃ p, ts = p ++ r.2 ∧ Written.Options p r.1) (optionsLoop n ts) := by
  intro n
  induction n with
  | zero => intro ts; exact trivial
  | succ n ih =>
    intro ts
    rw [optionsLoop]
    split
    · exact Post.ok ⟨[], rfl, .nil⟩
    · refine Post.bind (parseOption_source ts) ?_
      rintro ⟨o, ts'⟩ ⟨k, e, v, name, rfl, hk, he, hv, e2⟩
      refine Post.next_bind ?_
      refine Post.bind (ih ts'.tail) ?_
      rintro ⟨l, ts2⟩ ⟨p, e3, hp⟩
      refine Post.ok ⟨k ++ e :: v :: p, by dsimp only at e3 ⊢; rw [e3]; simp, ?_⟩
      dsimp only at e2 ⊢; rw [e2]
      exact .cons _ _ _ _ _ _ hk he hv hp

theorem parseCreateTable_source {ts : List Token} {k t : Token} (hP : AllTok Constant ts) (hk : k.type = .CREATE) (ht : t.type = .TABLE) :
    Post (fun r => ∃ p, k :: t :: ts = p ++ r.2 ∧ Table p r.1) (parseCreateTable (t :: ts)) := by
  unfold parseCreateTable
  refine Post.bind parseIfNotExists_source ?_
  rintro ⟨ine, ts'⟩ ⟨i, t', e, hi, rfl⟩
  dsimp only at e hi ⊢
  have e : ts = i ++ ts'.tail := (List.cons.inj e).2
  refine Post.next_bind (Post.checkCur_bind fun h => ?_)
  obtain ⟨n, r, e2, hn⟩ := cons_of (T := .IDENT) (by simpa using h) (by decide)
  rw [e2] at e ⊢
  refine Post.next_bind (Post.checkCur_bind fun h2 => ?_)
  obtain ⟨o, r, rfl, ho⟩ := cons_of (ts := r) (T := .OPEN_PAREN) (by simpa using h2) (by decide)
  refine Post.next_bind ?_
  subst e
  refine Post.bind (tableLoop_source _ _ [] [] r (AllTok.append hP).tail.tail) ?_
  rintro ⟨cols, cs, ts2⟩ ⟨p, c, cols', w, rfl, hc, hb, e3, hkept⟩
  refine Post.bind (optionsLoop_source _ ts2) ?_
  rintro ⟨os, ts3⟩ ⟨q, rfl, hq⟩
  refine Post.ok ⟨[k, t'] ++ (i ++ n :: o :: (p ++ c :: q)), by simp, [k, t'], i, n, o, p, c, q, w, rfl, by simp [kinds, hk, ht], hi, hn, ho, hc, rfl, ?_,
    (hkept List.nodup_nil).1, (hkept List.nodup_nil).2, rfl, hq⟩
  dsimp only at e3 ⊢
  rw [e3]; exact hb

theorem parseCreateIndex_source {ts : List Token} {k t : Token} (hk : k.type = .CREATE) (ht : t.type = .INDEX ∨ t.type = .UNIQUE) :
    Post (fun r => ∃ p, k :: t :: ts = p ++ r.2 ∧ Index p r.1) (parseCreateIndex (t :: ts)) := by
  unfold parseCreateIndex
  have hu : Post (fun r => ∃ a, t :: ts = a ++ r.2.tail ∧ a.getLast? = r.2.head? ∧ r.2 ≠ [] ∧ ((r.1 = false ∧ kinds a = [.INDEX]) ∨ (r.1 = true ∧ (kinds a).head? = some .UNIQUE ∧ a.length ≤ 2)) ∨ (r.2 = [] ∧ ts = []))
      (parseUnique (t :: ts)) := by
    unfold parseUnique
    split
    · rename_i h
      refine Post.next_bind ?_
      cases ts with
      | nil => exact Post.ok ⟨[], .inr ⟨rfl, rfl⟩⟩
      | cons u r => exact Post.ok ⟨[t, u], .inl ⟨rfl, rfl, by simp, .inr ⟨rfl, by simpa [kinds, curT, cur] using h, by simp⟩⟩⟩
    · rename_i h
      exact Post.ok ⟨[t], .inl ⟨rfl, rfl, by simp, .inl ⟨rfl, by
        rcases ht with ht | ht
        · simp [kinds, ht]
        · exact absurd ht h⟩⟩⟩
  refine Post.bind hu ?_
  rintro ⟨uq, ts1⟩ ⟨a, h⟩
  dsimp only at h ⊢
  rcases h.symm with ⟨rfl, -⟩ | ⟨e, -, hne, ha⟩
  · exact trivial
  cases ts1 with
  | nil => exact absurd rfl hne
  | cons u ts1 =>
  refine Post.bind parseIfNotExists_source ?_
  rintro ⟨ine, ts'⟩ ⟨i, u', e1, hi, rfl⟩
  dsimp only at e1 hi ⊢
  have e1 : ts1 = i ++ ts'.tail := (List.cons.inj e1).2
  refine Post.next_bind (Post.checkCur_bind fun h => ?_)
  obtain ⟨n, r, e2, hn⟩ := cons_of (T := .IDENT) (by simpa using h) (by decide)
  rw [e2] at e1 ⊢
  refine Post.next_bind (Post.checkCur_bind fun h2 => ?_)
  obtain ⟨o, r, rfl, ho⟩ := cons_of (ts := r) (T := .ON) (by simpa using h2) (by decide)
  refine Post.next_bind (Post.checkCur_bind fun h3 => ?_)
  obtain ⟨tb, r, rfl, htb⟩ := cons_of (ts := r) (T := .IDENT) (by simpa using h3) (by decide)
  refine Post.next_bind ?_
  have hus : Post (fun q => ∃ u, r = u ++ q.2 ∧ ((u = [] ∧ q.1 = []) ∨ (∃ k m, u = [k, m] ∧ k.type = .USING ∧ q.1 = [given m.lit]) ∨ q.2 = [])) (parseUsing r) := by
    unfold parseUsing
    split
    · rename_i h
      obtain ⟨v, r, rfl, hv⟩ := cons_of h (by decide)
      refine Post.next_bind (Post.next_bind ?_)
      cases r with
      | nil => exact Post.ok ⟨[v], rfl, .inr (.inr rfl)⟩
      | cons m r => exact Post.ok ⟨[v, m], rfl, .inr (.inl ⟨v, m, rfl, hv, rfl⟩)⟩
    · exact Post.ok ⟨[], rfl, .inl ⟨rfl, rfl⟩⟩
  refine Post.bind hus ?_
  rintro ⟨us, ts4⟩ ⟨v, rfl, hv⟩
  dsimp only at hv ⊢
  refine Post.checkCur_bind fun h5 => ?_
  have hv' : (v = [] ∧ us = []) ∨ ∃ k m, v = [k, m] ∧ k.type = .USING ∧ us = [given m.lit] := by
    rcases hv with h | h | rfl
    · exact .inl h
    · exact .inr h
    · simp [curT, cur, eofToken] at h5
  refine Post.bind (columnIdentsLoop_source _ ts4) ?_
  rintro ⟨ids, ts5⟩ ⟨l, rfl, hl⟩
  refine Post.ok ⟨k :: (a ++ (i ++ n :: o :: tb :: (v ++ l))), ?_, k, a, i, n, o, tb, v, l, rfl, hk, ha, hi, hn, rfl, ho, htb, rfl, hv', hl, rfl⟩
  rw [e]
  simp only [List.tail_cons] at *
  rw [e1]; simp

theorem parseCreate_source (ts : List Token) (hP : AllTok Constant ts) (h : curT ts = .CREATE) :
    Post (fun r => ∃ p, ts = p ++ r.2 ∧ Statement p r.1) (parseCreate ts) := by
  unfold parseCreate
  obtain ⟨k, r, rfl, hk⟩ := cons_of h (by decide)
  refine Post.next_bind ?_
  split
  · rename_i h2
    obtain ⟨t, r, rfl, ht⟩ := cons_of (ts := r) h2 (by decide)
    refine Post.bind (parseCreateTable_source hP.tail.tail hk ht) ?_
    rintro ⟨t, ts'⟩ ⟨p, e, ht⟩
    exact Post.ok ⟨p, e, .table _ _ ht⟩
  · split
    · rename_i h2
      obtain ⟨t, r, rfl⟩ := cons_of_ne (ts := r) (by intro e; rcases h2 with h2 | h2 <;> simp [List.tail, e] at h2)
      refine Post.bind (parseCreateIndex_source hk h2) ?_
      rintro ⟨t, ts'⟩ ⟨p, e, ht⟩
      exact Post.ok ⟨p, e, .index _ _ ht⟩
    · exact trivial

theorem parse_source (s : Str) : Post (fun l => Scripted Statement (lex .mysql s) l) (parse s) :=
  parseTokens_source .mysql s parseCreate_source

end Ddl.My.Source
