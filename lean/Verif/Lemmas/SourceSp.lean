import Verif.Spec.SourceSp
import Verif.Lemmas.Source
import Verif.Sp.Parser

/-! # What an accepted Spanner text consists of -/

set_option autoImplicit false

namespace Ddl.Sp.Source
open Spec Spec.Written Spec.Source Src

theorem parseOrder_source {t : Token} {r : List Token} :
    Post (fun q => ∃ o, r = o ++ q.2.tail ∧ kinds o = orderTypes q.1) (parseOrder (t :: r)) := by
  unfold parseOrder
  split
  · rename_i h
    obtain ⟨u, r, rfl, hu⟩ := cons_of (ts := r) (T := .ASC) h (by decide)
    refine Post.next_bind ?_
    exact Post.ok ⟨[u], rfl, by simp [kinds, hu, orderTypes]⟩
  · split
    · rename_i h
      obtain ⟨u, r, rfl, hu⟩ := cons_of (ts := r) (T := .DESC) h (by decide)
      refine Post.next_bind ?_
      exact Post.ok ⟨[u], rfl, by simp [kinds, hu, orderTypes]⟩
    · exact Post.ok ⟨[], rfl, rfl⟩

theorem columnIdentsLoop_source : ∀ n ts, Post (fun r => ∃ p, ts = p ++ r.2 ∧ Columns p r.1) (columnIdentsLoop n ts) := by
  intro n
  induction n with
  | zero => intro ts; exact trivial
  | succ n ih =>
    intro ts
    rw [columnIdentsLoop]
    split
    · rename_i h
      refine Post.next_bind ?_
      obtain ⟨t, r, rfl⟩ := cons_of_ne (ts := ts) (by rcases h with h | h <;> rw [h] <;> decide)
      refine (ih r).imp ?_
      rintro ⟨ids, ts'⟩ ⟨p, rfl, l, hl, e⟩
      exact ⟨t :: p, rfl, l, .skip _ _ _ h hl, e⟩
    · split
      · rename_i h
        obtain ⟨t, r, rfl, ht⟩ := cons_of h (by decide)
        refine Post.bind parseOrder_source ?_
        rintro ⟨b, ts'⟩ ⟨o, rfl, ho⟩
        refine Post.next_bind ?_
        refine Post.bind (ih ts'.tail) ?_
        rintro ⟨ids, ts''⟩ ⟨p, e, l, hl, e'⟩
        refine Post.ok ⟨t :: (o ++ p), by dsimp only at e ⊢; rw [e]; simp, (word .spanner t, b) :: l, .name _ _ _ _ _ ht ho hl, ?_⟩
        dsimp only at e' ⊢; rw [e']; rfl
      · split
        · rename_i h
          refine Post.next_bind ?_
          obtain ⟨t, r, rfl, ht⟩ := cons_of h (by decide)
          exact Post.ok ⟨[t], rfl, [], .close _ ht, rfl⟩
        · exact trivial

theorem identsLoop_source : ∀ n ts,
    Post (fun r => ∃ p, ts = p ++ r.2 ∧ curT r.2 = .CLOSE_PAREN ∧ r.1 = (p.filter fun t => t.type ≠ .OPEN_PAREN).map (word .spanner))
      (identsLoop n ts) := by
  intro n
  induction n with
  | zero => intro ts; exact trivial
  | succ n ih =>
    intro ts
    rw [identsLoop]
    split
    · rename_i h
      refine Post.next_bind ?_
      obtain ⟨t, r, rfl, ht⟩ := cons_of h (by decide)
      refine (ih r).imp ?_
      rintro ⟨ids, ts'⟩ ⟨p, rfl, hc, hn⟩
      exact ⟨t :: p, rfl, hc, by simpa [ht] using hn⟩
    · rename_i ho
      split
      · rename_i h
        exact Post.ok ⟨[], rfl, h, by simp⟩
      · split
        · exact trivial
        · rename_i h
          obtain ⟨t, r, rfl⟩ := cons_of_ne (ts := ts) (fun e => h (.inl e))
          refine Post.next_bind ?_
          refine Post.bind (ih r) ?_
          rintro ⟨ids, ts'⟩ ⟨p, rfl, hc, hn⟩
          refine Post.ok ⟨t :: p, rfl, hc, ?_⟩
          have : t.type ≠ .OPEN_PAREN := ho
          simp only [ne_eq, this, not_false_eq_true, decide_true, List.filter_cons_of_pos, List.map_cons]
          dsimp only at hn; rw [hn]; simp; rfl

/-- A type, its last token not consumed yet. -/
theorem parseDataType_source {ts : List Token} (hd : isDataType (curT ts) = true) :
    Post (fun r => ∃ p, ts = p ++ r.2.tail ∧ TypeName .spanner Written.types p r.1.name r.1.type r.1.expr) (parseDataType ts) := by
  unfold parseDataType
  obtain ⟨k, r, rfl⟩ := cons_of_ne (ts := ts) (by intro e; rw [e] at hd; exact absurd hd (by decide))
  dsimp only
  split
  · rename_i ho
    refine Post.next_bind ?_
    obtain ⟨o, r, rfl, ho⟩ := cons_of (ts := r) ho (by decide)
    refine Post.bind (Q := fun q => ∃ p, r = p ++ q.2 ∧ curT q.2 = .CLOSE_PAREN ∧ q.1 = (p.filter fun t => t.type ≠ .OPEN_PAREN).map (word .spanner)) ?_ ?_
    · rw [parseIdents, identsLoop, if_pos (by exact ho)]
      refine Post.next_bind ?_
      exact identsLoop_source _ r
    · rintro ⟨ids, ts2⟩ ⟨p, rfl, hc, hids⟩
      obtain ⟨c, r, rfl, hc⟩ := cons_of hc (by decide)
      exact Post.ok ⟨[k] ++ o :: (p ++ [c]), by simp, [k], p, .inr rfl, by simp [join, curL, cur], hids, .inr ⟨o, c, rfl, ho, hc⟩⟩
  · exact Post.ok ⟨[k], rfl, [k], [], .inr rfl, by simp [join, curL, cur], rfl, .inl ⟨rfl, rfl⟩⟩

theorem exprLoop_source : ∀ n ts, AllTok Constant ts →
    Post (fun r => ∃ p, ts = p ++ r.2 ∧ Spells p r.1) (exprLoop n ts) := by
  intro n
  induction n with
  | zero => intro ts _; exact trivial
  | succ n ih =>
    intro ts hP
    rw [exprLoop]
    split
    · rename_i h
      obtain ⟨t, r, rfl, ht⟩ := cons_of h (by decide)
      refine Post.next_bind ?_
      refine Post.bind (ih r hP.tail) ?_
      rintro ⟨ids, ts'⟩ ⟨p, rfl, hs⟩
      refine Post.bind (ih ts' (AllTok.append (AllTok.of_cons hP))) ?_
      rintro ⟨ids', ts''⟩ ⟨p', rfl, hs'⟩
      refine Post.ok ⟨t :: (p ++ p'), by simp, ?_⟩
      exact Spells.cons (congrArg upper (newRawIdent_raw _ _)) (hs.append hs')
    · split
      · rename_i h
        obtain ⟨t, r, rfl, ht⟩ := cons_of h (by decide)
        refine Post.next_bind ?_
        exact Post.ok ⟨[t], rfl, Spells.cons (congrArg upper (newRawIdent_raw _ _)) .nil⟩
      · split
        · rename_i h
          obtain ⟨t, r, rfl⟩ := cons_of_ne (ts := ts) (by rcases h with h | h | h <;> rw [h] <;> decide)
          dsimp only
          split
          · rename_i h2
            obtain ⟨t2, r, rfl⟩ := cons_of_ne (ts := r) (by intro e; simp [peekT, e] at h2)
            refine Post.next_bind ?_
            refine Post.next_bind ?_
            refine Post.bind (ih r hP.tail.tail) ?_
            rintro ⟨ids, ts'⟩ ⟨p, rfl, hs⟩
            refine Post.ok ⟨[t, t2] ++ p, rfl, ?_⟩
            exact Spells.append (a := [t, t2]) (v := [_]) (by simp [Spells, spelled, letters, rawIdent, newRawIdent_raw, curL, peekL, cur]) hs
          · refine Post.next_bind ?_
            refine Post.bind (ih r hP.tail) ?_
            rintro ⟨ids, ts'⟩ ⟨p, rfl, hs⟩
            exact Post.ok ⟨t :: p, rfl, Spells.cons (congrArg upper (newRawIdent_raw _ _)) hs⟩
        · split
          · exact trivial
          · rename_i h
            obtain ⟨t, r, rfl⟩ := cons_of_ne (ts := ts) h
            refine Post.next_bind ?_
            refine Post.bind (ih r hP.tail) ?_
            rintro ⟨ids, ts'⟩ ⟨p, rfl, hs⟩
            refine Post.ok ⟨t :: p, rfl, Spells.cons ?_ hs⟩
            dsimp only
            split
            · rename_i hv
              rw [rawIdent, newRawIdent_raw]
              have hc := hP t List.mem_cons_self
              have hm : t.type ∈ [.NULL, .TRUE, .FALSE] := by simpa [isReservedValue, curT, cur] using hv
              rw [hc hm]
              rcases List.mem_cons.1 hm with e | hm
              · simp [curT, cur, e, TokType.str]; decide
              · rcases List.mem_cons.1 hm with e | hm
                · simp [curT, cur, e, TokType.str]; decide
                · simp at hm; simp [curT, cur, hm, TokType.str]; decide
            · exact congrArg upper (newRawIdent_raw _ _)

theorem parseExpr_source {ts : List Token} (hP : AllTok Constant ts) :
    Post (fun r => ∃ p, ts = p ++ r.2 ∧ Spells p r.1 ∧ curT p = .OPEN_PAREN) (parseExpr ts) := by
  unfold parseExpr
  refine Post.checkCur_bind fun h => ?_
  obtain ⟨t, r, rfl, ht⟩ := cons_of (T := .OPEN_PAREN) (by simpa using h) (by decide)
  refine Post.next_bind ?_
  refine Post.bind (exprLoop_source _ r hP.tail) ?_
  rintro ⟨ids, ts'⟩ ⟨p, rfl, hs⟩
  exact Post.ok ⟨t :: p, rfl, Spells.cons (congrArg upper (newRawIdent_raw _ _)) hs, ht⟩

theorem defaultLoop_source : ∀ n v ts, AllTok Constant ts →
    Post (fun r => ∃ p ws, ts = p ++ r.2 ∧ Spells p ws ∧ r.1.value.getD [] = v.getD [] ++ ws) (defaultLoop n v ts) := by
  intro n
  induction n with
  | zero => intro v ts _; exact trivial
  | succ n ih =>
    intro v ts hP
    have one : ∀ (t : Token) (r : List Token) (i : Ident), AllTok Constant r → upper i.raw = upper t.lit →
        Post (fun q => ∃ p ws, t :: r = p ++ q.2 ∧ Spells p ws ∧ q.1.value.getD [] = v.getD [] ++ ws) (defaultLoop n (appendExpr v [i]) r) := by
      intro t r i hr hi
      refine (ih _ r hr).imp ?_
      rintro ⟨d, ts'⟩ ⟨p, ws, rfl, hs, e⟩
      exact ⟨t :: p, i :: ws, rfl, Spells.cons hi hs, by rw [e]; simp [appendExpr]⟩
    rw [defaultLoop.eq_def]; dsimp only
    split
    · rename_i h
      obtain ⟨t, r, rfl, ht⟩ := cons_of h (by decide)
      refine Post.next_bind ?_
      exact one t r _ hP.tail (congrArg upper (newRawIdent_raw _ _))
    · split
      · refine Post.bind (parseExpr_source hP) ?_
        rintro ⟨ids, ts'⟩ ⟨p, rfl, hs, -⟩
        refine (ih _ ts' (AllTok.append hP)).imp ?_
        rintro ⟨d, ts''⟩ ⟨p', ws, rfl, hs', e⟩
        exact ⟨p ++ p', ids ++ ws, by simp, hs.append hs', by rw [e]; simp [appendExpr]⟩
      · split
        · exact Post.ok ⟨[], [], rfl, .nil, by simp⟩
        · split
          · rename_i h
            obtain ⟨t, r, rfl⟩ := cons_of_ne (ts := ts) (by intro e; rw [e] at h; exact absurd h (by decide))
            refine Post.next_bind ?_
            exact one t r _ hP.tail rfl
          · split
            · exact Post.ok ⟨[], [], rfl, .nil, by simp⟩
            · exact trivial

theorem columnAttrsLoop_source : ∀ n d nn ts, AllTok Constant ts →
    Post (fun r => ∃ p as, ts = p ++ r.2.2 ∧ Many Attribute p as ∧ r.1 = (lastDefault as).or d ∧
      r.2.1 = ((as.filterMap Sum.getRight?).getLast?).getD nn) (columnAttrsLoop n d nn ts) := by
  intro n
  induction n with
  | zero => intro d nn ts _; exact trivial
  | succ n ih =>
    intro d nn ts hP
    rw [columnAttrsLoop]
    split
    · rename_i h
      obtain ⟨t, r, rfl, ht⟩ := cons_of h (by decide)
      refine Post.checkPeek_bind fun h2 => ?_
      obtain ⟨t2, r, rfl, k2⟩ := cons_of (ts := r) (T := .NULL) (by simpa [peekT] using h2) (by decide)
      refine Post.next_bind (Post.next_bind ?_)
      refine (ih _ _ r hP.tail.tail).imp ?_
      rintro ⟨d', nn', ts'⟩ ⟨p, as, rfl, hm, e1, e2⟩
      refine ⟨[t, t2] ++ p, .inr true :: as, rfl, .cons _ _ _ _ (.notNull _ (by simp [kinds, ht, k2])) hm, ?_, ?_⟩
      · simpa [lastDefault] using e1
      · rw [List.filterMap_cons, Sum.getRight?_inr]; dsimp only; rw [getLast?_getD_cons]; exact e2
    · split
      · rename_i h
        obtain ⟨t, r, rfl, ht⟩ := cons_of h (by decide)
        refine Post.next_bind ?_
        refine (ih _ _ r hP.tail).imp ?_
        rintro ⟨d', nn', ts'⟩ ⟨p, as, rfl, hm, e1, e2⟩
        refine ⟨[t] ++ p, .inr false :: as, rfl, .cons _ _ _ _ (.null _ (by simp [kinds, ht])) hm, ?_, ?_⟩
        · simpa [lastDefault] using e1
        · rw [List.filterMap_cons, Sum.getRight?_inr]; dsimp only; rw [getLast?_getD_cons]; exact e2
      · split
        · rename_i h
          obtain ⟨t, r, rfl, ht⟩ := cons_of h (by decide)
          refine Post.next_bind ?_
          refine Post.bind (defaultLoop_source _ none r hP.tail) ?_
          rintro ⟨df, ts'⟩ ⟨p, ws, rfl, hs, e⟩
          refine (ih _ _ ts' (AllTok.append (AllTok.of_cons hP))).imp ?_
          rintro ⟨d', nn', ts''⟩ ⟨p', as, rfl, hm, e1, e2⟩
          refine ⟨(t :: p) ++ p', .inl df :: as, by simp, .cons _ _ _ _ (.default _ _ _ ht (by dsimp only at e; rw [e]; simpa using hs)) hm, ?_, ?_⟩
          · rw [lastDefault, List.filterMap_cons, Sum.getLeft?_inl]; dsimp only; rw [getLast?_or_cons, Option.or_assoc]; exact e1
          · simpa using e2
        · exact Post.ok ⟨[], [], rfl, .nil, by simp [lastDefault], by simp⟩

theorem appendConstraint_spec (l : List Constraint) (c : Constraint) :
    Post (fun new => (∃ a x b, l = a ++ x :: b ∧ x.name.map (·.name) = c.name.map (·.name) ∧ new = a ++ c :: b) ∨
      ((∀ x ∈ l, x.name.map (·.name) ≠ c.name.map (·.name)) ∧ new = l ++ [c])) (appendConstraint l c) := by
  induction l with
  | nil => exact Post.ok (.inr ⟨by simp, rfl⟩)
  | cons x l ih =>
    rw [appendConstraint]
    cases hx : x.name with
    | none => simp [Constraint.nameStr, hx]; exact trivial
    | some n =>
    cases hc : c.name with
    | none => simp [Constraint.nameStr, hx, hc]; exact trivial
    | some m =>
    rw [hc] at ih
    have h1 : x.nameStr = .ok n.name := by simp [Constraint.nameStr, hx]
    have h2 : c.nameStr = .ok m.name := by simp [Constraint.nameStr, hc]
    rw [h1, h2]
    show Post _ (if n.name = m.name then _ else _)
    split
    · rename_i e
      exact Post.ok (.inl ⟨[], x, l, rfl, by simp [hx, e], rfl⟩)
    · rename_i e
      refine Post.bind ih ?_
      rintro new (⟨a, y, b, rfl, e', rfl⟩ | ⟨h, rfl⟩)
      · exact Post.ok (.inl ⟨x :: a, y, b, rfl, e', rfl⟩)
      · refine Post.ok (.inr ⟨fun y hy => ?_, rfl⟩)
        rcases List.mem_cons.1 hy with rfl | hy
        · simpa [hx] using e
        · exact h y hy

theorem appendConstraint_kept (l : List Constraint) (c : Constraint) :
    Post (fun new => Kept (fun c : Constraint => c.name.map (·.name)) l [c] new) (appendConstraint l c) := by
  refine (appendConstraint_spec l c).imp ?_
  rintro new (⟨a, x, b, rfl, e, rfl⟩ | ⟨h, rfl⟩)
  · exact .replaced e
  · exact .added (.refl _) h

theorem appendAll_kept : ∀ (w l : List Constraint),
    Post (fun new => Kept (fun c : Constraint => c.name.map (·.name)) l w new) (appendAll l w)
  | [], l => by rw [appendAll]; exact Post.ok (.refl _)
  | c :: w, l => by
    rw [appendAll]
    refine Post.bind (appendConstraint_kept l c) ?_
    intro m hm
    exact (appendAll_kept w m).imp fun new h => hm.trans h

theorem columnConstraintsLoop_source (tbl col : Ident) : ∀ n cs ts, AllTok Constant ts →
    Post (fun r => ∃ p w, ts = p ++ r.2 ∧ Many (OfColumn tbl.name col) p w ∧ Kept (fun c : Constraint => c.name.map (·.name)) cs w r.1)
      (columnConstraintsLoop tbl col n cs ts) := by
  intro n
  induction n with
  | zero => intro cs ts _; exact trivial
  | succ n ih =>
    intro cs ts hP
    have go : ∀ (p ts' : List Token) (c : Constraint), AllTok Constant ts' → (∀ k, k.length ≤ 1 → OfColumn tbl.name col (p ++ k) c) →
        Post (fun q => ∃ p' w, p ++ ts' = p' ++ q.2 ∧ Many (OfColumn tbl.name col) p' w ∧ Kept (fun c : Constraint => c.name.map (·.name)) cs w q.1) (do
          let cs ← appendConstraint cs c
          let ts ← next ts'
          columnConstraintsLoop tbl col n cs ts) := by
      intro p ts' c hr hc
      refine Post.bind (appendConstraint_kept cs c) ?_
      intro m hm
      refine Post.next_bind ?_
      obtain ⟨k, hk, e⟩ := tail_skip ts'
      refine (ih _ ts'.tail hr.tail).imp ?_
      rintro ⟨cs', ts''⟩ ⟨p', w, e', hmany, hkept⟩
      refine ⟨(p ++ k) ++ p', c :: w, ?_, .cons _ _ _ _ (hc k hk) hmany, hm.trans hkept⟩
      rw [List.append_assoc, List.append_assoc, ← e', ← e]
    rw [columnConstraintsLoop]
    split
    · rename_i h
      obtain ⟨t, r, rfl, ht⟩ := cons_of h (by decide)
      refine Post.checkPeek_bind fun h2 => ?_
      obtain ⟨t2, r, rfl, k2⟩ := cons_of (ts := r) (T := .IDENT) (by simpa [peekT] using h2) (by decide)
      refine Post.next_bind (Post.next_bind ?_)
      refine Post.bind (columnIdentsLoop_source _ r) ?_
      rintro ⟨ids, ts'⟩ ⟨l, rfl, hl⟩
      have := go (t :: t2 :: l) ts' (.foreignKey (rawIdent (tbl.diffStr ++ s%"_" ++ col.diffStr ++ s%"_fkey")) [⟨col, none⟩] (word .spanner t2) ids)
        (AllTok.append (AllTok.of_cons (AllTok.of_cons hP))) fun k hk => .refers t t2 l k ids ht k2 hl hk
      exact this
    · split
      · rename_i h
        obtain ⟨t, r, rfl, ht⟩ := cons_of h (by decide)
        refine Post.checkPeek_bind fun h2 => ?_
        refine Post.next_bind ?_
        refine Post.bind (parseExpr_source (ts := r) hP.tail) ?_
        rintro ⟨ids, ts'⟩ ⟨e, rfl, hs, -⟩
        have := go (t :: e) ts' (.check (some (rawIdent (tbl.diffStr ++ s%"_" ++ col.diffStr ++ s%"_check"))) ids)
          (AllTok.append (AllTok.of_cons hP)) fun k hk => .check t e k ids ht hs hk
        exact this
      · split
        · exact Post.ok ⟨[], [], rfl, .nil, .refl _⟩
        · exact trivial

theorem parseColumnOptions_source {ts : List Token} (hP : AllTok Constant ts) :
    Post (fun r => ∃ o, ts = o ++ r.2 ∧ Optional o r.1) (parseColumnOptions ts) := by
  unfold parseColumnOptions
  split
  · rename_i h
    obtain ⟨t, r, rfl, ht⟩ := cons_of h (by decide)
    refine Post.next_bind ?_
    refine Post.bind (parseExpr_source (ts := r) hP.tail) ?_
    rintro ⟨ids, ts'⟩ ⟨e, rfl, hs, -⟩
    exact Post.ok ⟨t :: e, rfl, .inr ⟨t, e, ids, rfl, ht, hs, rfl⟩⟩
  · exact Post.ok ⟨[], rfl, .inl ⟨rfl, rfl⟩⟩

theorem parseColumn_source (tbl : Ident) {ts : List Token} (hP : AllTok Constant ts) :
    Post (fun r => ∃ p w, ts = p ++ r.2.2 ∧ OfName tbl.name p r.1 w ∧ Kept (fun c : Constraint => c.name.map (·.name)) [] w r.2.1) (parseColumn tbl ts) := by
  unfold parseColumn
  refine Post.checkCur_bind fun h => ?_
  obtain ⟨t, r, rfl, ht⟩ := cons_of (T := .IDENT) (by simpa using h) (by decide)
  refine Post.next_bind ?_
  split
  · rename_i hd
    refine Post.bind (parseDataType_source hd) ?_
    rintro ⟨dt, ts'⟩ ⟨y, e, hy⟩
    refine Post.next_bind ?_
    dsimp only at e hy ⊢
    have hr : r = y ++ ts'.tail := e
    have hP1 : AllTok Constant ts'.tail := by rw [hr] at hP; exact AllTok.append (AllTok.of_cons hP)
    refine Post.bind (columnAttrsLoop_source _ none false ts'.tail hP1) ?_
    rintro ⟨df, nn, ts2⟩ ⟨a, as, e2, ha, e3, e4⟩
    dsimp only at e2 e3 e4 ⊢
    have hP2 : AllTok Constant ts2 := by rw [e2] at hP1; exact AllTok.append hP1
    refine Post.bind (columnConstraintsLoop_source tbl _ _ [] ts2 hP2) ?_
    rintro ⟨cs, ts3⟩ ⟨q, w, e5, hq, hk⟩
    dsimp only at e5 hk ⊢
    refine Post.bind (appendAll_kept cs []) ?_
    intro cs' hcs'
    have hP3 : AllTok Constant ts3 := by rw [e5] at hP2; exact AllTok.append hP2
    refine Post.bind (parseColumnOptions_source hP3) ?_
    rintro ⟨os, ts4⟩ ⟨o, e6, ho⟩
    refine Post.ok ⟨t :: (y ++ (a ++ (q ++ o))), w, ?_, ⟨t, y, a, q, o, as, rfl, ht, rfl, hy, ha, ?_, e4, hq, ho⟩, hcs'.part hk⟩
    · rw [hr, e2, e5, e6]; simp
    · rw [e3]; simp
  · exact trivial

theorem parseConstraintName_source (ts : List Token) :
    Post (fun r => ∃ p, ts = p ++ r.2 ∧ ((p = [] ∧ r.1 = none) ∨ ∃ k t, p = [k, t] ∧ k.type = .CONSTRAINT ∧ t.type = .IDENT ∧
      r.1 = some (word .spanner t))) (parseConstraintName ts) := by
  unfold parseConstraintName
  split
  · rename_i h
    obtain ⟨t, r, rfl, ht⟩ := cons_of h (by decide)
    refine Post.next_bind ?_
    split
    · exact trivial
    · rename_i h2
      obtain ⟨t2, r, rfl, k2⟩ := cons_of (ts := r) (T := .IDENT) (by simpa using h2) (by decide)
      refine Post.next_bind ?_
      exact Post.ok ⟨[t, t2], rfl, .inr ⟨t, t2, rfl, ht, k2, rfl⟩⟩
  · exact Post.ok ⟨[], rfl, .inl ⟨rfl, rfl⟩⟩

theorem named_source {p : List Token} {o : Option Ident}
    (h : (p = [] ∧ o = none) ∨ ∃ k t, p = [k, t] ∧ k.type = .CONSTRAINT ∧ t.type = .IDENT ∧ o = some (word .spanner t)) (s : Str) :
    NamedAs .spanner p s (o.getD (rawIdent s)) := by
  rcases h with ⟨rfl, rfl⟩ | ⟨k, t, rfl, hk, ht, rfl⟩
  · exact .inl ⟨rfl, rfl⟩
  · exact .inr ⟨k, t, rfl, hk, ht, rfl⟩

theorem underscored_eq (l : List ColumnIdent) :
    underscored l = l.flatMap fun c => s%"_" ++ c.ident.name ++ (if c.order = some true then s%" DESC" else s%" ASC") := by
  simp [underscored, List.flatMap, ColumnIdent.diffStr, Ident.diffStr]

theorem parseTableConstraint_source (tbl : Ident) (ts : List Token) (hP : AllTok Constant ts) :
    Post (fun r => ∃ p, ts = p ++ r.2 ∧ OfTable tbl.name p r.1) (parseTableConstraint tbl ts) := by
  unfold parseTableConstraint
  refine Post.bind (parseConstraintName_source ts) ?_
  rintro ⟨cn, ts'⟩ ⟨a, rfl, ha⟩
  dsimp only at ha ⊢
  split
  · rename_i h
    obtain ⟨t, r, rfl, ht⟩ := cons_of h (by decide)
    refine Post.checkPeek_bind fun h2 => ?_
    obtain ⟨t2, r, rfl, k2⟩ := cons_of (ts := r) (T := .KEY) (by simpa [peekT] using h2) (by decide)
    refine Post.next_bind (Post.checkPeek_bind fun h3 => Post.next_bind ?_)
    refine Post.bind (columnIdentsLoop_source _ r) ?_
    rintro ⟨ids, ts'⟩ ⟨l, rfl, hl⟩
    refine Post.checkCur_bind fun h4 => ?_
    obtain ⟨t4, r, rfl, k4⟩ := cons_of (ts := ts') (T := .REFERENCES) (by simpa using h4) (by decide)
    refine Post.next_bind (Post.checkCur_bind fun h5 => ?_)
    obtain ⟨t5, r, rfl, k5⟩ := cons_of (ts := r) (T := .IDENT) (by simpa using h5) (by decide)
    refine Post.next_bind ?_
    refine Post.bind (columnIdentsLoop_source _ r) ?_
    rintro ⟨idsRef, ts'⟩ ⟨m, rfl, hm⟩
    refine Post.ok ⟨a ++ ([t, t2] ++ (l ++ t4 :: t5 :: m)), by simp, ?_⟩
    refine .foreignKey _ _ _ _ _ _ _ _ _ ?_ (by simp [kinds, ht, k2]) hl k4 k5 hm
    rw [underscored_eq]
    exact named_source ha _
  · split
    · rename_i h
      obtain ⟨t, r, rfl, ht⟩ := cons_of h (by decide)
      refine Post.checkPeek_bind fun h3 => Post.next_bind ?_
      refine Post.bind (parseExpr_source (ts := r) (AllTok.append hP).tail) ?_
      rintro ⟨ids, ts2⟩ ⟨e, rfl, hs, -⟩
      exact Post.ok ⟨a ++ t :: e, by simp, .check _ _ _ _ _ ha ht hs⟩
    · exact trivial

theorem tableLoop_source (tbl : Ident) : ∀ n cols cs ts, AllTok Constant ts →
    Post (fun r => ∃ p c cols' w, ts = p ++ c :: r.2.2 ∧ c.type = .CLOSE_PAREN ∧ Body (OfName tbl.name) (OfTable tbl.name) p cols' w ∧ r.1 = cols ++ cols' ∧
      Kept (fun c : Constraint => c.name.map (·.name)) cs w r.2.1) (tableLoop tbl n cols cs ts) := by
  intro n
  induction n with
  | zero => intro cols cs ts _; exact trivial
  | succ n ih =>
    intro cols cs ts hP
    rw [tableLoop]
    split
    · refine Post.bind (parseColumn_source tbl hP) ?_
      rintro ⟨c, ccs, ts'⟩ ⟨p, w, rfl, hc, hk⟩
      refine Post.bind (appendAll_kept ccs cs) ?_
      intro cs1 hcs1
      refine (ih _ _ ts' (AllTok.append hP)).imp ?_
      rintro ⟨cols2, cs2, ts2⟩ ⟨p', k, cols', w', rfl, hk2, hb, e, hk'⟩
      refine ⟨p ++ p', k, c :: cols', w ++ w', by simp, hk2, .column _ _ _ _ _ _ hc hb, by simpa using e, ?_⟩
      exact (hcs1.part hk).trans hk'
    · split
      · refine Post.bind (parseTableConstraint_source tbl ts hP) ?_
        rintro ⟨c, ts'⟩ ⟨p, rfl, hc⟩
        refine Post.bind (appendConstraint_kept cs c) ?_
        intro cs1 hcs1
        refine (ih _ _ ts' (AllTok.append hP)).imp ?_
        rintro ⟨cols2, cs2, ts2⟩ ⟨p', k, cols', w', rfl, hk2, hb, e, hk'⟩
        exact ⟨p ++ p', k, cols', c :: w', by simp, hk2, .constraint _ _ _ _ _ hc hb, e, hcs1.trans hk'⟩
      · split
        · rename_i h
          obtain ⟨t, r, rfl, ht⟩ := cons_of h (by decide)
          refine Post.next_bind ?_
          refine (ih _ _ r hP.tail).imp ?_
          rintro ⟨cols2, cs2, ts2⟩ ⟨p', k, cols', w', rfl, hk2, hb, e, hk'⟩
          exact ⟨t :: p', k, cols', w', rfl, hk2, .comma _ _ _ _ ht hb, e, hk'⟩
        · split
          · rename_i h
            obtain ⟨t, r, rfl, ht⟩ := cons_of h (by decide)
            refine Post.next_bind ?_
            exact Post.ok ⟨[], t, [], [], rfl, ht, .nil, by simp, .refl _⟩
          · exact trivial

theorem expect_bind {β : Type} {Q : β → Prop} {T : TokType} {x : Token} {rest : List Token} {f : Str × List Token → Res β} (hT : T ≠ .EOF)
    (h : ∀ t r, rest = t :: r → t.type = T → Post Q (f (t.lit, t :: r))) : Post Q (expect T (x :: rest) >>= f) := by
  refine Post.bind (Q := fun q => ∃ t r, rest = t :: r ∧ t.type = T ∧ q = (t.lit, t :: r)) ?_ ?_
  · unfold expect
    refine Post.next_bind (Post.checkCur_bind fun h => ?_)
    obtain ⟨t, r, rfl, ht⟩ := cons_of (ts := rest) (T := T) (by simpa using h) hT
    exact Post.ok ⟨t, r, rfl, ht, rfl⟩
  · rintro q ⟨t, r, e, ht, rfl⟩
    exact h t r e ht

theorem parseInterleaveAction_source (t : Token) (rest : List Token) :
    Post (fun r => ∃ act, rest = act ++ r.2.tail ∧ Written.Deletes act r.1) (parseInterleaveAction (t :: rest)) := by
  unfold parseInterleaveAction
  split
  · rename_i h
    obtain ⟨a, r, rfl, ha⟩ := cons_of (ts := rest) (T := .ON) h (by decide)
    refine Post.next_bind ?_
    refine expect_bind (by decide) ?_
    rintro b r rfl hb
    refine Post.next_bind ?_
    split
    · rename_i h2
      obtain ⟨c, r, rfl, hc⟩ := cons_of (ts := r) (T := .CASCADE) h2 (by decide)
      exact Post.ok ⟨[a, b, c], rfl, .inr (.inl ⟨by simp [kinds, ha, hb, hc], rfl⟩)⟩
    · split
      · rename_i h2
        obtain ⟨c, r, rfl, hc⟩ := cons_of (ts := r) (T := .NO) h2 (by decide)
        refine expect_bind (by decide) ?_
        rintro d r rfl hd
        exact Post.ok ⟨[a, b, c, d], rfl, .inr (.inr ⟨by simp [kinds, ha, hb, hc, hd], rfl⟩)⟩
      · exact trivial
  · exact Post.ok ⟨[], rfl, .inl ⟨rfl, rfl⟩⟩

theorem parseInterleave_source {k : Token} (hk : k.type = .INTERLEAVE) (rest : List Token) :
    Post (fun r => ∃ a t act x, k :: rest = a ++ t :: (act ++ r.2.tail) ∧ kinds a = [.INTERLEAVE, .IN, .PARENT] ∧ t.type = .IDENT ∧ Written.Deletes act x ∧
      r.1 = ⟨s%"INTERLEAVE IN PARENT", word .spanner t :: x⟩) (parseInterleave (k :: rest)) := by
  unfold parseInterleave
  refine expect_bind (by decide) ?_
  rintro a r rfl ha
  refine expect_bind (by decide) ?_
  rintro b r rfl hb
  refine expect_bind (by decide) ?_
  rintro t r rfl ht
  refine Post.bind (parseInterleaveAction_source t r) ?_
  rintro ⟨x, ts'⟩ ⟨act, e, hact⟩
  dsimp only at e hact ⊢
  exact Post.ok ⟨[k, a, b], t, act, x, by rw [e]; rfl, by simp [kinds, hk, ha, hb], ht, hact, rfl⟩

theorem parseRowDeletionPolicy_source {k : Token} (hk : k.type = .ROW) (rest : List Token) :
    Post (fun r => ∃ a e, k :: rest = a ++ (e ++ r.2.tail) ∧ kinds a = [.ROW, .DELETION, .POLICY] ∧
      kinds e = [.OPEN_PAREN, .OLDER_THAN, .OPEN_PAREN, .IDENT, .COMMA, .INTERVAL, .IDENT, .DAY, .CLOSE_PAREN, .CLOSE_PAREN] ∧
      r.1 = ⟨s%"ROW DELETION POLICY", e.map (word .spanner)⟩) (parseRowDeletionPolicy (k :: rest)) := by
  unfold parseRowDeletionPolicy
  refine expect_bind (by decide) ?_
  rintro x r rfl hx
  refine expect_bind (by decide) ?_
  rintro y r rfl hy
  refine expect_bind (by decide) ?_
  rintro a r rfl ha
  refine expect_bind (by decide) ?_
  rintro b r rfl hb
  refine expect_bind (by decide) ?_
  rintro c r rfl hc
  refine expect_bind (by decide) ?_
  rintro d r rfl hd
  refine expect_bind (by decide) ?_
  rintro e r rfl he
  refine expect_bind (by decide) ?_
  rintro f r rfl hf
  refine expect_bind (by decide) ?_
  rintro g r rfl hg
  refine expect_bind (by decide) ?_
  rintro h r rfl hh
  refine expect_bind (by decide) ?_
  rintro i r rfl hi
  refine expect_bind (by decide) ?_
  rintro j r rfl hj
  exact Post.ok ⟨[k, x, y], [a, b, c, d, e, f, g, h, i, j], rfl, by simp [kinds, hk, hx, hy], by simp [kinds, ha, hb, hc, hd, he, hf, hg, hh, hi, hj], rfl⟩

theorem optionsLoop_source : ∀ n os rdp ts, AllTok Constant ts →
    Post (fun r => ∃ p os' q, ts = p ++ r.2.2 ∧ Options p os' q ∧ r.1 = os ++ os' ∧ r.2.1 = q.or rdp) (optionsLoop n os rdp ts) := by
  intro n
  induction n with
  | zero => intro os rdp ts _; exact trivial
  | succ n ih =>
    intro os rdp ts hP
    rw [optionsLoop]
    split
    · rename_i h
      obtain ⟨k, r, rfl, hk⟩ := cons_of h (by decide)
      refine expect_bind (by decide) ?_
      rintro j r rfl hj
      refine Post.next_bind ?_
      refine Post.bind (parseExpr_source (ts := r) hP.tail.tail) ?_
      rintro ⟨ids, ts'⟩ ⟨e, rfl, hs, -⟩
      refine (ih _ _ ts' (AllTok.append (AllTok.of_cons (AllTok.of_cons hP)))).imp ?_
      rintro ⟨os2, rdp2, ts2⟩ ⟨p, os', q, rfl, ho, e1, e2⟩
      exact ⟨[k, j] ++ (e ++ p), _, q, by simp, .primaryKey _ _ _ _ _ _ (by simp [kinds, hk, hj]) hs ho, by simpa using e1, e2⟩
    · split
      · rename_i h
        obtain ⟨k, r, rfl, hk⟩ := cons_of h (by decide)
        refine Post.bind (parseInterleave_source hk r) ?_
        rintro ⟨o, ts'⟩ ⟨a, t, act, x, e, ha, ht, hact, e'⟩
        refine Post.next_bind ?_
        dsimp only at e e' ⊢
        have hP' : AllTok Constant ts'.tail := by rw [e] at hP; exact AllTok.append (AllTok.of_cons (AllTok.append hP))
        refine (ih _ _ ts'.tail hP').imp ?_
        rintro ⟨os2, rdp2, ts2⟩ ⟨p, os', q, e3, ho, e1, e2⟩
        exact ⟨a ++ t :: (act ++ p), _, q, by rw [e, e3]; simp, .interleave _ _ _ _ _ _ _ ha ht hact ho, by rw [e'] at e1; simpa using e1, e2⟩
      · split
        · rename_i h
          obtain ⟨k, r, rfl, hk⟩ := cons_of h (by decide)
          refine Post.bind (parseRowDeletionPolicy_source hk r) ?_
          rintro ⟨o, ts'⟩ ⟨a, b, e, ha, hb, e'⟩
          refine Post.next_bind ?_
          dsimp only at e e' ⊢
          have hP' : AllTok Constant ts'.tail := by rw [e] at hP; exact AllTok.append (AllTok.append hP)
          refine (ih _ _ ts'.tail hP').imp ?_
          rintro ⟨os2, rdp2, ts2⟩ ⟨p, os', q, e3, ho, e1, e2⟩
          exact ⟨a ++ (b ++ p), _, _, by rw [e, e3]; simp, .policy _ _ _ _ q ha hb ho, e1, by
            dsimp only at e2 ⊢; rw [e2, e']; cases q <;> rfl⟩
        · split
          · rename_i h
            obtain ⟨t, r, rfl, ht⟩ := cons_of h (by decide)
            refine Post.next_bind ?_
            refine (ih _ _ r hP.tail).imp ?_
            rintro ⟨os2, rdp2, ts2⟩ ⟨p, os', q, rfl, ho, e1, e2⟩
            exact ⟨t :: p, os', q, rfl, .comma _ _ _ _ ht ho, e1, e2⟩
          · split
            · exact Post.ok ⟨[], [], none, rfl, .nil, by simp, rfl⟩
            · exact trivial

theorem parseCreateTable_source {ts : List Token} {k t : Token} (hP : AllTok Constant ts) (hk : k.type = .CREATE) (ht : t.type = .TABLE) :
    Post (fun r => ∃ p, k :: t :: ts = p ++ r.2 ∧ Table p r.1) (parseCreateTable (t :: ts)) := by
  unfold parseCreateTable
  refine Post.bind parseIfNotExists_source ?_
  rintro ⟨ine, ts'⟩ ⟨i, t', e, hi, rfl⟩
  dsimp only at e hi ⊢
  have e : ts = i ++ ts'.tail := (List.cons.inj e).2
  refine Post.next_bind (Post.checkCur_bind fun h => ?_)
  obtain ⟨n, r, e2, hn⟩ := cons_of (T := .IDENT) (by simpa using h) (by decide)
  rw [e2] at e ⊢
  refine Post.next_bind (Post.checkCur_bind fun h2 => ?_)
  obtain ⟨o, r, rfl, ho⟩ := cons_of (ts := r) (T := .OPEN_PAREN) (by simpa using h2) (by decide)
  refine Post.next_bind ?_
  subst e
  refine Post.bind (tableLoop_source _ _ [] [] r (AllTok.append hP).tail.tail) ?_
  rintro ⟨cols, cs, ts2⟩ ⟨p, c, cols', w, rfl, hc, hb, e3, hkept⟩
  have hP2 : AllTok Constant ts2 := (AllTok.append (AllTok.append hP).tail.tail).tail
  refine Post.bind (optionsLoop_source _ [] none ts2 hP2) ?_
  rintro ⟨os, rdp, ts3⟩ ⟨q, os', x, rfl, hq, e4, e5⟩
  refine Post.ok ⟨[k, t'] ++ (i ++ n :: o :: (p ++ c :: q)), by simp, [k, t'], i, n, o, p, c, q, w, rfl, by simp [kinds, hk, ht], hi, hn, ho, hc, rfl, ?_,
    (hkept List.nodup_nil).1, (hkept List.nodup_nil).2, rfl, ?_⟩
  · dsimp only at e3 ⊢
    rw [e3]; exact hb
  · dsimp only at e4 e5 ⊢
    rw [e4, e5]; simpa using hq

theorem parseCreateIndex_source {ts : List Token} {k t : Token} (hk : k.type = .CREATE) (ht : t.type = .INDEX ∨ t.type = .UNIQUE) :
    Post (fun r => ∃ p, k :: t :: ts = p ++ r.2 ∧ Index p r.1) (parseCreateIndex (t :: ts)) := by
  unfold parseCreateIndex
  have hu : Post (fun r => ∃ a, t :: ts = a ++ r.2.tail ∧ a.getLast? = r.2.head? ∧ r.2 ≠ [] ∧ ((r.1 = false ∧ kinds a = [.INDEX]) ∨ (r.1 = true ∧ (kinds a).head? = some .UNIQUE ∧ a.length ≤ 2)) ∨ (r.2 = [] ∧ ts = []))
      (parseUnique (t :: ts)) := by
    unfold parseUnique
    split
    · rename_i h
      refine Post.next_bind ?_
      cases ts with
      | nil => exact Post.ok ⟨[], .inr ⟨rfl, rfl⟩⟩
      | cons u r => exact Post.ok ⟨[t, u], .inl ⟨rfl, rfl, by simp, .inr ⟨rfl, by simpa [kinds, curT, cur] using h, by simp⟩⟩⟩
    · rename_i h
      exact Post.ok ⟨[t], .inl ⟨rfl, rfl, by simp, .inl ⟨rfl, by
        rcases ht with ht | ht
        · simp [kinds, ht]
        · exact absurd ht h⟩⟩⟩
  refine Post.bind hu ?_
  rintro ⟨uq, ts1⟩ ⟨a, h⟩
  dsimp only at h ⊢
  rcases h.symm with ⟨rfl, -⟩ | ⟨e, -, hne, ha⟩
  · exact trivial
  cases ts1 with
  | nil => exact absurd rfl hne
  | cons u ts1 =>
  refine Post.bind parseIfNotExists_source ?_
  rintro ⟨ine, ts'⟩ ⟨i, u', e1, hi, rfl⟩
  dsimp only at e1 hi ⊢
  have e1 : ts1 = i ++ ts'.tail := (List.cons.inj e1).2
  refine Post.next_bind (Post.checkCur_bind fun h => ?_)
  obtain ⟨n, r, e2, hn⟩ := cons_of (T := .IDENT) (by simpa using h) (by decide)
  rw [e2] at e1 ⊢
  refine Post.next_bind (Post.checkCur_bind fun h2 => ?_)
  obtain ⟨o, r, rfl, ho⟩ := cons_of (ts := r) (T := .ON) (by simpa using h2) (by decide)
  refine Post.next_bind (Post.checkCur_bind fun h3 => ?_)
  obtain ⟨tb, r, rfl, htb⟩ := cons_of (ts := r) (T := .IDENT) (by simpa using h3) (by decide)
  refine Post.next_bind ?_
  have hus : Post (fun q => ∃ u, r = u ++ q.2 ∧ ((u = [] ∧ q.1 = []) ∨ (∃ k m, u = [k, m] ∧ k.type = .USING ∧ q.1 = [given m.lit]) ∨ q.2 = [])) (parseUsing r) := by
    unfold parseUsing
    split
    · rename_i h
      obtain ⟨v, r, rfl, hv⟩ := cons_of h (by decide)
      refine Post.next_bind (Post.next_bind ?_)
      cases r with
      | nil => exact Post.ok ⟨[v], rfl, .inr (.inr rfl)⟩
      | cons m r => exact Post.ok ⟨[v, m], rfl, .inr (.inl ⟨v, m, rfl, hv, rfl⟩)⟩
    · exact Post.ok ⟨[], rfl, .inl ⟨rfl, rfl⟩⟩
  refine Post.bind hus ?_
  rintro ⟨us, ts4⟩ ⟨v, rfl, hv⟩
  dsimp only at hv ⊢
  refine Post.checkCur_bind fun h5 => ?_
  have hv' : (v = [] ∧ us = []) ∨ ∃ k m, v = [k, m] ∧ k.type = .USING ∧ us = [given m.lit] := by
    rcases hv with h | h | rfl
    · exact .inl h
    · exact .inr h
    · simp [curT, cur, eofToken] at h5
  refine Post.bind (columnIdentsLoop_source _ ts4) ?_
  rintro ⟨ids, ts5⟩ ⟨l, rfl, hl⟩
  refine Post.ok ⟨k :: (a ++ (i ++ n :: o :: tb :: (v ++ l))), ?_, k, a, i, n, o, tb, v, l, rfl, hk, ha, hi, hn, rfl, ho, htb, rfl, hv', hl, rfl⟩
  rw [e]
  simp only [List.tail_cons] at *
  rw [e1]; simp

theorem parseCreate_source (ts : List Token) (hP : AllTok Constant ts) (h : curT ts = .CREATE) :
    Post (fun r => ∃ p, ts = p ++ r.2 ∧ Statement p r.1) (parseCreate ts) := by
  unfold parseCreate
  obtain ⟨k, r, rfl, hk⟩ := cons_of h (by decide)
  refine Post.next_bind ?_
  split
  · rename_i h2
    obtain ⟨t, r, rfl, ht⟩ := cons_of (ts := r) h2 (by decide)
    refine Post.bind (parseCreateTable_source hP.tail.tail hk ht) ?_
    rintro ⟨t, ts'⟩ ⟨p, e, ht⟩
    exact Post.ok ⟨p, e, .table _ _ ht⟩
  · split
    · rename_i h2
      obtain ⟨t, r, rfl⟩ := cons_of_ne (ts := r) (by intro e; rcases h2 with h2 | h2 <;> simp [List.tail, e] at h2)
      refine Post.bind (parseCreateIndex_source hk h2) ?_
      rintro ⟨t, ts'⟩ ⟨p, e, ht⟩
      exact Post.ok ⟨p, e, .index _ _ ht⟩
    · exact trivial

theorem parse_source (s : Str) : Post (fun l => Scripted Statement (lex .spanner s) l) (parse s) :=
  parseTokens_source .spanner s parseCreate_source

end Ddl.Sp.Source
