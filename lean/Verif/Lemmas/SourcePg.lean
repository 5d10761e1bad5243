import Verif.Spec.SourcePg
import Verif.Lemmas.Source
import Verif.Pg.Parser

/-! # What an accepted PostgreSQL text consists of -/

set_option autoImplicit false

namespace Ddl.Pg.Source
open Spec Spec.Written Spec.Source Src

theorem columnIdentsLoop_source : ∀ n ts,
    Post (fun r => ∃ p, ts = p ++ r.2 ∧ Listing .postgres p r.1) (columnIdentsLoop n ts) := by
  intro n
  induction n with
  | zero => intro ts; exact trivial
  | succ n ih =>
    intro ts
    rw [columnIdentsLoop]
    split
    · rename_i h
      refine Post.next_bind ?_
      obtain ⟨t, r, rfl⟩ := cons_of_ne (ts := ts) (by rcases h with h | h <;> rw [h] <;> decide)
      refine (ih r).imp ?_
      rintro ⟨ids, ts'⟩ ⟨p, rfl, l, c, rfl, hc, hl, hn⟩
      refine ⟨t :: (l ++ [c]), rfl, t :: l, c, rfl, hc, ?_, ?_⟩
      · intro x hx
        rcases List.mem_cons.1 hx with rfl | hx
        · rcases h with h | h <;> simp [curT, cur] at h <;> simp [h]
        · exact hl x hx
      · rcases h with h | h <;> simp [curT, cur] at h <;> simpa [h] using hn
    · split
      · rename_i h
        refine Post.next_bind ?_
        obtain ⟨t, r, rfl, ht⟩ := cons_of h (by decide)
        refine Post.bind (ih r) ?_
        rintro ⟨ids, ts'⟩ ⟨p, rfl, l, c, rfl, hc, hl, hn⟩
        refine Post.ok ⟨t :: (l ++ [c]), rfl, t :: l, c, rfl, hc, ?_, ?_⟩
        · intro x hx
          rcases List.mem_cons.1 hx with rfl | hx
          · simp [ht]
          · exact hl x hx
        · simp only [ht, decide_true, List.filter_cons_of_pos, List.map_cons]
          rw [← hn]; rfl
      · split
        · rename_i h
          refine Post.next_bind ?_
          obtain ⟨t, r, rfl, ht⟩ := cons_of h (by decide)
          exact Post.ok ⟨[t], rfl, [], t, rfl, ht, by simp, by simp⟩
        · exact trivial

theorem identsLoop_source : ∀ n ts,
    Post (fun r => ∃ p, ts = p ++ r.2 ∧ curT r.2 = .CLOSE_PAREN ∧ r.1 = (p.filter fun t => t.type ≠ .OPEN_PAREN).map (word .postgres))
      (identsLoop n ts) := by
  intro n
  induction n with
  | zero => intro ts; exact trivial
  | succ n ih =>
    intro ts
    rw [identsLoop]
    split
    · rename_i h
      refine Post.next_bind ?_
      obtain ⟨t, r, rfl, ht⟩ := cons_of h (by decide)
      refine (ih r).imp ?_
      rintro ⟨ids, ts'⟩ ⟨p, rfl, hc, hn⟩
      exact ⟨t :: p, rfl, hc, by simpa [ht] using hn⟩
    · rename_i ho
      split
      · rename_i h
        exact Post.ok ⟨[], rfl, h, by simp⟩
      · split
        · exact trivial
        · rename_i h
          obtain ⟨t, r, rfl⟩ := cons_of_ne (ts := ts) (fun e => h (.inl e))
          refine Post.next_bind ?_
          refine Post.bind (ih r) ?_
          rintro ⟨ids, ts'⟩ ⟨p, rfl, hc, hn⟩
          refine Post.ok ⟨t :: p, rfl, hc, ?_⟩
          have : t.type ≠ .OPEN_PAREN := ho
          simp only [ne_eq, this, not_false_eq_true, decide_true, List.filter_cons_of_pos, List.map_cons]
          dsimp only at hn; rw [hn]; simp; rfl

/-- The name of a type, its last token not consumed yet. -/
theorem parseTypeName_source {ts : List Token} (hd : isDataType (curT ts) = true) :
    Post (fun r => ∃ ws k, ts = ws ++ k :: r.2.2.tail ∧ r.2.2 = k :: r.2.2.tail ∧
      ((kinds (ws ++ [k]), r.2.1) ∈ Written.types ∨ kinds (ws ++ [k]) = [r.2.1]) ∧ r.1 = join s%" " ((ws ++ [k]).map (·.lit))) (parseTypeName ts) := by
  unfold parseTypeName
  obtain ⟨t, r, rfl⟩ := cons_of_ne (ts := ts) (by intro e; rw [e] at hd; exact absurd hd (by decide))
  split
  · rename_i h
    have k : t.type = .TIMESTAMPTZ := h
    exact Post.ok ⟨[], t, rfl, rfl, .inl (by simp [kinds, k, Written.types]), by simp [join, curL, cur]⟩
  · split
    · rename_i h
      have k : t.type = .TIMESTAMP := h
      split
      · rename_i h2
        obtain ⟨t2, r, rfl, k2⟩ := cons_of (ts := r) (T := .WITH) h2 (by decide)
        refine Post.next_bind (Post.checkPeek_bind fun h3 => ?_)
        obtain ⟨t3, r, rfl, k3⟩ := cons_of (ts := r) (T := .TIME) (by simpa [peekT] using h3) (by decide)
        refine Post.next_bind (Post.checkPeek_bind fun h4 => ?_)
        obtain ⟨t4, r, rfl, k4⟩ := cons_of (ts := r) (T := .ZONE) (by simpa [peekT] using h4) (by decide)
        refine Post.next_bind ?_
        exact Post.ok ⟨[t, t2, t3], t4, rfl, rfl, .inl (by simp [kinds, k, k2, k3, k4, Written.types]), by simp [join, curL, cur]⟩
      · exact Post.ok ⟨[], t, rfl, rfl, .inl (by simp [kinds, k, Written.types]), by simp [join, curL, cur]⟩
    · split
      · rename_i h
        have k : t.type = .DOUBLE := h
        refine Post.checkPeek_bind fun h2 => ?_
        obtain ⟨t2, r, rfl, k2⟩ := cons_of (ts := r) (T := .PRECISION) (by simpa [peekT] using h2) (by decide)
        refine Post.next_bind ?_
        exact Post.ok ⟨[t], t2, rfl, rfl, .inl (by simp [kinds, k, k2, Written.types]), by simp [join, curL, cur]⟩
      · split
        · rename_i h
          have k : t.type = .CHARACTER := h
          refine Post.checkPeek_bind fun h2 => ?_
          obtain ⟨t2, r, rfl, k2⟩ := cons_of (ts := r) (T := .VARYING) (by simpa [peekT] using h2) (by decide)
          refine Post.next_bind ?_
          exact Post.ok ⟨[t], t2, rfl, rfl, .inl (by simp [kinds, k, k2, Written.types]), by simp [join, curL, cur]⟩
        · exact Post.ok ⟨[], t, rfl, rfl, .inr (by simp [kinds, curT, cur]), by simp [join, curL, cur]⟩

/-- A type, its last token not consumed yet. -/
theorem parseDataType_source {ts : List Token} (hd : isDataType (curT ts) = true) :
    Post (fun r => ∃ p, ts = p ++ r.2.tail ∧ TypeName .postgres Written.types p r.1.name r.1.type r.1.expr) (parseDataType ts) := by
  unfold parseDataType
  refine Post.bind (parseTypeName_source hd) ?_
  rintro ⟨name, type, ts'⟩ ⟨ws, k, e, e', ht, hn⟩
  dsimp only at e e' ht hn ⊢
  split
  · rename_i ho
    refine Post.next_bind ?_
    obtain ⟨o, r, e2, ho⟩ := cons_of (ts := ts'.tail) ho (by decide)
    have hi : ∀ n ts, Post (fun r => ∃ p, ts = p ++ r.2 ∧ curT r.2 = .CLOSE_PAREN ∧ r.1 = (p.filter fun t => t.type ≠ .OPEN_PAREN).map (word .postgres)) (identsLoop n ts) := identsLoop_source
    refine Post.bind (Q := fun q => ∃ p, r = p ++ q.2 ∧ curT q.2 = .CLOSE_PAREN ∧ q.1 = (p.filter fun t => t.type ≠ .OPEN_PAREN).map (word .postgres)) ?_ ?_
    · rw [e2, parseIdents, identsLoop, if_pos (by exact ho)]
      refine Post.next_bind ?_
      exact hi _ r
    · rintro ⟨ids, ts2⟩ ⟨p, rfl, hc, hids⟩
      obtain ⟨c, r, rfl, hc⟩ := cons_of hc (by decide)
      refine Post.ok ⟨(ws ++ [k]) ++ o :: (p ++ [c]), ?_, ws ++ [k], p, ht, hn, hids, .inr ⟨o, c, rfl, ho, hc⟩⟩
      rw [e, e2]; simp
  · refine Post.ok ⟨ws ++ [k], by rw [e]; simp, ws ++ [k], [], ht, hn, rfl, .inl ⟨rfl, rfl⟩⟩

theorem exprLoop_source : ∀ n ts, AllTok Constant ts →
    Post (fun r => ∃ p, ts = p ++ r.2 ∧ Spells p r.1) (exprLoop n ts) := by
  intro n
  induction n with
  | zero => intro ts _; exact trivial
  | succ n ih =>
    intro ts hP
    rw [exprLoop]
    split
    · rename_i h
      obtain ⟨t, r, rfl, ht⟩ := cons_of h (by decide)
      refine Post.next_bind ?_
      refine Post.bind (ih r hP.tail) ?_
      rintro ⟨ids, ts'⟩ ⟨p, rfl, hs⟩
      refine Post.bind (ih ts' (AllTok.append (AllTok.of_cons hP))) ?_
      rintro ⟨ids', ts''⟩ ⟨p', rfl, hs'⟩
      refine Post.ok ⟨t :: (p ++ p'), by simp, ?_⟩
      exact Spells.cons (congrArg upper (newRawIdent_raw _ _)) (hs.append hs')
    · split
      · rename_i h
        obtain ⟨t, r, rfl, ht⟩ := cons_of h (by decide)
        refine Post.next_bind ?_
        exact Post.ok ⟨[t], rfl, Spells.cons (congrArg upper (newRawIdent_raw _ _)) .nil⟩
      · split
        · rename_i h
          obtain ⟨t, r, rfl⟩ := cons_of_ne (ts := ts) (by rcases h with h | h | h <;> rw [h] <;> decide)
          dsimp only
          split
          · rename_i h2
            obtain ⟨t2, r, rfl⟩ := cons_of_ne (ts := r) (by intro e; simp [peekT, e] at h2)
            refine Post.next_bind ?_
            refine Post.next_bind ?_
            refine Post.bind (ih r hP.tail.tail) ?_
            rintro ⟨ids, ts'⟩ ⟨p, rfl, hs⟩
            refine Post.ok ⟨[t, t2] ++ p, rfl, ?_⟩
            exact Spells.append (a := [t, t2]) (v := [_]) (by simp [Spells, spelled, letters, rawIdent, newRawIdent_raw, curL, peekL, cur]) hs
          · refine Post.next_bind ?_
            refine Post.bind (ih r hP.tail) ?_
            rintro ⟨ids, ts'⟩ ⟨p, rfl, hs⟩
            exact Post.ok ⟨t :: p, rfl, Spells.cons (congrArg upper (newRawIdent_raw _ _)) hs⟩
        · split
          · exact trivial
          · rename_i h
            obtain ⟨t, r, rfl⟩ := cons_of_ne (ts := ts) h
            refine Post.next_bind ?_
            refine Post.bind (ih r hP.tail) ?_
            rintro ⟨ids, ts'⟩ ⟨p, rfl, hs⟩
            refine Post.ok ⟨t :: p, rfl, Spells.cons ?_ hs⟩
            dsimp only
            split
            · rename_i hv
              rw [rawIdent, newRawIdent_raw]
              have hc := hP t List.mem_cons_self
              have hm : t.type ∈ [.NULL, .TRUE, .FALSE] := by simpa [isReservedValue, curT, cur] using hv
              rw [hc hm]
              rcases List.mem_cons.1 hm with e | hm
              · simp [curT, cur, e, TokType.str]; decide
              · rcases List.mem_cons.1 hm with e | hm
                · simp [curT, cur, e, TokType.str]; decide
                · simp at hm; simp [curT, cur, hm, TokType.str]; decide
            · exact congrArg upper (newRawIdent_raw _ _)

theorem parseExpr_source {ts : List Token} (hP : AllTok Constant ts) :
    Post (fun r => ∃ p, ts = p ++ r.2 ∧ Spells p r.1 ∧ curT p = .OPEN_PAREN) (parseExpr ts) := by
  unfold parseExpr
  refine Post.checkCur_bind fun h => ?_
  obtain ⟨t, r, rfl, ht⟩ := cons_of (T := .OPEN_PAREN) (by simpa using h) (by decide)
  refine Post.next_bind ?_
  refine Post.bind (exprLoop_source _ r hP.tail) ?_
  rintro ⟨ids, ts'⟩ ⟨p, rfl, hs⟩
  exact Post.ok ⟨t :: p, rfl, Spells.cons (congrArg upper (newRawIdent_raw _ _)) hs, ht⟩

theorem defaultLoop_source : ∀ n v ts, AllTok Constant ts →
    Post (fun r => ∃ p ws, ts = p ++ r.2 ∧ Spells p ws ∧ r.1.value.getD [] = v.getD [] ++ ws) (defaultLoop n v ts) := by
  intro n
  induction n with
  | zero => intro v ts _; exact trivial
  | succ n ih =>
    intro v ts hP
    have one : ∀ (t : Token) (r : List Token) (i : Ident), AllTok Constant r → upper i.raw = upper t.lit →
        Post (fun q => ∃ p ws, t :: r = p ++ q.2 ∧ Spells p ws ∧ q.1.value.getD [] = v.getD [] ++ ws) (defaultLoop n (appendExpr v [i]) r) := by
      intro t r i hr hi
      refine (ih _ r hr).imp ?_
      rintro ⟨d, ts'⟩ ⟨p, ws, rfl, hs, e⟩
      exact ⟨t :: p, i :: ws, rfl, Spells.cons hi hs, by rw [e]; simp [appendExpr]⟩
    rw [defaultLoop.eq_def]; dsimp only
    split
    · rename_i h
      obtain ⟨t, r, rfl, ht⟩ := cons_of h (by decide)
      refine Post.next_bind ?_
      exact one t r _ hP.tail (congrArg upper (newRawIdent_raw _ _))
    · split
      · refine Post.bind (parseExpr_source hP) ?_
        rintro ⟨ids, ts'⟩ ⟨p, rfl, hs, -⟩
        refine (ih _ ts' (AllTok.append hP)).imp ?_
        rintro ⟨d, ts''⟩ ⟨p', ws, rfl, hs', e⟩
        exact ⟨p ++ p', ids ++ ws, by simp, hs.append hs', by rw [e]; simp [appendExpr]⟩
      · split
        · exact Post.ok ⟨[], [], rfl, .nil, by simp⟩
        · split
          · rename_i h
            obtain ⟨t, r, rfl⟩ := cons_of_ne (ts := ts) (by intro e; rw [e] at h; exact absurd h (by decide))
            refine Post.next_bind ?_
            exact one t r _ hP.tail rfl
          · split
            · rename_i h
              obtain ⟨t, r, rfl⟩ := cons_of_ne (ts := ts) (by intro e; rw [e] at h; exact absurd h (by decide))
              refine Post.next_bind ?_
              exact one t r _ hP.tail (congrArg upper (newRawIdent_raw _ _))
            · split
              · rename_i h
                split
                · exact trivial
                · obtain ⟨t, r, rfl⟩ := cons_of_ne (ts := ts) (by intro e; rw [e] at h; exact absurd h (by decide))
                  refine Post.next_bind ?_
                  exact one t r _ hP.tail (congrArg upper (newRawIdent_raw _ _))
              · split
                · exact Post.ok ⟨[], [], rfl, .nil, by simp⟩
                · exact trivial

theorem columnAttrsLoop_source : ∀ n d nn ts, AllTok Constant ts →
    Post (fun r => ∃ p as, ts = p ++ r.2.2 ∧ Many Attribute p as ∧ r.1 = (lastDefault as).or d ∧
      r.2.1 = ((as.filterMap Sum.getRight?).getLast?).getD nn) (columnAttrsLoop n d nn ts) := by
  intro n
  induction n with
  | zero => intro d nn ts _; exact trivial
  | succ n ih =>
    intro d nn ts hP
    rw [columnAttrsLoop]
    split
    · rename_i h
      obtain ⟨t, r, rfl, ht⟩ := cons_of h (by decide)
      refine Post.checkPeek_bind fun h2 => ?_
      obtain ⟨t2, r, rfl, k2⟩ := cons_of (ts := r) (T := .NULL) (by simpa [peekT] using h2) (by decide)
      refine Post.next_bind (Post.next_bind ?_)
      refine (ih _ _ r hP.tail.tail).imp ?_
      rintro ⟨d', nn', ts'⟩ ⟨p, as, rfl, hm, e1, e2⟩
      refine ⟨[t, t2] ++ p, .inr true :: as, rfl, .cons _ _ _ _ (.notNull _ (by simp [kinds, ht, k2])) hm, ?_, ?_⟩
      · simpa [lastDefault] using e1
      · rw [List.filterMap_cons, Sum.getRight?_inr]; dsimp only; rw [getLast?_getD_cons]; exact e2
    · split
      · rename_i h
        obtain ⟨t, r, rfl, ht⟩ := cons_of h (by decide)
        refine Post.next_bind ?_
        refine (ih _ _ r hP.tail).imp ?_
        rintro ⟨d', nn', ts'⟩ ⟨p, as, rfl, hm, e1, e2⟩
        refine ⟨[t] ++ p, .inr false :: as, rfl, .cons _ _ _ _ (.null _ (by simp [kinds, ht])) hm, ?_, ?_⟩
        · simpa [lastDefault] using e1
        · rw [List.filterMap_cons, Sum.getRight?_inr]; dsimp only; rw [getLast?_getD_cons]; exact e2
      · split
        · rename_i h
          obtain ⟨t, r, rfl, ht⟩ := cons_of h (by decide)
          refine Post.next_bind ?_
          refine Post.bind (defaultLoop_source _ none r hP.tail) ?_
          rintro ⟨df, ts'⟩ ⟨p, ws, rfl, hs, e⟩
          refine (ih _ _ ts' (AllTok.append (AllTok.of_cons hP))).imp ?_
          rintro ⟨d', nn', ts''⟩ ⟨p', as, rfl, hm, e1, e2⟩
          refine ⟨(t :: p) ++ p', .inl df :: as, by simp, .cons _ _ _ _ (.default _ _ _ ht (by dsimp only at e; rw [e]; simpa using hs)) hm, ?_, ?_⟩
          · rw [lastDefault, List.filterMap_cons, Sum.getLeft?_inl]; dsimp only; rw [getLast?_or_cons, Option.or_assoc]; exact e1
          · simpa using e2
        · exact Post.ok ⟨[], [], rfl, .nil, by simp [lastDefault], by simp⟩

theorem appendConstraint_eq (l : List Constraint) (c : Constraint) :
    (∃ a x b, l = a ++ x :: b ∧ x.name.name = c.name.name ∧ appendConstraint l c = a ++ c :: b) ∨
      ((∀ x ∈ l, x.name.name ≠ c.name.name) ∧ appendConstraint l c = l ++ [c]) := by
  induction l with
  | nil => exact .inr ⟨by simp, rfl⟩
  | cons x l ih =>
    rw [appendConstraint]
    split
    · rename_i e; exact .inl ⟨[], x, l, rfl, e, rfl⟩
    · rename_i e
      rcases ih with ⟨a, y, b, rfl, e', h⟩ | ⟨h, h'⟩
      · exact .inl ⟨x :: a, y, b, rfl, e', by rw [h]; rfl⟩
      · exact .inr ⟨fun y hy => by
          rcases List.mem_cons.1 hy with rfl | hy
          · exact e
          · exact h y hy, by rw [h']; rfl⟩

theorem appendConstraint_kept (l : List Constraint) (c : Constraint) :
    Kept (fun c : Constraint => c.name.name) l [c] (appendConstraint l c) := by
  rcases appendConstraint_eq l c with ⟨a, x, b, rfl, e, h⟩ | ⟨h, h'⟩
  · rw [h]; exact .replaced e
  · rw [h']; exact .added (.refl _) h

/-- An action, its last token not consumed yet; or nothing. -/
theorem parseOnActionColumn_source (ts : List Token) :
    Post (fun r => (r.1 = [] ∧ r.2 = ts) ∨ ∃ act, ts = act ++ r.2.tail ∧ OnAction act ∧ r.1 = join s%" " (act.map (·.lit))) (parseOnActionColumn ts) := by
  unfold parseOnActionColumn
  split
  · rename_i h
    obtain ⟨t, r, rfl, ht⟩ := cons_of h (by decide)
    refine Post.next_bind (Post.checkCur_bind fun h2 => ?_)
    obtain ⟨t2, r, rfl, -⟩ := cons_of_mem (ts := r) h2 (by decide)
    refine Post.checkPeek_bind fun h3 => ?_
    obtain ⟨t3, r, rfl, k3⟩ := cons_of_mem (ts := r) h3 (by decide)
    have k2 : t2.type = .DELETE ∨ t2.type = .UPDATE := by simpa [curT, cur] using h2
    refine Post.next_bind ?_
    split
    · rename_i h4
      have k5 : t3.type = .NO := h4
      refine Post.checkPeek_bind fun h5 => ?_
      obtain ⟨t4, r, rfl, k4⟩ := cons_of (ts := r) (T := .ACTION) (by simpa [peekT] using h5) (by decide)
      refine Post.next_bind ?_
      exact Post.ok (.inr ⟨[t, t2, t3, t4], rfl, ⟨_, k2, .inr (by simp [kinds, ht, k5, k4])⟩, by simp [join, curL, cur]⟩)
    · rename_i h4
      have h4 : t3.type ≠ .NO := h4
      have h3 : t3.type = .CASCADE := by
        rcases List.mem_cons.1 k3 with h | h
        · exact h
        · exact absurd (by simpa using h) h4
      exact Post.ok (.inr ⟨[t, t2, t3], rfl, ⟨_, k2, .inl (by simp [kinds, ht, h3])⟩, by simp [join, curL, cur]⟩)
  · exact Post.ok (.inl ⟨rfl, rfl⟩)

theorem columnConstraintsLoop_source (tbl col : Ident) : ∀ n cs ts, AllTok Constant ts →
    Post (fun r => ∃ p w, ts = p ++ r.2 ∧ Many (OfColumn tbl.name col) p w ∧ Kept (fun c : Constraint => c.name.name) cs w r.1)
      (columnConstraintsLoop tbl col n cs ts) := by
  intro n
  induction n with
  | zero => intro cs ts _; exact trivial
  | succ n ih =>
    intro cs ts hP
    have go : ∀ (p rest : List Token) (c : Constraint), AllTok Constant rest → OfColumn tbl.name col p c →
        Post (fun q => ∃ p' w, p ++ rest = p' ++ q.2 ∧ Many (OfColumn tbl.name col) p' w ∧ Kept (fun c : Constraint => c.name.name) cs w q.1)
          (columnConstraintsLoop tbl col n (appendConstraint cs c) rest) := by
      intro p rest c hr hc
      refine (ih _ rest hr).imp ?_
      rintro ⟨cs', ts'⟩ ⟨p', w, rfl, hm, hk⟩
      exact ⟨p ++ p', c :: w, by simp, .cons _ _ _ _ hc hm, (appendConstraint_kept cs c).trans hk⟩
    rw [columnConstraintsLoop]
    split
    · rename_i h
      obtain ⟨t, r, rfl, ht⟩ := cons_of h (by decide)
      refine Post.checkPeek_bind fun h2 => ?_
      obtain ⟨t2, r, rfl, k2⟩ := cons_of (ts := r) (T := .KEY) (by simpa [peekT] using h2) (by decide)
      refine Post.next_bind (Post.next_bind ?_)
      exact go [t, t2] r _ hP.tail.tail (.primaryKey _ (by simp [kinds, ht, k2]))
    · split
      · rename_i h
        obtain ⟨t, r, rfl, ht⟩ := cons_of h (by decide)
        refine Post.checkPeek_bind fun h2 => ?_
        obtain ⟨t2, r, rfl, k2⟩ := cons_of (ts := r) (T := .IDENT) (by simpa [peekT] using h2) (by decide)
        refine Post.next_bind (Post.next_bind ?_)
        refine Post.bind (columnIdentsLoop_source _ r) ?_
        rintro ⟨ids, ts'⟩ ⟨l, rfl, hl⟩
        refine Post.bind (parseOnActionColumn_source ts') ?_
        rintro ⟨act, ts''⟩ ha
        refine Post.next_bind ?_
        have hP' : AllTok Constant ts' := AllTok.append (AllTok.of_cons (AllTok.of_cons hP))
        rcases ha with ⟨e1, e2⟩ | ⟨a, e1, ha, e2⟩
        · dsimp only at e1 e2 ⊢
          subst e1 e2
          obtain ⟨k, hk, e⟩ := tail_skip ts''
          have := go (t :: t2 :: (l ++ k)) ts''.tail _ hP'.tail (.refers t t2 l k ids ht k2 hl hk)
          rw [show (t :: t2 :: (l ++ k)) ++ ts''.tail = t :: t2 :: (l ++ ts'') by rw [List.cons_append, List.cons_append, List.append_assoc, ← e]] at this
          exact this
        · dsimp only at e1 e2 ⊢
          subst e2
          have := go (t :: t2 :: (l ++ a)) ts''.tail _ (by rw [e1] at hP'; exact AllTok.append hP') (.references t t2 l a ids ht k2 hl ha)
          rw [show (t :: t2 :: (l ++ a)) ++ ts''.tail = t :: t2 :: (l ++ ts') by rw [e1]; simp] at this
          exact this
      · split
        · rename_i h
          obtain ⟨t, r, rfl, ht⟩ := cons_of h (by decide)
          refine Post.next_bind ?_
          exact go [t] r _ hP.tail (.unique _ (by simp [kinds, ht]))
        · split
          · rename_i h
            obtain ⟨t, r, rfl, ht⟩ := cons_of h (by decide)
            refine Post.checkPeek_bind fun h2 => ?_
            refine Post.next_bind ?_
            refine Post.bind (parseExpr_source (ts := r) hP.tail) ?_
            rintro ⟨ids, ts'⟩ ⟨e, rfl, hs, -⟩
            refine Post.next_bind ?_
            obtain ⟨k, hk, e'⟩ := tail_skip ts'
            have := go (t :: (e ++ k)) ts'.tail _ (AllTok.append (AllTok.of_cons hP)).tail (.check t e k ids ht hs hk)
            rw [show (t :: (e ++ k)) ++ ts'.tail = t :: (e ++ ts') by rw [List.cons_append, List.append_assoc, ← e']] at this
            exact this
          · split
            · exact Post.ok ⟨[], [], rfl, .nil, .refl _⟩
            · exact trivial

theorem parseColumn_source (tbl : Ident) {ts : List Token} (hP : AllTok Constant ts) :
    Post (fun r => ∃ p w, ts = p ++ r.2.2 ∧ OfName tbl.name p r.1 w ∧ Kept (fun c : Constraint => c.name.name) [] w r.2.1) (parseColumn tbl ts) := by
  unfold parseColumn
  refine Post.checkCur_bind fun h => ?_
  obtain ⟨t, r, rfl, ht⟩ := cons_of (T := .IDENT) (by simpa using h) (by decide)
  refine Post.next_bind ?_
  split
  · rename_i hd
    refine Post.bind (parseDataType_source hd) ?_
    rintro ⟨dt, ts'⟩ ⟨y, e, hy⟩
    refine Post.next_bind ?_
    dsimp only at e hy ⊢
    have hr : r = y ++ ts'.tail := e
    have hP1 : AllTok Constant ts'.tail := by rw [hr] at hP; exact AllTok.append (AllTok.of_cons hP)
    refine Post.bind (columnAttrsLoop_source _ none false ts'.tail hP1) ?_
    rintro ⟨df, nn, ts2⟩ ⟨a, as, e2, ha, e3, e4⟩
    dsimp only at e2 e3 e4 ⊢
    have hP2 : AllTok Constant ts2 := by rw [e2] at hP1; exact AllTok.append hP1
    refine Post.bind (columnConstraintsLoop_source tbl _ _ [] ts2 hP2) ?_
    rintro ⟨cs, ts3⟩ ⟨q, w, e5, hq, hk⟩
    dsimp only at e5 hk ⊢
    refine Post.ok ⟨t :: (y ++ (a ++ q)), w, ?_, ⟨t, y, a, q, as, rfl, ht, rfl, hy, ha, ?_, e4, hq⟩, ?_⟩
    · rw [hr, e2, e5]; simp
    · rw [e3]; simp
    · exact (Kept.foldl appendConstraint_kept cs []).part hk
  · exact trivial

theorem parseConstraintName_source (ts : List Token) :
    Post (fun r => ∃ p, ts = p ++ r.2 ∧ ((p = [] ∧ r.1 = none) ∨ ∃ k t, p = [k, t] ∧ k.type = .CONSTRAINT ∧ t.type = .IDENT ∧
      r.1 = some (word .postgres t))) (parseConstraintName ts) := by
  unfold parseConstraintName
  split
  · rename_i h
    obtain ⟨t, r, rfl, ht⟩ := cons_of h (by decide)
    refine Post.next_bind ?_
    split
    · exact trivial
    · rename_i h2
      obtain ⟨t2, r, rfl, k2⟩ := cons_of (ts := r) (T := .IDENT) (by simpa using h2) (by decide)
      refine Post.next_bind ?_
      exact Post.ok ⟨[t, t2], rfl, .inr ⟨t, t2, rfl, ht, k2, rfl⟩⟩
  · exact Post.ok ⟨[], rfl, .inl ⟨rfl, rfl⟩⟩

theorem named_source {p : List Token} {o : Option Ident}
    (h : (p = [] ∧ o = none) ∨ ∃ k t, p = [k, t] ∧ k.type = .CONSTRAINT ∧ t.type = .IDENT ∧ o = some (word .postgres t)) (s : Str) :
    NamedAs .postgres p s (o.getD (rawIdent s)) := by
  rcases h with ⟨rfl, rfl⟩ | ⟨k, t, rfl, hk, ht, rfl⟩
  · exact .inl ⟨rfl, rfl⟩
  · exact .inr ⟨k, t, rfl, hk, ht, rfl⟩

theorem parseOnActionTable_source (ts : List Token) :
    Post (fun r => (r.1 = [] ∧ r.2 = ts) ∨ curT r.2 ∈ [.CASCADE, .NO, .ACTION]) (parseOnActionTable ts) := by
  unfold parseOnActionTable
  split
  · refine Post.next_bind (Post.checkCur_bind fun h2 => ?_)
    refine Post.checkPeek_bind fun h3 => ?_
    refine Post.next_bind ?_
    split
    · rename_i h
      refine Post.next_bind ?_
      exact Post.ok (.inr (by have := h.2; simp only [peekT] at this; simp [this]))
    · refine Post.ok (.inr ?_)
      have : curT ts.tail.tail ∈ [.CASCADE, .NO] := h3
      dsimp only
      rcases List.mem_cons.1 this with e | e
      · rw [e]; decide
      · rw [List.mem_singleton.1 e]; decide
  · exact Post.ok (.inl ⟨rfl, rfl⟩)

theorem underscored_eq (l : List Ident) : underscored l = l.flatMap fun c => s%"_" ++ c.name := by
  simp [underscored, List.flatMap, Ident.diffStr]

theorem parseTableConstraint_source (tbl : Ident) (ts : List Token) :
    Post (fun r => (∃ p, ts = p ++ r.2 ∧ OfTable tbl.name p r.1) ∨ curT r.2 ∈ [.CASCADE, .NO, .ACTION]) (parseTableConstraint tbl ts) := by
  unfold parseTableConstraint
  refine Post.bind (parseConstraintName_source ts) ?_
  rintro ⟨cn, ts'⟩ ⟨a, rfl, ha⟩
  dsimp only at ha ⊢
  split
  · rename_i h
    obtain ⟨t, r, rfl, ht⟩ := cons_of h (by decide)
    refine Post.checkPeek_bind fun h2 => ?_
    obtain ⟨t2, r, rfl, k2⟩ := cons_of (ts := r) (T := .KEY) (by simpa [peekT] using h2) (by decide)
    refine Post.next_bind (Post.checkPeek_bind fun h3 => Post.next_bind ?_)
    refine Post.bind (columnIdentsLoop_source _ r) ?_
    rintro ⟨ids, ts'⟩ ⟨l, rfl, hl⟩
    exact Post.ok (.inl ⟨a ++ ([t, t2] ++ l), by simp, .primaryKey _ _ _ _ _ (named_source ha _) (by simp [kinds, ht, k2]) hl⟩)
  · split
    · rename_i h
      obtain ⟨t, r, rfl, ht⟩ := cons_of h (by decide)
      refine Post.checkPeek_bind fun h2 => ?_
      obtain ⟨t2, r, rfl, k2⟩ := cons_of (ts := r) (T := .KEY) (by simpa [peekT] using h2) (by decide)
      refine Post.next_bind (Post.checkPeek_bind fun h3 => Post.next_bind ?_)
      refine Post.bind (columnIdentsLoop_source _ r) ?_
      rintro ⟨ids, ts'⟩ ⟨l, rfl, hl⟩
      refine Post.checkCur_bind fun h4 => ?_
      obtain ⟨t4, r, rfl, k4⟩ := cons_of (ts := ts') (T := .REFERENCES) (by simpa using h4) (by decide)
      refine Post.next_bind (Post.checkCur_bind fun h5 => ?_)
      obtain ⟨t5, r, rfl, k5⟩ := cons_of (ts := r) (T := .IDENT) (by simpa using h5) (by decide)
      refine Post.next_bind ?_
      refine Post.bind (columnIdentsLoop_source _ r) ?_
      rintro ⟨idsRef, ts'⟩ ⟨m, rfl, hm⟩
      refine Post.bind (parseOnActionTable_source ts') ?_
      rintro ⟨act, ts''⟩ hact
      refine Post.ok ?_
      rcases hact with ⟨e1, e2⟩ | hact
      · dsimp only at e1 e2 ⊢
        subst e1 e2
        refine .inl ⟨a ++ ([t, t2] ++ (l ++ t4 :: t5 :: m)), by simp, ?_⟩
        refine .foreignKey _ _ _ _ _ _ _ _ _ ?_ (by simp [kinds, ht, k2]) hl k4 k5 hm
        rw [underscored_eq]
        exact named_source ha _
      · exact .inr hact
    · split
      · rename_i h
        obtain ⟨t, r, rfl, ht⟩ := cons_of h (by decide)
        refine Post.checkPeek_bind fun h3 => Post.next_bind ?_
        refine Post.bind (columnIdentsLoop_source _ r) ?_
        rintro ⟨ids, ts'⟩ ⟨l, rfl, hl⟩
        refine Post.ok (.inl ⟨a ++ ([t] ++ l), by simp, .unique _ _ _ _ _ ?_ (by simp [kinds, ht]) hl⟩)
        rw [underscored_eq]
        exact named_source ha _
      · exact trivial

theorem tableLoop_source (tbl : Ident) : ∀ n cols cs ts, AllTok Constant ts →
    Post (fun r => ∃ p cols' w, ts = p ++ r.2.2 ∧ Body (OfName tbl.name) (OfTable tbl.name) p cols' w ∧ r.1 = cols ++ cols' ∧
      Kept (fun c : Constraint => c.name.name) cs w r.2.1) (tableLoop tbl n cols cs ts) := by
  intro n
  induction n with
  | zero => intro cols cs ts _; exact trivial
  | succ n ih =>
    intro cols cs ts hP
    rw [tableLoop]
    split
    · refine Post.bind (parseColumn_source tbl hP) ?_
      rintro ⟨c, ccs, ts'⟩ ⟨p, w, rfl, hc, hk⟩
      refine (ih _ _ ts' (AllTok.append hP)).imp ?_
      rintro ⟨cols2, cs2, ts2⟩ ⟨p', cols', w', rfl, hb, e, hk'⟩
      refine ⟨p ++ p', c :: cols', w ++ w', by simp, .column _ _ _ _ _ _ hc hb, by simpa using e, ?_⟩
      exact ((Kept.foldl appendConstraint_kept ccs cs).part hk).trans hk'
    · split
      · refine Post.bind (parseTableConstraint_source tbl ts) ?_
        rintro ⟨c, ts'⟩ h
        dsimp only
        rcases h with ⟨p, rfl, hc⟩ | h
        · refine (ih _ _ ts' (AllTok.append hP)).imp ?_
          rintro ⟨cols2, cs2, ts2⟩ ⟨p', cols', w', rfl, hb, e, hk'⟩
          exact ⟨p ++ p', cols', c :: w', by simp, .constraint _ _ _ _ _ hc hb, e, (appendConstraint_kept cs c).trans hk'⟩
        · cases n with
          | zero => exact trivial
          | succ n =>
            rw [tableLoop]
            have : curT ts' = .CASCADE ∨ curT ts' = .NO ∨ curT ts' = .ACTION := by simpa using h
            rcases this with e | e | e <;> simp [e, isConstraint] <;> exact trivial
      · split
        · rename_i h
          obtain ⟨t, r, rfl, ht⟩ := cons_of h (by decide)
          refine Post.next_bind ?_
          refine (ih _ _ r hP.tail).imp ?_
          rintro ⟨cols2, cs2, ts2⟩ ⟨p', cols', w', rfl, hb, e, hk'⟩
          exact ⟨t :: p', cols', w', rfl, .comma _ _ _ _ ht hb, e, hk'⟩
        · split
          · split
            · exact Post.ok ⟨[], [], [], rfl, .nil, by simp, .refl _⟩
            · exact trivial
          · exact trivial

theorem parseCreateTable_source {ts : List Token} {k t : Token} (hP : AllTok Constant ts) (hk : k.type = .CREATE) (ht : t.type = .TABLE) :
    Post (fun r => ∃ p, k :: t :: ts = p ++ r.2 ∧ Table p r.1) (parseCreateTable (t :: ts)) := by
  unfold parseCreateTable
  refine Post.bind parseIfNotExists_source ?_
  rintro ⟨ine, ts'⟩ ⟨i, t', e, hi, rfl⟩
  dsimp only at e hi ⊢
  have e : ts = i ++ ts'.tail := (List.cons.inj e).2
  refine Post.next_bind (Post.checkCur_bind fun h => ?_)
  obtain ⟨n, r, e2, hn⟩ := cons_of (T := .IDENT) (by simpa using h) (by decide)
  rw [e2] at e ⊢
  refine Post.next_bind (Post.checkCur_bind fun h2 => ?_)
  obtain ⟨o, r, rfl, ho⟩ := cons_of (ts := r) (T := .OPEN_PAREN) (by simpa using h2) (by decide)
  refine Post.next_bind ?_
  subst e
  refine Post.bind (tableLoop_source _ _ [] [] r (AllTok.append hP).tail.tail) ?_
  rintro ⟨cols, cs, ts2⟩ ⟨p, cols', w, rfl, hb, e3, hkept⟩
  refine Post.ok ⟨[k, t'] ++ (i ++ n :: o :: p), by simp, [k, t'], i, n, o, p, w, rfl, by simp [kinds, hk, ht], hi, hn, ho, rfl, ?_, (hkept List.nodup_nil).1, (hkept List.nodup_nil).2, rfl, rfl⟩
  dsimp only at e3 ⊢
  rw [e3]; exact hb

theorem parseCreateIndex_source {ts : List Token} {k t : Token} (hk : k.type = .CREATE) (ht : t.type = .INDEX ∨ t.type = .UNIQUE) :
    Post (fun r => ∃ p, k :: t :: ts = p ++ r.2 ∧ Index p r.1) (parseCreateIndex (t :: ts)) := by
  unfold parseCreateIndex
  have hu : Post (fun r => ∃ a, t :: ts = a ++ r.2.tail ∧ a.getLast? = r.2.head? ∧ r.2 ≠ [] ∧ ((r.1 = false ∧ kinds a = [.INDEX]) ∨ (r.1 = true ∧ (kinds a).head? = some .UNIQUE ∧ a.length ≤ 2)) ∨ (r.2 = [] ∧ ts = []))
      (parseUnique (t :: ts)) := by
    unfold parseUnique
    split
    · rename_i h
      refine Post.next_bind ?_
      cases ts with
      | nil => exact Post.ok ⟨[], .inr ⟨rfl, rfl⟩⟩
      | cons u r => exact Post.ok ⟨[t, u], .inl ⟨rfl, rfl, by simp, .inr ⟨rfl, by simpa [kinds, curT, cur] using h, by simp⟩⟩⟩
    · rename_i h
      exact Post.ok ⟨[t], .inl ⟨rfl, rfl, by simp, .inl ⟨rfl, by
        rcases ht with ht | ht
        · simp [kinds, ht]
        · exact absurd ht h⟩⟩⟩
  refine Post.bind hu ?_
  rintro ⟨uq, ts1⟩ ⟨a, h⟩
  dsimp only at h ⊢
  rcases h.symm with ⟨rfl, -⟩ | ⟨e, -, hne, ha⟩
  · exact trivial
  cases ts1 with
  | nil => exact absurd rfl hne
  | cons u ts1 =>
  refine Post.bind parseIfNotExists_source ?_
  rintro ⟨ine, ts'⟩ ⟨i, u', e1, hi, rfl⟩
  dsimp only at e1 hi ⊢
  have e1 : ts1 = i ++ ts'.tail := (List.cons.inj e1).2
  refine Post.next_bind (Post.checkCur_bind fun h => ?_)
  obtain ⟨n, r, e2, hn⟩ := cons_of (T := .IDENT) (by simpa using h) (by decide)
  rw [e2] at e1 ⊢
  refine Post.next_bind (Post.checkCur_bind fun h2 => ?_)
  obtain ⟨o, r, rfl, ho⟩ := cons_of (ts := r) (T := .ON) (by simpa using h2) (by decide)
  refine Post.next_bind (Post.checkCur_bind fun h3 => ?_)
  obtain ⟨tb, r, rfl, htb⟩ := cons_of (ts := r) (T := .IDENT) (by simpa using h3) (by decide)
  refine Post.next_bind ?_
  have hus : Post (fun q => ∃ u, r = u ++ q.2 ∧ ((u = [] ∧ q.1 = []) ∨ (∃ k m, u = [k, m] ∧ k.type = .USING ∧ q.1 = [given m.lit]) ∨ q.2 = [])) (parseUsing r) := by
    unfold parseUsing
    split
    · rename_i h
      obtain ⟨v, r, rfl, hv⟩ := cons_of h (by decide)
      refine Post.next_bind (Post.next_bind ?_)
      cases r with
      | nil => exact Post.ok ⟨[v], rfl, .inr (.inr rfl)⟩
      | cons m r => exact Post.ok ⟨[v, m], rfl, .inr (.inl ⟨v, m, rfl, hv, rfl⟩)⟩
    · exact Post.ok ⟨[], rfl, .inl ⟨rfl, rfl⟩⟩
  refine Post.bind hus ?_
  rintro ⟨us, ts4⟩ ⟨v, rfl, hv⟩
  dsimp only at hv ⊢
  refine Post.checkCur_bind fun h5 => ?_
  have hv' : (v = [] ∧ us = []) ∨ ∃ k m, v = [k, m] ∧ k.type = .USING ∧ us = [given m.lit] := by
    rcases hv with h | h | rfl
    · exact .inl h
    · exact .inr h
    · simp [curT, cur, eofToken] at h5
  refine Post.bind (columnIdentsLoop_source _ ts4) ?_
  rintro ⟨ids, ts5⟩ ⟨l, rfl, hl⟩
  refine Post.ok ⟨k :: (a ++ (i ++ n :: o :: tb :: (v ++ l))), ?_, k, a, i, n, o, tb, v, l, rfl, hk, ha, hi, hn, rfl, ho, htb, rfl, hv', hl, rfl⟩
  rw [e]
  simp only [List.tail_cons] at *
  rw [e1]; simp

theorem parseCreate_source (ts : List Token) (hP : AllTok Constant ts) (h : curT ts = .CREATE) :
    Post (fun r => ∃ p, ts = p ++ r.2 ∧ Statement p r.1) (parseCreate ts) := by
  unfold parseCreate
  obtain ⟨k, r, rfl, hk⟩ := cons_of h (by decide)
  refine Post.next_bind ?_
  split
  · rename_i h2
    obtain ⟨t, r, rfl, ht⟩ := cons_of (ts := r) h2 (by decide)
    refine Post.bind (parseCreateTable_source hP.tail.tail hk ht) ?_
    rintro ⟨t, ts'⟩ ⟨p, e, ht⟩
    exact Post.ok ⟨p, e, .table _ _ ht⟩
  · split
    · rename_i h2
      obtain ⟨t, r, rfl⟩ := cons_of_ne (ts := r) (by intro e; rcases h2 with h2 | h2 <;> simp [List.tail, e] at h2)
      refine Post.bind (parseCreateIndex_source hk h2) ?_
      rintro ⟨t, ts'⟩ ⟨p, e, ht⟩
      exact Post.ok ⟨p, e, .index _ _ ht⟩
    · exact trivial

theorem parse_source (s : Str) : Post (fun l => Scripted Statement (lex .postgres s) l) (parse s) :=
  parseTokens_source .postgres s parseCreate_source

end Ddl.Pg.Source
