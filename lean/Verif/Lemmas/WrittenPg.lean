import Verif.Lemmas.Append
import Verif.Spec.WrittenPg
import Verif.Lemmas.Written
import Verif.Lemmas.ColumnConstraints
import Verif.Lemmas.ShowPgParse

/-! # Reading PostgreSQL statements as they are written -/

set_option autoImplicit false

namespace Ddl.Pg.Written
open Spec Spec.Written Show

theorem rawIdent_given {T : Str} (hq : T.head? ≠ some '"') {s : Str} (hs : s.head? ≠ some '"') : rawIdent (T ++ s) = given (T ++ s) :=
  rawIdent_noQuote (by cases T with
    | nil => simpa using hs
    | cons c r => simpa using hq)

theorem rawIdent_given₂ {T : Str} (hq : T.head? ≠ some '"') {s t u : Str} (hs : (s ++ (t ++ u)).head? ≠ some '"') :
    given (T ++ s ++ t ++ u) = rawIdent (T ++ s ++ t ++ u) := by
  rw [List.append_assoc, List.append_assoc, rawIdent_given hq hs]

theorem listed_read {l : List Token} {ids : List Ident} (h : Listed .postgres l ids) {rest : List Token} (hp : NoPanic (l ++ rest)) :
    parseColumnIdents (l ++ rest) = .ok (ids, rest) := by
  obtain ⟨cols, b, rfl, hn, rfl⟩ := h
  simp only [List.cons_append, List.append_assoc, List.nil_append] at hp ⊢
  exact parseColumnIdents_names rfl rfl hn hp

theorem listed_head {l : List Token} {ids : List Ident} {d : Dialect} (h : Listed d l ids) : ∃ r, l = opn :: r := by
  obtain ⟨cols, b, rfl, _⟩ := h
  exact ⟨_, rfl⟩

theorem typed_read {y : List Token} {dt : DataType} (h : Typed .postgres types y dt.name dt.type dt.expr) {rest : List Token}
    (hr : curT rest ∉ [.WITH, .OPEN_PAREN]) (hp : NoPanic (y ++ rest)) :
    ∃ k, parseDataType (y ++ rest) = .ok (dt, k :: rest) ∧ NoPanic (k :: rest) := by
  obtain ⟨ws, as, h1, h2, h3, h4, h5⟩ := h
  have hs : TypeShape (ws.map (·.type)) dt.type := by
    simp only [types, List.mem_cons, List.not_mem_nil, or_false, Prod.mk.injEq] at h1
    rcases h1 with ⟨h, k⟩ | ⟨h, k⟩ | ⟨h, k⟩ | ⟨h, k⟩ | ⟨h, k⟩ | ⟨h, k⟩ | ⟨h, k⟩ | ⟨h, k⟩ | ⟨h, k⟩ | ⟨h, k⟩ | ⟨h, k⟩ | ⟨h, k⟩ | ⟨h, k⟩ | ⟨h, k⟩ |
      ⟨h, k⟩ | ⟨h, k⟩ | ⟨h, k⟩ | ⟨h, k⟩ | ⟨h, k⟩ <;> simp only [kinds] at h <;> rw [h, k] <;> simp [TypeShape, isDataType]
  have e : y = ws ++ argToks as := by
    rcases h5 with ⟨rfl, rfl⟩ | ⟨h, rfl⟩
    · simp [argToks]
    · rw [argToks, if_neg h]; rfl
  subst e
  exact parseDataType_shape hs h2 h3 h4 hr hp

theorem typed_first {y : List Token} {dt : DataType} (h : Typed .postgres types y dt.name dt.type dt.expr) (rest : List Token) :
    isDataType (curT (y ++ rest)) = true := by
  obtain ⟨ws, as, h1, -, -, -, h5⟩ := h
  have : ∃ t r, ws = t :: r ∧ isDataType t.type = true := by
    cases ws with
    | nil => simp [types, kinds] at h1
    | cons t r =>
      refine ⟨t, r, rfl, ?_⟩
      simp only [types, kinds, List.map_cons, List.mem_cons, List.not_mem_nil, or_false, Prod.mk.injEq, List.cons.injEq] at h1
      rcases h1 with ⟨⟨h, _⟩, _⟩ | ⟨⟨h, _⟩, _⟩ | ⟨⟨h, _⟩, _⟩ | ⟨⟨h, _⟩, _⟩ | ⟨⟨h, _⟩, _⟩ | ⟨⟨h, _⟩, _⟩ | ⟨⟨h, _⟩, _⟩ | ⟨⟨h, _⟩, _⟩ | ⟨⟨h, _⟩, _⟩ |
        ⟨⟨h, _⟩, _⟩ | ⟨⟨h, _⟩, _⟩ | ⟨⟨h, _⟩, _⟩ | ⟨⟨h, _⟩, _⟩ | ⟨⟨h, _⟩, _⟩ | ⟨⟨h, _⟩, _⟩ | ⟨⟨h, _⟩, _⟩ | ⟨⟨h, _⟩, _⟩ | ⟨⟨h, _⟩, _⟩ | ⟨⟨h, _⟩, _⟩ <;>
        rw [h] <;> decide
  obtain ⟨t, r, rfl, ht⟩ := this
  rcases h5 with ⟨_, rfl⟩ | ⟨_, rfl⟩ <;> simpa using ht

/-! ## Attributes -/

theorem nullity_read {a : List Token} {nn : Bool} (h : Nullity a nn) {rest : List Token} (hp : NoPanic (a ++ rest)) (n : Nat) (d : Option Default) :
    columnAttrsLoop (n + 1) d false (a ++ rest) = columnAttrsLoop (if a = [] then n + 1 else n) d nn rest := by
  rcases h with ⟨rfl, rfl⟩ | ⟨h, rfl⟩ | ⟨h, rfl⟩
  · simp
  · obtain ⟨t, r, rfl, ht, h⟩ := map_type_cons h
    obtain rfl := map_type_nil h
    simp only [List.cons_append, List.nil_append] at hp ⊢
    rw [columnAttrsLoop]
    simp [ht, next_cons hp]
  · obtain ⟨t, r, rfl, ht, h⟩ := map_type_cons h
    obtain ⟨u, r, rfl, hu, h⟩ := map_type_cons h
    obtain rfl := map_type_nil h
    simp only [List.cons_append, List.nil_append] at hp ⊢
    rw [columnAttrsLoop]
    simp [ht, hu, checkPeek, next_cons hp, next_cons hp.of_cons]

theorem defaulted_read {b : List Token} {d : Option Default} (h : Defaulted b d) {rest : List Token}
    (hr : curT rest ∈ [.NOT, .COMMA, .CLOSE_PAREN, .PRIMARY, .REFERENCES, .UNIQUE, .CHECK]) (hp : NoPanic (b ++ rest)) (n : Nat) (nn : Bool) :
    columnAttrsLoop (n + 1) none nn (b ++ rest) = columnAttrsLoop (if b = [] then n + 1 else n) d nn rest := by
  rcases h with ⟨rfl, rfl⟩ | ⟨k, v, ws, rfl, hk, hv, rfl⟩
  · simp
  · simp only [List.cons_append] at hp ⊢
    rw [columnAttrsLoop]
    simp only [curT_cons, hk, next_cons hp, bind_ok, parseColumnDefault]
    rw [defaultLoop_outer hv _ none _ (by simp; omega) (by simp) hr hp.of_cons]
    simp

/-- What may follow the attributes of a column. -/
def afterAttrs : List TokType := [.COMMA, .CLOSE_PAREN, .PRIMARY, .REFERENCES, .UNIQUE, .CHECK]

theorem attributes_read {a : List Token} {d : Option Default} {nn : Bool} (h : Attributes a d nn) {rest : List Token}
    (hr : curT rest ∈ afterAttrs) (hp : NoPanic (a ++ rest)) {n : Nat} (hn : a.length < n) :
    columnAttrsLoop n none false (a ++ rest) = .ok (d, nn, rest) := by
  simp only [afterAttrs, List.mem_cons, List.not_mem_nil, or_false] at hr
  have stop : ∀ (n : Nat), columnAttrsLoop (n + 1) d nn rest = .ok (d, nn, rest) := by
    intro n
    rw [columnAttrsLoop]
    rcases hr with h | h | h | h | h | h <;> simp [h]
  obtain ⟨x, y, hx, hy, rfl | ⟨rfl, hx'⟩⟩ := h
  · rw [List.append_assoc] at hp ⊢
    simp only [List.length_append] at hn
    obtain ⟨n, rfl⟩ : ∃ m, n = m + 1 := ⟨n - 1, by omega⟩
    rw [nullity_read hx hp]
    by_cases h1 : x = []
    · subst h1
      rw [if_pos rfl, defaulted_read hy (by rcases hr with h | h | h | h | h | h <;> simp [h]) hp]
      split
      · exact stop _
      · rename_i hne
        have := List.length_pos_iff.2 hne
        obtain ⟨n, rfl⟩ : ∃ m, n = m + 1 := ⟨n - 1, by omega⟩
        exact stop _
    · have := List.length_pos_iff.2 h1
      obtain ⟨n, rfl⟩ : ∃ m, n = m + 1 := ⟨n - 1, by omega⟩
      rw [if_neg h1, defaulted_read hy (by rcases hr with h | h | h | h | h | h <;> simp [h]) hp.of_append]
      split
      · exact stop _
      · rename_i hne
        have := List.length_pos_iff.2 hne
        obtain ⟨n, rfl⟩ : ∃ m, n = m + 1 := ⟨n - 1, by omega⟩
        exact stop _
  · rw [List.append_assoc] at hp ⊢
    simp only [List.length_append] at hn
    obtain ⟨n, rfl⟩ : ∃ m, n = m + 1 := ⟨n - 1, by omega⟩
    have hN : curT (x ++ rest) ∈ [.NOT, .COMMA, .CLOSE_PAREN, .PRIMARY, .REFERENCES, .UNIQUE, .CHECK] := by
      rcases hx with ⟨rfl, _⟩ | ⟨h, _⟩ | ⟨h, _⟩
      · rcases hr with h | h | h | h | h | h <;> simp [h]
      · exact absurd h hx'
      · obtain ⟨t, r, rfl, ht, h⟩ := map_type_cons h
        simp [ht]
    rw [defaulted_read hy hN hp]
    by_cases h1 : y = []
    · subst h1
      rw [if_pos rfl, nullity_read hx hp]
      split
      · exact stop _
      · rename_i hne
        have := List.length_pos_iff.2 hne
        obtain ⟨n, rfl⟩ : ∃ m, n = m + 1 := ⟨n - 1, by omega⟩
        exact stop _
    · have := List.length_pos_iff.2 h1
      obtain ⟨n, rfl⟩ : ∃ m, n = m + 1 := ⟨n - 1, by omega⟩
      rw [if_neg h1, nullity_read hx hp.of_append]
      split
      · exact stop _
      · rename_i hne
        have := List.length_pos_iff.2 hne
        obtain ⟨n, rfl⟩ : ∃ m, n = m + 1 := ⟨n - 1, by omega⟩
        exact stop _

/-! ## Constraints of a column -/

/-- Where the parser goes on. -/
def onward (exact : Bool) (rest : List Token) : List Token := if exact then rest else rest.tail

theorem onAction_column {act : List Token} (h : OnAction act) {rest : List Token} (hp : NoPanic (act ++ rest)) :
    ∃ k, parseOnActionColumn (act ++ rest) = .ok (join s%" " (act.map (·.lit)), k :: rest) ∧ NoPanic (k :: rest) := by
  obtain ⟨a, ha, h | h⟩ := h
  · obtain ⟨t1, r, rfl, h1, hr⟩ := map_type_cons h
    obtain ⟨t2, r, rfl, h2, hr⟩ := map_type_cons hr
    obtain ⟨t3, r, rfl, h3, hr⟩ := map_type_cons hr
    obtain rfl := map_type_nil hr
    simp only [List.cons_append, List.nil_append] at hp ⊢
    refine ⟨t3, ?_, hp.of_cons.of_cons⟩
    rcases ha with rfl | rfl <;>
      simp [parseOnActionColumn, checkCur, checkPeek, h1, h2, h3, next_cons hp, next_cons hp.of_cons, join]
  · obtain ⟨t1, r, rfl, h1, hr⟩ := map_type_cons h
    obtain ⟨t2, r, rfl, h2, hr⟩ := map_type_cons hr
    obtain ⟨t3, r, rfl, h3, hr⟩ := map_type_cons hr
    obtain ⟨t4, r, rfl, h4, hr⟩ := map_type_cons hr
    obtain rfl := map_type_nil hr
    simp only [List.cons_append, List.nil_append] at hp ⊢
    refine ⟨t4, ?_, hp.of_cons.of_cons.of_cons⟩
    rcases ha with rfl | rfl <;>
      simp [parseOnActionColumn, checkCur, checkPeek, h1, h2, h3, h4, next_cons hp, next_cons hp.of_cons, next_cons hp.of_cons.of_cons, join]

theorem ofColumn_read {tbl col : Ident} (hq : tbl.name.head? ≠ some '"') {ts : List Token} {c : Constraint} {ex : Bool}
    (h : OfColumn tbl.name col ts c ex) {rest : List Token} (hp : NoPanic (ts ++ rest)) (hon : curT rest ≠ .ON) (n : Nat) (acc : List Constraint) :
    columnConstraintsLoop tbl col (n + 1) acc (ts ++ rest) = columnConstraintsLoop tbl col n (appendConstraint acc c) (onward ex rest) := by
  cases h with
  | primaryKey ts h =>
    obtain ⟨a, r, rfl, ha, hr⟩ := map_type_cons h
    obtain ⟨b, r, rfl, hb, hr⟩ := map_type_cons hr
    obtain rfl := map_type_nil hr
    simp only [List.cons_append, List.nil_append] at hp ⊢
    rw [← rawIdent_given hq (by decide)]
    simp [columnConstraintsLoop, checkPeek, ha, hb, next_cons hp, next_cons hp.of_cons, onward, Ident.diffStr]
  | unique ts h =>
    obtain ⟨a, r, rfl, ha, hr⟩ := map_type_cons h
    obtain rfl := map_type_nil hr
    simp only [List.cons_append, List.nil_append] at hp ⊢
    rw [List.append_assoc, ← rawIdent_given hq (by simp)]
    simp [columnConstraintsLoop, ha, next_cons hp, onward, Ident.diffStr]
  | references k ref l act cols hk href hl hact =>
    rw [rawIdent_given₂ hq (by simp)]
    simp only [List.cons_append, List.append_assoc] at hp ⊢
    obtain ⟨j, e, hj⟩ := onAction_column hact hp.of_cons.of_cons.of_append
    rw [columnConstraintsLoop]
    simp only [curT_cons, curL_cons, peekT_cons, hk, checkPeek, href, next_cons hp, next_cons hp.of_cons, listed_read hl hp.of_cons.of_cons, bind_ok, e,
      next_cons hj]
    simp [Ident.diffStr, onward]
    rfl
  | refers k ref l cols hk href hl =>
    simp only [List.cons_append] at hp ⊢
    rw [rawIdent_given₂ hq (by simp)]
    have e : parseOnActionColumn rest = .ok ([], rest) := by simp [parseOnActionColumn, hon]
    rw [columnConstraintsLoop]
    simp only [curT_cons, curL_cons, peekT_cons, hk, checkPeek, href, next_cons hp, next_cons hp.of_cons, listed_read hl hp.of_cons.of_cons, bind_ok, e,
      NoPanic.next hp.of_cons.of_cons.of_append]
    simp [Ident.diffStr, onward]
    rfl
  | check k e ws hk he =>
    rw [rawIdent_given₂ hq (by simp)]
    simp only [List.cons_append, List.append_assoc, List.nil_append] at hp ⊢
    have hx : parseExpr (opn :: (e ++ cls :: rest)) = .ok (given s%"(" :: (ws ++ [given s%")"]), rest) := by
      unfold parseExpr
      have hp' : NoPanic (openTok :: (e ++ closeTok :: rest)) := hp.of_cons
      change (do checkCur [.OPEN_PAREN] (openTok :: (e ++ closeTok :: rest)); _) = _
      simp only [checkCur, curT_cons, openTok_type, List.mem_singleton, if_true, bind_ok]
      change (do let ts ← next (openTok :: (e ++ closeTok :: rest)); _) = _
      rw [next_cons hp']
      simp only [bind_ok]
      rw [exprLoop_inner he _ _ (by simp) hp'.of_cons]
      rfl
    rw [columnConstraintsLoop]
    simp only [curT_cons, peekT_cons, hk, checkPeek, show opn.type = .OPEN_PAREN from rfl, next_cons hp, bind_ok, hx,
      NoPanic.next hp.of_cons.of_cons.of_append.of_cons]
    simp [onward, Ident.diffStr]

theorem ofColumn_first {T : Str} {col : Ident} {ts : List Token} {c : Constraint} {ex : Bool} (h : OfColumn T col ts c ex) (rest : List Token) :
    curT (ts ++ rest) ∈ [.PRIMARY, .REFERENCES, .UNIQUE, .CHECK] ∧ 1 ≤ ts.length := by
  cases h with
  | primaryKey ts h => obtain ⟨a, r, rfl, ha, hr⟩ := map_type_cons h; simp [ha]
  | unique ts h => obtain ⟨a, r, rfl, ha, hr⟩ := map_type_cons h; simp [ha]
  | references k ref l act cols hk _ _ _ => simp [hk]
  | refers k ref l cols hk _ _ => simp [hk]
  | check k e ws hk _ => simp [hk]

theorem ofColumns_first {T : Str} {col : Ident} {ts : List Token} {cs : List Constraint} {ex : Bool} (h : OfColumns T col ts cs ex) {rest : List Token}
    (hr : curT rest ∈ [.COMMA, .CLOSE_PAREN]) : curT (ts ++ rest) ∈ afterAttrs ∧ cs.length ≤ ts.length := by
  induction h with
  | nil =>
    simp only [List.mem_cons, List.not_mem_nil, or_false] at hr
    rcases hr with h | h <;> simp [h, afterAttrs]
  | last ts c h =>
    obtain ⟨h1, h2⟩ := ofColumn_first h rest
    exact ⟨List.mem_append_right [TokType.COMMA, .CLOSE_PAREN] h1, by simpa using h2⟩
  | cons ts r c cs ex h _ ih =>
    obtain ⟨h1, h2⟩ := ofColumn_first h (r ++ rest)
    rw [← List.append_assoc] at h1
    exact ⟨List.mem_append_right [TokType.COMMA, .CLOSE_PAREN] h1, by simp; omega⟩

theorem ofColumns_read {tbl col : Ident} (hq : tbl.name.head? ≠ some '"') {ts : List Token} {cs : List Constraint} {ex : Bool}
    (h : OfColumns tbl.name col ts cs ex) {rest : List Token} (hr : curT rest ∈ [.COMMA, .CLOSE_PAREN]) : NoPanic (ts ++ rest) → ∀ (n : Nat) (acc : List Constraint),
    columnConstraintsLoop tbl col (n + cs.length) acc (ts ++ rest) = columnConstraintsLoop tbl col n (cs.foldl appendConstraint acc) (onward ex rest) := by
  have hon : ∀ T, T ∈ afterAttrs → T ≠ .ON := by intro T h e; subst e; revert h; decide
  induction h with
  | nil => intro _ n acc; simp [onward]
  | last ts c h =>
    intro hp n acc
    exact ofColumn_read hq h hp (hon _ (List.mem_append_left [TokType.PRIMARY, .REFERENCES, .UNIQUE, .CHECK] hr)) n acc
  | cons ts r c cs ex h hcs ih =>
    intro hp n acc
    rw [List.append_assoc] at hp ⊢
    rw [List.length_cons, ← Nat.add_assoc, ofColumn_read hq h hp (hon _ (ofColumns_first hcs hr).1)]
    exact ih hp.of_append n _

/-! ## Items -/

theorem attributes_first {a : List Token} {d : Option Default} {nn : Bool} (h : Attributes a d nn) {rest : List Token}
    (hr : curT rest ∈ afterAttrs) : curT (a ++ rest) ∉ [.WITH, .OPEN_PAREN] := by
  have hrest : curT rest ∉ [.WITH, .OPEN_PAREN] := by
    simp only [afterAttrs, List.mem_cons, List.not_mem_nil, or_false] at hr
    rcases hr with h | h | h | h | h | h <;> rw [h] <;> decide
  have hN : ∀ (x : List Token) (nn : Bool) (r : List Token), Nullity x nn → curT r ∉ [.WITH, .OPEN_PAREN] → curT (x ++ r) ∉ [.WITH, .OPEN_PAREN] := by
    intro x nn r h hr
    rcases h with ⟨rfl, _⟩ | ⟨h, _⟩ | ⟨h, _⟩
    · exact hr
    · obtain ⟨t, r, rfl, ht, h⟩ := map_type_cons h
      simp [ht]
    · obtain ⟨t, r, rfl, ht, h⟩ := map_type_cons h
      simp [ht]
  have hD : ∀ (x : List Token) (d : Option Default) (r : List Token), Defaulted x d → curT r ∉ [.WITH, .OPEN_PAREN] → curT (x ++ r) ∉ [.WITH, .OPEN_PAREN] := by
    intro x d r h hr
    rcases h with ⟨rfl, _⟩ | ⟨k, v, ws, rfl, hk, _, _⟩
    · exact hr
    · simp [hk]
  obtain ⟨x, y, hx, hy, rfl | ⟨rfl, _⟩⟩ := h
  · rw [List.append_assoc]
    exact hN _ _ _ hx (hD _ _ _ hy hrest)
  · rw [List.append_assoc]
    exact hD _ _ _ hy (hN _ _ _ hx hrest)

theorem named_read {a : List Token} {dflt : Str} {n : Ident} (h : Named .postgres a dflt n) {rest : List Token} (hp : NoPanic (a ++ rest))
    (hr : curT rest ≠ .CONSTRAINT) : ∃ o : Option Ident, parseConstraintName (a ++ rest) = .ok (o, rest) ∧ o.getD (given dflt) = n := by
  rcases h with ⟨rfl, rfl⟩ | ⟨k, t, rfl, hk, ht, rfl⟩
  · exact ⟨none, by simp [parseConstraintName, hr], rfl⟩
  · simp only [List.cons_append, List.nil_append] at hp ⊢
    exact ⟨some (word .postgres t), by simp [parseConstraintName, hk, ht, next_cons hp, next_cons hp.of_cons, word, rawIdent], rfl⟩

theorem underscored_flatMap (l : List Ident) : underscored l = l.flatMap fun c => s%"_" ++ c.name := by
  simp [underscored, List.flatMap, Ident.diffStr]

theorem ofTable_read {tbl : Ident} (hq : tbl.name.head? ≠ some '"') {ts : List Token} {c : Constraint} (h : OfTable tbl.name ts c) {rest : List Token}
    (hr : curT rest ∈ [.COMMA, .CLOSE_PAREN]) (hp : NoPanic (ts ++ rest)) : parseTableConstraint tbl (ts ++ rest) = .ok (c, rest) := by
  unfold parseTableConstraint
  cases h with
  | primaryKey a k l n cols hn hk hl =>
    obtain ⟨t, r, rfl, ht, h⟩ := map_type_cons hk
    obtain ⟨u, r, rfl, hu, h⟩ := map_type_cons h
    obtain rfl := map_type_nil h
    obtain ⟨m, rfl⟩ := listed_head hl
    simp only [List.append_assoc, List.cons_append, List.nil_append] at hp ⊢
    obtain ⟨o, e, ho⟩ := named_read hn hp (by simp [ht])
    have hp := hp.of_append
    have hl' := listed_read hl hp.of_cons.of_cons
    simp only [List.cons_append] at hl'
    rw [e]
    rw [← rawIdent_given hq (by decide)] at ho
    simp only [bind_ok, curT_cons, ht, hu, checkPeek, peekT_cons, next_cons hp, next_cons hp.of_cons, hl', if_true, List.mem_singleton,
      show opn.type = .OPEN_PAREN from rfl, Ident.diffStr, ho]
  | unique a k l n cols hn hk hl =>
    obtain ⟨t, r, rfl, ht, h⟩ := map_type_cons hk
    obtain rfl := map_type_nil h
    obtain ⟨m, rfl⟩ := listed_head hl
    simp only [List.append_assoc, List.cons_append, List.nil_append] at hp ⊢
    obtain ⟨o, e, ho⟩ := named_read hn hp (by simp [ht])
    have hp := hp.of_append
    have hl' := listed_read hl hp.of_cons
    simp only [List.cons_append] at hl'
    rw [e]
    rw [List.append_assoc, ← rawIdent_given hq (by simp), ← List.append_assoc] at ho
    simp only [bind_ok, curT_cons, ht, checkPeek, peekT_cons, next_cons hp, hl', if_true, List.mem_singleton, reduceCtorEq, if_false,
      show opn.type = .OPEN_PAREN from rfl, Ident.diffStr, underscored_flatMap]
    subst ho
    simp
  | foreignKey a k l m r ref n cols refs hn hk hl hrf href hm =>
    obtain ⟨t, r', rfl, ht, h⟩ := map_type_cons hk
    obtain ⟨u, r', rfl, hu, h⟩ := map_type_cons h
    obtain rfl := map_type_nil h
    obtain ⟨l, rfl⟩ := listed_head hl
    simp only [List.append_assoc, List.cons_append, List.nil_append] at hp ⊢
    obtain ⟨o, e, ho⟩ := named_read hn hp (by simp [ht])
    have hp := hp.of_append
    have hl' := listed_read hl hp.of_cons.of_cons
    have hp2 : NoPanic (r :: ref :: (m ++ rest)) := hp.of_cons.of_cons.of_cons.of_append
    have hm' := listed_read hm hp2.of_cons.of_cons
    have hon : parseOnActionTable rest = .ok ([], rest) := by
      simp only [List.mem_cons, List.not_mem_nil, or_false] at hr
      unfold parseOnActionTable
      rcases hr with h | h <;> simp [h]
    simp only [List.cons_append] at hl'
    rw [e]
    rw [List.append_assoc, ← rawIdent_given hq (by cases cols <;> simp), ← List.append_assoc] at ho
    simp only [bind_ok, curT_cons, ht, hu, checkPeek, checkCur, peekT_cons, next_cons hp, next_cons hp.of_cons, hl', if_true, List.mem_singleton,
      reduceCtorEq, if_false, show opn.type = .OPEN_PAREN from rfl, Ident.diffStr, underscored_flatMap, hrf, href, next_cons hp2,
      next_cons hp2.of_cons, hm', hon, curL_cons]
    subst ho
    simp [word, rawIdent]

theorem ofTable_first {T : Str} {ts : List Token} {c : Constraint} (h : OfTable T ts c) (rest : List Token) :
    isConstraint (curT (ts ++ rest)) = true ∧ curT (ts ++ rest) ≠ .IDENT ∧ 1 ≤ ts.length := by
  have hN : ∀ {a : List Token} {s : Str} {n : Ident} (x : List Token), Named .postgres a s n → isConstraint (curT x) = true → curT x ≠ .IDENT → 1 ≤ x.length →
      isConstraint (curT (a ++ x)) = true ∧ curT (a ++ x) ≠ .IDENT ∧ 1 ≤ (a ++ x).length := by
    intro a s n x h h1 h2 h3
    rcases h with ⟨rfl, _⟩ | ⟨k, t, rfl, hk, _⟩
    · exact ⟨h1, h2, h3⟩
    · simp [hk, isConstraint]
  cases h with
  | primaryKey a k l n cols hn hk hl =>
    obtain ⟨t, r, rfl, ht, h⟩ := map_type_cons hk
    have h1 := hN (t :: (r ++ l) ++ rest) hn (by simp [ht, isConstraint]) (by simp [ht]) (by simp)
    refine ⟨by simpa using h1.1, by simpa using h1.2.1, by simp; omega⟩
  | unique a k l n cols hn hk hl =>
    obtain ⟨t, r, rfl, ht, h⟩ := map_type_cons hk
    have h1 := hN (t :: (r ++ l) ++ rest) hn (by simp [ht, isConstraint]) (by simp [ht]) (by simp)
    refine ⟨by simpa using h1.1, by simpa using h1.2.1, by simp; omega⟩
  | foreignKey a k l m r' ref n cols refs hn hk hl hrf href hm =>
    obtain ⟨t, r, rfl, ht, h⟩ := map_type_cons hk
    have h1 := hN (t :: (r ++ (l ++ r' :: ref :: m)) ++ rest) hn (by simp [ht, isConstraint]) (by simp [ht]) (by simp)
    refine ⟨by simpa using h1.1, by simpa using h1.2.1, by simp; omega⟩

theorem item_read {tbl : Ident} (hq : tbl.name.head? ≠ some '"') {ts : List Token} {cols : List Column} {cs : List Constraint} {ex : Bool}
    (h : Item tbl.name ts cols cs ex) {rest : List Token} (hr : curT rest ∈ [.COMMA, .CLOSE_PAREN]) (hex : ex = true ∨ curT rest.tail = .IDENT)
    (hp : NoPanic (ts ++ rest)) (acc : List Constraint) :
    ∃ acc', (∀ (n : Nat) (C : List Column), tableLoop tbl (n + 1) C acc (ts ++ rest) = tableLoop tbl n (C ++ cols) acc' (onward ex rest)) ∧
      ∀ p, LastWinsAtFirst (·.name.name) p acc → LastWinsAtFirst (·.name.name) (p ++ cs) acc' := by
  cases h with
  | column nm y a r c cs ex hnm hname hty hat hcs =>
    simp only [List.cons_append, List.append_assoc] at hp ⊢
    have hf := ofColumns_first hcs hr
    obtain ⟨k, e, hk⟩ := typed_read hty (attributes_first hat hf.1) hp.of_cons
    have hpr := hk.of_cons.of_append
    have hcon : parseColumnConstraints tbl c.name (r ++ rest) = .ok (cs.foldl appendConstraint [], onward ex rest) := by
      rw [parseColumnConstraints, show (r ++ rest).length + 1 = ((r ++ rest).length - cs.length + 1) + cs.length by simp; omega,
        ofColumns_read hq hcs hr hpr, columnConstraintsLoop]
      have : curT (onward ex rest) = .IDENT ∨ curT (onward ex rest) = .COMMA ∨ curT (onward ex rest) = .CLOSE_PAREN := by
        cases ex with
        | true => exact .inr (by simpa [onward] using hr)
        | false => exact .inl (by simpa [onward] using hex)
      rcases this with h | h | h <;> simp [h]
    have hcol : parseColumn tbl (nm :: (y ++ (a ++ (r ++ rest)))) = .ok (c, (cs.foldl appendConstraint []).foldl appendConstraint [], onward ex rest) := by
      unfold parseColumn
      simp only [checkCur, curT_cons, hnm, List.mem_singleton, if_true, bind_ok, curL_cons, next_cons hp, typed_first hty, e, next_cons hk]
      rw [attributes_read hat hf.1 hk.of_cons (by simp; omega)]
      have e1 : rawIdent nm.lit = c.name := hname.symm
      simp only [bind_ok, e1, hcon]
    refine ⟨_, fun n C => by rw [tableLoop, if_pos (by simp [hnm]), hcol]; simp only [bind_ok]; rfl, fun p hp => ?_⟩
    exact LastWinsAtFirst.part (lastWins_foldl cs lastWinsAtFirst_nil) (LastWinsAtFirst.part (lastWins_foldl _ lastWinsAtFirst_nil) (lastWins_foldl _ hp))
  | constraint ts c h =>
    obtain ⟨h1, h2, _⟩ := ofTable_first h rest
    refine ⟨appendConstraint acc c, fun n C => ?_, fun p hp => lastWins_foldl [c] hp⟩
    rw [tableLoop, if_neg h2, if_pos h1, ofTable_read hq h hr hp]
    simp [onward]

theorem item_length {T : Str} {ts : List Token} {cols : List Column} {cs : List Constraint} {ex : Bool} (h : Item T ts cols cs ex) : 1 ≤ ts.length := by
  cases h with
  | column nm y a r c cs ex => simp
  | constraint ts c h => exact (ofTable_first h []).2.2

theorem items_read {tbl : Ident} (hq : tbl.name.head? ≠ some '"') {ts : List Token} {cols : List Column} {cs : List Constraint}
    (h : Items (Item tbl.name) ts cols cs) {rest : List Token} (hr : rest = [] ∨ curT rest = .SEMICOLON) :
    NoPanic (ts ++ cls :: rest) → ∀ (acc : List Constraint), ∃ acc',
    (∀ (n : Nat) (C : List Column), ts.length + 1 ≤ n → tableLoop tbl n C acc (ts ++ cls :: rest) = .ok (C ++ cols, acc', cls :: rest)) ∧
      ∀ p, LastWinsAtFirst (·.name.name) p acc → LastWinsAtFirst (·.name.name) (p ++ cs) acc' := by
  induction h with
  | one ts cols cs h =>
    intro hp acc
    have := item_length h
    obtain ⟨acc', e, hl⟩ := item_read hq h (by simp [cls]) (.inl rfl) hp acc
    refine ⟨acc', fun n C hn => ?_, hl⟩
    obtain ⟨n, rfl⟩ : ∃ m, n = m + 2 := ⟨n - 2, by omega⟩
    rw [e]
    simp only [onward, if_true]
    have hpk : peekT (cls :: rest) = .SEMICOLON ∨ peekT (cls :: rest) = .EOF := by
      rcases hr with rfl | h
      · exact .inr rfl
      · exact .inl h
    rw [tableLoop, if_neg (by simp [cls]), if_neg (by simp [cls, isConstraint]), if_neg (by simp [cls]), if_pos (by simp [cls]), if_pos hpk]
  | cons ts r k cols cols' cs cs' ex h hk hex _ ih =>
    intro hp acc
    have := item_length h
    simp only [List.append_assoc, List.cons_append] at hp ⊢
    have hp2 := hp.of_append
    obtain ⟨acc1, e1, hl1⟩ := item_read hq h (by simp [hk]) (by
      rcases hex with h | h
      · exact .inl h
      · refine .inr ?_
        cases r with
        | nil => simp at h
        | cons t r => simpa using h) hp acc
    obtain ⟨acc2, e2, hl2⟩ := ih hp2.of_cons acc1
    refine ⟨acc2, fun n C hn => ?_, fun p hp => by simpa using hl2 _ (hl1 p hp)⟩
    simp only [List.length_append, List.length_cons] at hn
    obtain ⟨n, rfl⟩ : ∃ m, n = m + 2 := ⟨n - 2, by omega⟩
    rw [e1]
    have ih1 := e2 (n + 1) (C ++ cols) (by omega)
    have ih2 := e2 n (C ++ cols) (by omega)
    cases ex with
    | true =>
      simp only [onward, if_true]
      rw [tableLoop, if_neg (by simp [hk]), if_neg (by simp [hk, isConstraint]), if_pos (by simp [hk]), next_cons hp2]
      simp only [bind_ok, ih2, List.append_assoc]
    | false =>
      simp only [onward, Bool.false_eq_true, if_false, List.tail_cons, ih1, List.append_assoc]

/-! ## Statements -/

theorem table_consumed {ts : List Token} {t : CreateTable} (h : Table ts t) : Consumes parseCreate ts (.createTable t) := by
  obtain ⟨a, i, n, body, written, rfl, ha, hi, hn, hname, hq, hit, hd, hc, ho⟩ := h
  obtain ⟨t1, r, rfl, h1, h⟩ := map_type_cons ha
  obtain ⟨t2, r, rfl, h2, h⟩ := map_type_cons h
  obtain rfl := map_type_nil h
  refine ⟨fun r => by simp [h1], fun rest hp hr => ⟨cls :: rest, ?_, ?_, .inr ⟨_, rfl⟩⟩⟩
  · simp only [List.cons_append, List.nil_append, List.append_assoc] at hp ⊢
    obtain ⟨k, e, hk⟩ := parseIfNotExists_shape (k := t2) (r := n :: opn :: (body ++ cls :: rest)) hi (by simp [hn]) (by simpa using hp.of_cons)
    have hk1 := hk.of_cons
    obtain ⟨acc', e2, hl⟩ := items_read hq hit hr hk1.of_cons.of_cons []
    obtain rfl : acc' = t.constraints := LastWinsAtFirst.unique (hl [] lastWinsAtFirst_nil) (by simpa using hd)
    replace e2 := e2 ((body ++ cls :: rest).length + 1) [] (by simp)
    simp only [List.cons_append] at e
    rw [hname] at e2
    unfold parseCreate
    rw [next_cons hp]
    simp only [bind_ok, curT_cons, h2, if_true]
    unfold parseCreateTable
    rw [e]
    simp only [bind_ok, next_cons hk, checkCur, curT_cons, hn, List.mem_singleton, if_true, curL_cons, next_cons hk1, show opn.type = .OPEN_PAREN from rfl,
      next_cons hk1.of_cons, e2, List.nil_append]
    obtain ⟨cm, ine, nm, cols, cs, os⟩ := t
    simp only at hname hc ho
    subst hname hc ho
    rfl
  · intro x hx
    exact hp x (by simp only [List.mem_append, List.mem_cons, List.not_mem_nil] at hx ⊢; tauto)

theorem index_consumed {ts : List Token} {x : CreateIndex} (h : Index ts x) : Consumes parseCreate ts (.createIndex x) := by
  obtain ⟨a, i, n, o, tb, u, l, rfl, ha, hi, hn, hname, ho, htb, htn, hu, hl, hc⟩ := h
  obtain ⟨l', rfl⟩ := listed_head hl
  refine ⟨fun r => ?_, fun rest hp hr => ⟨rest, ?_, ?_, .inl rfl⟩⟩
  · cases hx : x.isUnique <;> rw [hx] at ha <;> obtain ⟨t1, r, rfl, h1, h⟩ := map_type_cons ha <;> simp [h1]
  · have key : ∃ t1 k, NoPanic (t1 :: k :: (i ++ n :: o :: tb :: (u ++ opn :: (l' ++ rest)))) ∧ k.type = .INDEX ∧
        ∃ q, next (a ++ (i ++ n :: o :: tb :: (u ++ opn :: (l' ++ rest)))) = .ok q ∧ (curT q = .INDEX ∨ curT q = .UNIQUE) ∧
          parseUnique q = .ok (x.isUnique, k :: (i ++ n :: o :: tb :: (u ++ opn :: (l' ++ rest)))) := by
      cases hx : x.isUnique with
      | false =>
        rw [hx] at ha
        obtain ⟨t1, r, rfl, h1, h⟩ := map_type_cons ha
        obtain ⟨t2, r, rfl, h2, h⟩ := map_type_cons h
        obtain rfl := map_type_nil h
        simp only [List.cons_append, List.nil_append, List.append_assoc] at hp ⊢
        exact ⟨t1, t2, hp, h2, _, next_cons hp, .inl h2, by simp [parseUnique, h2]⟩
      | true =>
        rw [hx] at ha
        obtain ⟨t1, r, rfl, h1, h⟩ := map_type_cons ha
        obtain ⟨t2, r, rfl, h2, h⟩ := map_type_cons h
        obtain ⟨t3, r, rfl, h3, h⟩ := map_type_cons h
        obtain rfl := map_type_nil h
        simp only [List.cons_append, List.nil_append, List.append_assoc] at hp ⊢
        exact ⟨t2, t3, hp.of_cons, h3, _, next_cons hp, .inr h2, by simp [parseUnique, h2, next_cons hp.of_cons]⟩
    obtain ⟨t1, k, hp1, hk, q, e1, hq, e2⟩ := key
    obtain ⟨k', e, hk'⟩ := parseIfNotExists_shape (k := k) (r := n :: o :: tb :: (u ++ opn :: (l' ++ rest))) hi (by simp [hn])
      (by simpa using hp1.of_cons)
    simp only [List.cons_append] at e
    have p1 := hk'.of_cons
    have p2 := p1.of_cons.of_cons.of_cons
    have hus : parseUsing (u ++ opn :: (l' ++ rest)) = .ok (x.using_, opn :: (l' ++ rest)) := by
      rcases hu with ⟨rfl, hx⟩ | ⟨k, m, rfl, hk, hx⟩
      · rw [hx]; simp [parseUsing, opn]
      · simp only [List.cons_append, List.nil_append] at p2 ⊢
        rw [hx]
        simp [parseUsing, hk, next_cons p2, next_cons p2.of_cons, newIdent, given]
    have hl' := listed_read hl (rest := rest) p2.of_append
    simp only [List.cons_append] at hl'
    simp only [List.append_assoc, List.cons_append] at hp ⊢
    unfold parseCreate
    rw [e1]
    have hT : curT q ≠ .TABLE := by rcases hq with h | h <;> rw [h] <;> decide
    simp only [bind_ok, if_neg hT, if_pos hq]
    unfold parseCreateIndex
    rw [e2]
    simp only [bind_ok, e, next_cons hk', next_cons p1, next_cons p1.of_cons, next_cons p1.of_cons.of_cons, checkCur, curT_cons, hn, ho, htb,
      List.mem_singleton, if_true, curL_cons, hus, show opn.type = .OPEN_PAREN from rfl, hl']
    obtain ⟨cm, uq, ine, nm, tn, us, cols⟩ := x
    simp only at hname htn hc
    subst hname htn hc
    rfl
  · intro y hy
    exact hp y (by simp [hy])

theorem statement_consumed (ts : List Token) (x : PStmt) (h : Statement ts x) : Consumes parseCreate ts x := by
  cases h with
  | table t h => exact table_consumed h
  | index x h => exact index_consumed h

end Ddl.Pg.Written
