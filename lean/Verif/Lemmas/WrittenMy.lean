import Verif.Lemmas.KeyFirst
import Verif.Spec.WrittenMy
import Verif.Lemmas.Written
import Verif.Lemmas.MyTable

/-! # Reading MySQL statements as they are written -/

set_option autoImplicit false

namespace Ddl.My.Written
open Spec Spec.Written

/-! ## Names -/

/-- The name does not begin with a quotation mark. -/
def Bare (s : Str) : Prop := ∀ c ∈ s.head?, c ∉ ['"', '`', '\'']

theorem rawIdent_bare {s : Str} (h : Bare s) : rawIdent s = given s := by
  cases s with
  | nil => decide
  | cons c r =>
    have : c ≠ '"' ∧ c ≠ '`' ∧ c ≠ '\'' := by simpa [Bare] using h
    simp [rawIdent, newRawIdent, quotationMarks, newRawIdentQ, hasPrefix, this.1.symm, this.2.1.symm, this.2.2.symm, given]

theorem bare_append {T s : Str} (hq : Bare T) (hs : Bare s) : Bare (T ++ s) := by
  cases T with
  | nil => exact hs
  | cons c r => simpa [Bare] using hq

theorem bare_under (s : Str) : Bare ('_' :: s) := by simp [Bare]

theorem named_under {T : Str} (hq : Bare T) (s : Str) : given (T ++ '_' :: s) = rawIdent (T ++ '_' :: s) :=
  (rawIdent_bare (bare_append hq (bare_under s))).symm

/-! ## Expressions -/

theorem signHead {d : Dialect} {ts : List Token} {ws : List Ident} (_h : Bracketed d ts ws) {rest : List Token} (hn : ∀ u ∈ ts.head?, ¬ IsSign u) :
    ¬ (curT (ts ++ cls :: rest) = .EQUAL ∨ curT (ts ++ cls :: rest) = .GREATER ∨ curT (ts ++ cls :: rest) = .LESS) := by
  cases ts with
  | nil => simp [cls]
  | cons t r =>
    have := hn t (by simp)
    simp only [IsSign, List.mem_cons, List.not_mem_nil, or_false] at this
    simpa using this

theorem bracketed_read {ts : List Token} {ws : List Ident} (h : Bracketed .mysql ts ws) : ∀ (n : Nat) (rest : List Token), ts.length + 1 < n →
    NoPanic (ts ++ cls :: rest) → exprLoop n (ts ++ cls :: rest) = .ok (ws ++ [given s%")"], rest) := by
  have hcls : cls.type = .CLOSE_PAREN := rfl
  induction h with
  | nil =>
    intro n rest hn hp
    obtain ⟨n, rfl⟩ : ∃ m, n = m + 1 := ⟨n - 1, by omega⟩
    simp only [List.nil_append] at hp ⊢
    simp [exprLoop, next_cons hp, hcls]
    rfl
  | word t r w h1 h1' h2 _ ih =>
    intro n rest hn hp
    obtain ⟨n, rfl⟩ : ∃ m, n = m + 1 := ⟨n - 1, by omega⟩
    simp only [IsSign, List.mem_cons, List.not_mem_nil, or_false, not_or] at h1 h2
    simp only [List.cons_append, List.length_cons] at hn hp ⊢
    rw [exprLoop, curT_cons, if_neg h2.1, if_neg h2.2.1, if_neg (by simp [h1]), if_neg h2.2.2, next_cons hp]
    simp only [bind_ok]
    rw [ih n _ (by omega) hp.of_cons]
    have : isReservedValue t.type = false := by simpa [isReservedValue, IsLiteral] using h1'
    simp [this, word, rawIdent]
  | constant t r w h1 _ ih =>
    intro n rest hn hp
    obtain ⟨n, rfl⟩ : ∃ m, n = m + 1 := ⟨n - 1, by omega⟩
    simp only [IsLiteral, List.mem_cons, List.not_mem_nil, or_false] at h1
    simp only [List.cons_append, List.length_cons] at hn hp ⊢
    rw [exprLoop, next_cons hp]
    simp only [bind_ok]
    rw [ih n _ (by omega) hp.of_cons]
    rcases h1 with h | h | h <;> simp [h, isReservedValue] <;> rfl
  | sign t r w h1 h2 hr ih =>
    intro n rest hn hp
    obtain ⟨n, rfl⟩ : ∃ m, n = m + 1 := ⟨n - 1, by omega⟩
    have hh := signHead hr (rest := rest) h2
    simp only [IsSign, List.mem_cons, List.not_mem_nil, or_false] at h1
    simp only [List.cons_append, List.length_cons] at hn hp ⊢
    have h3 : t.type ≠ .OPEN_PAREN ∧ t.type ≠ .CLOSE_PAREN := by rcases h1 with h | h | h <;> simp [h]
    rw [exprLoop]
    simp only [curT_cons, if_neg h3.1, if_neg h3.2, if_pos h1, peekT_cons, if_neg hh, bind_ok, next_cons hp]
    rw [ih n _ (by omega) hp.of_cons]
    rfl
  | signs t u r w h1 h2 hr ih =>
    intro n rest hn hp
    obtain ⟨n, rfl⟩ : ∃ m, n = m + 1 := ⟨n - 1, by omega⟩
    simp only [IsSign, List.mem_cons, List.not_mem_nil, or_false] at h1 h2
    simp only [List.cons_append, List.length_cons] at hn hp ⊢
    have h3 : t.type ≠ .OPEN_PAREN ∧ t.type ≠ .CLOSE_PAREN := by rcases h1 with h | h | h <;> simp [h]
    rw [exprLoop]
    simp only [curT_cons, if_neg h3.1, if_neg h3.2, if_pos h1, peekT_cons, if_pos h2, next_cons hp, bind_ok, next_cons hp.of_cons]
    rw [ih n _ (by omega) hp.of_cons.of_cons]
    rfl
  | group a b v w ha hb iha ihb =>
    intro n rest hn hp
    obtain ⟨n, rfl⟩ : ∃ m, n = m + 1 := ⟨n - 1, by omega⟩
    simp only [List.cons_append, List.append_assoc, List.length_cons, List.length_append] at hn hp ⊢
    rw [exprLoop, if_pos (by simp [opn]), next_cons hp]
    simp only [bind_ok]
    rw [iha n (b ++ cls :: rest) (by omega) hp.of_cons]
    simp only [bind_ok]
    rw [ihb n _ (by omega) hp.of_cons.of_append.of_cons]
    simp
    rfl

theorem parseExpr_read {e : List Token} {ws : List Ident} (h : Bracketed .mysql e ws) {rest : List Token} (hp : NoPanic (opn :: (e ++ cls :: rest))) :
    parseExpr (opn :: (e ++ cls :: rest)) = .ok (given s%"(" :: (ws ++ [given s%")"]), rest) := by
  unfold parseExpr
  simp only [checkCur, curT_cons, show opn.type = .OPEN_PAREN from rfl, List.mem_singleton, if_true, bind_ok, next_cons hp]
  rw [bracketed_read h _ _ (by simp) hp.of_cons]
  rfl

/-- What may follow a default value. -/
def afterValue : List TokType := [.NOT, .ON, .COMMENT, .COMMA, .CLOSE_PAREN, .PRIMARY, .REFERENCES, .UNIQUE, .CHECK]

theorem valued_read {f : Bool} {ts : List Token} {ws : List Ident} (h : ValueWords .mysql [.IDENT, .CURRENT_TIMESTAMP] [] f ts ws) :
    ∀ (n : Nat) (v : Option Expr) (rest : List Token), ts.length < n → (f = false → v ≠ none) → curT rest ∈ afterValue → NoPanic (ts ++ rest) →
    defaultLoop n v (ts ++ rest) = .ok (⟨some (v.getD [] ++ ws)⟩, rest) := by
  induction h with
  | nil =>
    intro n v rest hn hv hr hp
    obtain ⟨n, rfl⟩ : ∃ m, n = m + 1 := ⟨n - 1, by omega⟩
    cases v with
    | none => exact absurd rfl (hv rfl)
    | some e =>
      simp only [afterValue, List.mem_cons, List.not_mem_nil, or_false] at hr
      simp only [List.nil_append]
      unfold defaultLoop
      rcases hr with h | h | h | h | h | h | h | h | h <;> simp [h, isReservedValue, isConstraint]
  | word f t r w ht _ ih =>
    intro n v rest hn hv hr hp
    obtain ⟨n, rfl⟩ : ∃ m, n = m + 1 := ⟨n - 1, by omega⟩
    simp only [List.cons_append, List.length_cons] at hn hp ⊢
    have ih := ih n (some (v.getD [] ++ [rawIdent t.lit])) rest (by omega) (by simp) hr hp.of_cons
    simp only [List.mem_cons, List.not_mem_nil, or_false] at ht
    rw [defaultLoop, curT_cons, if_pos ht, next_cons hp]
    simp only [bind_ok, curL_cons, appendExpr, ih]
    simp [word, rawIdent]
  | later t r w ht => simp at ht
  | constant f t r w ht _ ih =>
    intro n v rest hn hv hr hp
    obtain ⟨n, rfl⟩ : ∃ m, n = m + 1 := ⟨n - 1, by omega⟩
    simp only [List.cons_append, List.length_cons] at hn hp ⊢
    have hT : t.type = .NULL ∨ t.type = .TRUE ∨ t.type = .FALSE := by simpa [IsLiteral] using ht
    unfold defaultLoop
    rw [if_neg (by rcases hT with h | h | h <;> simp [h]), if_neg (by rcases hT with h | h | h <;> simp [h]),
      if_neg (by rcases hT with h | h | h <;> simp [h]), if_pos (by rcases hT with h | h | h <;> simp [h, isReservedValue]), next_cons hp]
    simp only [bind_ok]
    rw [ih n _ rest (by omega) (by simp [appendExpr]) hr hp.of_cons]
    simp [appendExpr, newIdent]
  | group f a b v w ha hb ih =>
    intro n x rest hn hv hr hp
    obtain ⟨n, rfl⟩ : ∃ m, n = m + 1 := ⟨n - 1, by omega⟩
    simp only [List.cons_append, List.append_assoc, List.length_cons, List.length_append] at hn hp ⊢
    unfold defaultLoop
    rw [if_neg (by simp [opn]), if_pos (by simp [opn]), parseExpr_read ha hp]
    simp only [bind_ok]
    rw [ih n _ rest (by omega) (by simp [appendExpr]) hr hp.of_cons.of_append.of_cons]
    simp [appendExpr]

/-! ## Lists of columns and types -/

theorem parseOrder_read {t : Token} {o : List Token} {b : Option Bool} (h : kinds o = orderTypes b) {rest : List Token}
    (hr : curT rest ∈ [.COMMA, .CLOSE_PAREN]) (hp : NoPanic (t :: (o ++ rest))) :
    ∃ k, parseOrder (t :: (o ++ rest)) = .ok (b, k :: rest) ∧ NoPanic (k :: rest) := by
  simp only [List.mem_cons, List.not_mem_nil, or_false] at hr
  rcases b with _ | _ | _
  · obtain rfl := map_type_nil h
    refine ⟨t, ?_, hp⟩
    simp only [List.nil_append, parseOrder, peekT_cons]
    rcases hr with h | h <;> simp [h]
  · obtain ⟨u, r, rfl, hu, h⟩ := map_type_cons h
    obtain rfl := map_type_nil h
    simp only [List.cons_append, List.nil_append] at hp ⊢
    exact ⟨_, by simp [parseOrder, peekT_cons, next_cons hp, hu], hp.of_cons⟩
  · obtain ⟨u, r, rfl, hu, h⟩ := map_type_cons h
    obtain rfl := map_type_nil h
    simp only [List.cons_append, List.nil_append] at hp ⊢
    exact ⟨_, by simp [parseOrder, peekT_cons, next_cons hp, hu], hp.of_cons⟩

theorem ordered_read {b : List Token} {l : List (Ident × Option Bool)} (h : Ordered .mysql b l) : ∀ (n : Nat) (rest : List Token), b.length + 1 < n →
    NoPanic (b ++ cls :: rest) → columnIdentsLoop n (b ++ cls :: rest) = .ok (l.map fun p => ⟨p.1, p.2⟩, rest) := by
  induction h with
  | one t o b ht ho =>
    intro n rest hn hp
    obtain ⟨n, rfl⟩ : ∃ m, n = m + 2 := ⟨n - 2, by omega⟩
    simp only [List.cons_append] at hp ⊢
    obtain ⟨k, e, hk⟩ := parseOrder_read ho (by simp [cls]) hp
    rw [columnIdentsLoop, if_neg (by simp [ht]), if_pos (by simp [ht]), e]
    simp only [bind_ok, next_cons hk]
    rw [columnIdentsLoop, if_neg (by simp [cls]), if_neg (by simp [cls]), if_pos (by simp [cls]), next_cons hk.of_cons]
    simp [word, rawIdent]
  | cons t k o r b l ht ho hk _ ih =>
    intro n rest hn hp
    obtain ⟨n, rfl⟩ : ∃ m, n = m + 2 := ⟨n - 2, by omega⟩
    simp only [List.cons_append, List.append_assoc, List.length_cons, List.length_append] at hp hn ⊢
    obtain ⟨j, e, hj⟩ := parseOrder_read ho (by simp [hk]) hp
    rw [columnIdentsLoop, if_neg (by simp [ht]), if_pos (by simp [ht]), e]
    simp only [bind_ok, next_cons hj]
    rw [columnIdentsLoop, if_pos (by simp [hk]), next_cons hj.of_cons]
    simp only [bind_ok]
    rw [ih n rest (by omega) hj.of_cons.of_cons]
    simp [word, rawIdent]

theorem columns_read {l : List Token} {cols : List ColumnIdent} (h : Columns l cols) {rest : List Token} (hp : NoPanic (l ++ rest)) :
    parseColumnIdents (l ++ rest) = .ok (cols, rest) := by
  obtain ⟨q, ⟨b, rfl, hb⟩, rfl⟩ := h
  simp only [List.cons_append, List.append_assoc, List.nil_append] at hp ⊢
  unfold parseColumnIdents
  rw [List.length_cons, columnIdentsLoop, if_pos (by simp [opn]), next_cons hp]
  simp only [bind_ok]
  exact ordered_read hb _ _ (by simp) hp.of_cons

theorem columns_head {l : List Token} {cols : List ColumnIdent} (h : Columns l cols) : ∃ r, l = opn :: r := by
  obtain ⟨q, ⟨b, rfl, hb⟩, rfl⟩ := h
  exact ⟨_, rfl⟩

theorem types_shape {ws : List TokType} {ty : TokType} (h : (ws, ty) ∈ types) : TypeShape ws ty ∧ ∃ t r, ws = t :: r ∧ isDataType t = true := by
  have : ∀ p ∈ types, TypeShape p.1 p.2 ∧ ∃ t r, p.1 = t :: r ∧ isDataType t = true := by
    intro p hp
    refine ⟨?_, ?_⟩
    · revert p
      simp [types, TypeShape, isDataType]
    · revert p
      simp [types, isDataType]
  exact this _ h

theorem ofType_read {y : List Token} {dt : DataType} (h : OfType y dt) {rest : List Token}
    (hr : curT rest ∉ [.PRECISION, .OPEN_PAREN]) (hp : NoPanic (y ++ rest)) :
    ∃ k, parseDataType (y ++ rest) = .ok (dt, k :: rest) ∧ NoPanic (k :: rest) := by
  rcases h with ⟨ws, as, h1, h2, h3, h4, h5⟩ | ⟨h, rfl⟩
  · have e : y = ws ++ argToks as := by
      rcases h5 with ⟨rfl, rfl⟩ | ⟨h, rfl⟩
      · simp [argToks]
      · rw [argToks, if_neg h]; rfl
    subst e
    exact parseDataType_shape (types_shape h1).1 h2 h3 h4 hr hp
  · obtain ⟨t, r, rfl, ht, h⟩ := map_type_cons h
    obtain rfl := map_type_nil h
    simp only [List.cons_append, List.nil_append] at hp ⊢
    refine ⟨t, ?_, hp⟩
    simp only [List.mem_cons, List.not_mem_nil, or_false, not_or] at hr
    simp [parseDataType, parseTypeName, ht, hr.2]
    rfl

theorem ofType_first {y : List Token} {dt : DataType} (h : OfType y dt) (rest : List Token) : isDataType (curT (y ++ rest)) = true := by
  rcases h with ⟨ws, as, h1, -, -, -, h5⟩ | ⟨h, rfl⟩
  · obtain ⟨t, r, e, ht⟩ := (types_shape h1).2
    obtain ⟨u, r', rfl, hu, _⟩ := map_type_cons e
    rcases h5 with ⟨_, rfl⟩ | ⟨_, rfl⟩ <;> simpa [hu] using ht
  · obtain ⟨t, r, rfl, ht, h⟩ := map_type_cons h
    simp [ht, isDataType]

/-! ## Attributes -/

/-- Attributes on top of others. -/
def merge (b : Attrs) (x : Attributes) : Attrs :=
  ⟨x.characterSet.or b.characterSet, x.collate.or b.collate, (x.default.map fun w => (⟨some w⟩ : Default)).or b.default, x.nullity.getD b.notNull,
    x.autoIncrement || b.autoIncrement, x.onAction.getD b.onAction⟩

/-- What may follow the attributes of a column. -/
def afterAttrs : List TokType := [.COMMENT, .COMMA, .CLOSE_PAREN, .PRIMARY, .REFERENCES, .UNIQUE, .CHECK]

theorem ofAttributes_read {a : List Token} {x : Attributes} (h : OfAttributes a x) {rest : List Token} (hr : curT rest ∈ afterAttrs) :
    ∀ (n : Nat) (b : Attrs), a.length < n → NoPanic (a ++ rest) → columnAttrsLoop n b (a ++ rest) = .ok (merge b x, rest) := by
  induction h with
  | nil =>
    intro n b hn hp
    obtain ⟨n, rfl⟩ : ∃ m, n = m + 1 := ⟨n - 1, by omega⟩
    simp only [List.nil_append, columnAttrsLoop]
    simp only [afterAttrs, List.mem_cons, List.not_mem_nil, or_false] at hr
    rcases hr with h | h | h | h | h | h | h <;> simp [h, merge]
  | null k r a hk ha _ ih =>
    intro n b hn hp
    obtain ⟨n, rfl⟩ : ∃ m, n = m + 1 := ⟨n - 1, by omega⟩
    simp only [List.cons_append, List.length_cons] at hn hp ⊢
    rw [columnAttrsLoop]
    simp [hk, next_cons hp, ih n _ (by omega) hp.of_cons, merge, ha]
  | notNull k j r a hk hj ha _ ih =>
    intro n b hn hp
    obtain ⟨n, rfl⟩ : ∃ m, n = m + 1 := ⟨n - 1, by omega⟩
    simp only [List.cons_append, List.length_cons] at hn hp ⊢
    rw [columnAttrsLoop]
    simp [hk, hj, checkPeek, next_cons hp, next_cons hp.of_cons, ih n _ (by omega) hp.of_cons.of_cons, merge, ha]
  | default k v r w a hk hv ha hf _ ih =>
    intro n b hn hp
    obtain ⟨n, rfl⟩ : ∃ m, n = m + 1 := ⟨n - 1, by omega⟩
    simp only [List.cons_append, List.append_assoc, List.length_cons, List.length_append] at hn hp ⊢
    have hT : curT (r ++ rest) ∈ afterValue := by
      cases r with
      | nil =>
        simp only [afterAttrs, List.mem_cons, List.not_mem_nil, or_false] at hr
        rcases hr with h | h | h | h | h | h | h <;> simp [h, afterValue]
      | cons t r =>
        simp only [List.map_cons, List.head?_cons, List.mem_cons, List.not_mem_nil, or_false, reduceCtorEq, false_or, Option.some.injEq] at hf
        rcases hf with h | h <;> simp [h, afterValue]
    rw [columnAttrsLoop]
    simp only [curT_cons, hk, next_cons hp, bind_ok, parseColumnDefault]
    rw [valued_read hv _ none _ (by simp; omega) (by simp) hT hp.of_cons]
    simp [ih n _ (by omega) hp.of_cons.of_append, merge, ha]
  | onAction k j v r a hk hj hv ha _ ih =>
    intro n b hn hp
    obtain ⟨n, rfl⟩ : ∃ m, n = m + 1 := ⟨n - 1, by omega⟩
    simp only [List.cons_append, List.length_cons] at hn hp ⊢
    rw [columnAttrsLoop]
    simp only [curT_cons, curL_cons, hk, next_cons hp, bind_ok, checkCur, hj, if_true, next_cons hp.of_cons, hv, next_cons hp.of_cons.of_cons,
      ih n _ (by omega) hp.of_cons.of_cons.of_cons]
    simp [merge, ha]
  | characterSet k j v r a hk hj hv ha _ ih =>
    intro n b hn hp
    obtain ⟨n, rfl⟩ : ∃ m, n = m + 1 := ⟨n - 1, by omega⟩
    simp only [List.cons_append, List.length_cons] at hn hp ⊢
    rw [columnAttrsLoop]
    simp [hk, hj, checkCur, next_cons hp, next_cons hp.of_cons, next_cons hp.of_cons.of_cons, ih n _ (by omega) hp.of_cons.of_cons.of_cons, merge, ha,
      word, rawIdent]
  | collate k v r a hk hv ha _ ih =>
    intro n b hn hp
    obtain ⟨n, rfl⟩ : ∃ m, n = m + 1 := ⟨n - 1, by omega⟩
    simp only [List.cons_append, List.length_cons] at hn hp ⊢
    rw [columnAttrsLoop]
    simp [hk, next_cons hp, next_cons hp.of_cons, ih n _ (by omega) hp.of_cons.of_cons, merge, ha, word, rawIdent]
  | autoIncrement k r a hk ha _ ih =>
    intro n b hn hp
    obtain ⟨n, rfl⟩ : ∃ m, n = m + 1 := ⟨n - 1, by omega⟩
    simp only [List.cons_append, List.length_cons] at hn hp ⊢
    rw [columnAttrsLoop]
    simp [hk, next_cons hp, ih n _ (by omega) hp.of_cons, merge, ha]

theorem ofAttributes_first {a : List Token} {x : Attributes} (h : OfAttributes a x) {rest : List Token} (hr : curT rest ∈ afterAttrs) :
    curT (a ++ rest) ∉ [.PRECISION, .OPEN_PAREN] := by
  cases h with
  | nil =>
    simp only [afterAttrs, List.mem_cons, List.not_mem_nil, or_false] at hr
    rcases hr with h | h | h | h | h | h | h <;> simp [h]
  | null k r a hk => simp [hk]
  | notNull k j r a hk => simp [hk]
  | default k v r w a hk => simp [hk]
  | onAction k j v r a hk => simp [hk]
  | characterSet k j v r a hk => simp [hk]
  | collate k v r a hk => simp [hk]
  | autoIncrement k r a hk => simp [hk]

/-! ## Constraints of a column -/

/-- Where the parser goes on. -/
def onward (exact : Bool) (rest : List Token) : List Token := if exact then rest else rest.tail

theorem onAction_read {act : List Token} (h : OnAction act) {rest : List Token} (hp : NoPanic (act ++ rest)) :
    parseOnActionOpt (act ++ rest) = .ok (some (join s%" " (act.map (·.lit))), rest) := by
  obtain ⟨a, ha, h | h⟩ := h
  · obtain ⟨t1, r, rfl, h1, hr⟩ := map_type_cons h
    obtain ⟨t2, r, rfl, h2, hr⟩ := map_type_cons hr
    obtain ⟨t3, r, rfl, h3, hr⟩ := map_type_cons hr
    obtain rfl := map_type_nil hr
    simp only [List.cons_append, List.nil_append] at hp ⊢
    rcases ha with rfl | rfl <;>
      simp [parseOnActionOpt, parseOnAction, checkCur, checkPeek, h1, h2, h3, next_cons hp, next_cons hp.of_cons, next_cons hp.of_cons.of_cons, join]
  · obtain ⟨t1, r, rfl, h1, hr⟩ := map_type_cons h
    obtain ⟨t2, r, rfl, h2, hr⟩ := map_type_cons hr
    obtain ⟨t3, r, rfl, h3, hr⟩ := map_type_cons hr
    obtain ⟨t4, r, rfl, h4, hr⟩ := map_type_cons hr
    obtain rfl := map_type_nil hr
    simp only [List.cons_append, List.nil_append] at hp ⊢
    rcases ha with rfl | rfl <;>
      simp [parseOnActionOpt, parseOnAction, checkCur, checkPeek, h1, h2, h3, h4, next_cons hp, next_cons hp.of_cons, next_cons hp.of_cons.of_cons,
        next_cons hp.of_cons.of_cons.of_cons, join]

theorem noAction_read {rest : List Token} (h : curT rest ≠ .ON) : parseOnActionOpt rest = .ok (none, rest) := by simp [parseOnActionOpt, h]

theorem ofColumn_read {tbl col : Ident} (hq : Bare tbl.name) {ts : List Token} {c : Constraint} {ex : Bool}
    (h : OfColumn tbl.name col ts c ex) {rest : List Token} (hp : NoPanic (ts ++ rest)) (hon : curT rest ≠ .ON) (n : Nat) (acc : List Constraint) :
    columnConstraintsLoop tbl col (n + 1) acc (ts ++ rest) = columnConstraintsLoop tbl col n (appendConstraint acc c) (onward ex rest) := by
  cases h with
  | primaryKey ts h =>
    obtain ⟨a, r, rfl, ha, hr⟩ := map_type_cons h
    obtain ⟨b, r, rfl, hb, hr⟩ := map_type_cons hr
    obtain rfl := map_type_nil hr
    simp only [List.cons_append, List.nil_append] at hp ⊢
    rw [columnConstraintsLoop]
    simp [checkPeek, ha, hb, next_cons hp, next_cons hp.of_cons, onward]
    rfl
  | unique ts h =>
    obtain ⟨a, r, rfl, ha, hr⟩ := map_type_cons h
    obtain rfl := map_type_nil hr
    simp only [List.cons_append, List.nil_append, List.append_assoc, named_under hq] at hp ⊢
    simp [columnConstraintsLoop, ha, next_cons hp, onward, Ident.diffStr]
  | references k ref l act cols hk href hl hact =>
    simp only [List.cons_append, List.append_assoc, List.nil_append, named_under hq] at hp ⊢
    have e : ∃ o : Option Str, parseOnActionOpt (act ++ rest) = .ok (o, rest) ∧ o.getD [] = join s%" " (act.map (·.lit)) := by
      rcases hact with rfl | hact
      · exact ⟨none, noAction_read hon, rfl⟩
      · exact ⟨_, onAction_read hact hp.of_cons.of_cons.of_append, rfl⟩
    obtain ⟨o, e, ho⟩ := e
    rw [columnConstraintsLoop]
    simp only [curT_cons, curL_cons, peekT_cons, hk, checkPeek, href, next_cons hp, next_cons hp.of_cons, columns_read hl hp.of_cons.of_cons, bind_ok, e,
      noAction_read hon, NoPanic.next hp.of_cons.of_cons.of_append.of_append, ← ho]
    simp [Ident.diffStr, onward, word, rawIdent]
  | check k e ws hk he =>
    simp only [List.cons_append, List.append_assoc, List.nil_append, named_under hq] at hp ⊢
    rw [columnConstraintsLoop]
    simp only [curT_cons, peekT_cons, hk, checkPeek, show opn.type = .OPEN_PAREN from rfl, next_cons hp, bind_ok, parseExpr_read he hp.of_cons,
      NoPanic.next hp.of_cons.of_cons.of_append.of_cons]
    simp [onward, Ident.diffStr]

theorem ofColumn_first {T : Str} {col : Ident} {ts : List Token} {c : Constraint} {ex : Bool} (h : OfColumn T col ts c ex) (rest : List Token) :
    curT (ts ++ rest) ∈ [.PRIMARY, .REFERENCES, .UNIQUE, .CHECK] ∧ 1 ≤ ts.length := by
  cases h with
  | primaryKey ts h => obtain ⟨a, r, rfl, ha, hr⟩ := map_type_cons h; simp [ha]
  | unique ts h => obtain ⟨a, r, rfl, ha, hr⟩ := map_type_cons h; simp [ha]
  | references k ref l act cols hk _ _ _ => simp [hk]
  | check k e ws hk _ => simp [hk]

theorem ofColumns_first {T : Str} {col : Ident} {ts : List Token} {cs : List Constraint} {ex : Bool} (h : OfColumns T col ts cs ex) {rest : List Token}
    (hr : curT rest ∈ [.COMMENT, .COMMA, .CLOSE_PAREN]) : curT (ts ++ rest) ∈ afterAttrs ∧ cs.length ≤ ts.length := by
  induction h with
  | nil =>
    simp only [List.mem_cons, List.not_mem_nil, or_false] at hr
    rcases hr with h | h | h <;> simp [h, afterAttrs]
  | last ts c h =>
    obtain ⟨h1, h2⟩ := ofColumn_first h rest
    exact ⟨List.mem_append_right [TokType.COMMENT, .COMMA, .CLOSE_PAREN] h1, by simpa using h2⟩
  | cons ts r c cs ex h _ ih =>
    obtain ⟨h1, h2⟩ := ofColumn_first h (r ++ rest)
    rw [← List.append_assoc] at h1
    exact ⟨List.mem_append_right [TokType.COMMENT, .COMMA, .CLOSE_PAREN] h1, by simp; omega⟩

theorem ofColumns_read {tbl col : Ident} (hq : Bare tbl.name) {ts : List Token} {cs : List Constraint} {ex : Bool}
    (h : OfColumns tbl.name col ts cs ex) {rest : List Token} (hr : curT rest ∈ [.COMMENT, .COMMA, .CLOSE_PAREN]) :
    NoPanic (ts ++ rest) → ∀ (n : Nat) (acc : List Constraint),
    columnConstraintsLoop tbl col (n + cs.length) acc (ts ++ rest) = columnConstraintsLoop tbl col n (cs.foldl appendConstraint acc) (onward ex rest) := by
  have hon : ∀ T, T ∈ afterAttrs → T ≠ .ON := by intro T h e; subst e; revert h; decide
  induction h with
  | nil => intro _ n acc; simp [onward]
  | last ts c h =>
    intro hp n acc
    exact ofColumn_read hq h hp (hon _ (List.mem_append_left [TokType.PRIMARY, .REFERENCES, .UNIQUE, .CHECK] hr)) n acc
  | cons ts r c cs ex h hcs ih =>
    intro hp n acc
    rw [List.append_assoc] at hp ⊢
    rw [List.length_cons, ← Nat.add_assoc, ofColumn_read hq h hp (hon _ (ofColumns_first hcs hr).1)]
    exact ih hp.of_append n _

/-! ## The order of the constraints -/

theorem isKey_eq (c : Constraint) : c.isPrimaryKey = isKey c := by cases c <;> rfl

/-- At most one primary key. -/
def OneKey (l : List Constraint) : Prop := (l.filter isKey).length ≤ 1

theorem sort_noKey : ∀ (l acc : List Constraint), (∀ c ∈ l, isKey c = false) →
    l.foldl (fun acc c => if c.isPrimaryKey then c :: acc else acc ++ [c]) acc = acc ++ l
  | [], acc, _ => by simp
  | c :: r, acc, h => by
    rw [List.foldl_cons, isKey_eq, h c (by simp), if_neg (by simp), sort_noKey r _ (fun x hx => h x (by simp [hx]))]
    simp

theorem sortPrimaryKey_eq {l : List Constraint} (h : OneKey l) : sortPrimaryKey l = keyFirst isKey l := by
  unfold sortPrimaryKey keyFirst
  by_cases hk : ∃ c ∈ l, isKey c = true
  · obtain ⟨c, hc, hck⟩ := hk
    obtain ⟨a, b, rfl⟩ := List.append_of_mem hc
    unfold OneKey at h
    rw [List.filter_append, List.filter_cons_of_pos hck, List.length_append, List.length_cons] at h
    have ha : a.filter isKey = [] := List.length_eq_zero_iff.1 (by omega)
    have hb : b.filter isKey = [] := List.length_eq_zero_iff.1 (by omega)
    have ha' : ∀ x ∈ a, isKey x = false := by simpa [List.filter_eq_nil_iff] using ha
    have hb' : ∀ x ∈ b, isKey x = false := by simpa [List.filter_eq_nil_iff] using hb
    rw [List.foldl_append, sort_noKey a [] ha', List.foldl_cons, isKey_eq, hck, if_pos rfl, sort_noKey b _ hb']
    have ea : a.filter (fun c => !isKey c) = a := List.filter_eq_self.2 fun x hx => by simp [ha' x hx]
    have eb : b.filter (fun c => !isKey c) = b := List.filter_eq_self.2 fun x hx => by simp [hb' x hx]
    simp [List.filter_append, ha, hb, hck, ea, eb]
  · have hl : ∀ x ∈ l, isKey x = false := by
      intro x hx
      cases hb : isKey x with
      | false => rfl
      | true => exact absurd ⟨x, hx, hb⟩ hk
    rw [sort_noKey l [] hl]
    have e1 : l.filter isKey = [] := by simpa [List.filter_eq_nil_iff] using hl
    have e2 : l.filter (fun c => !isKey c) = l := List.filter_eq_self.2 fun x hx => by simp [hl x hx]
    rw [e1, e2]

theorem replace_at (P : List Constraint) (x : Constraint) (Q : List Constraint) (c : Constraint) (h : ∀ y ∈ P, y.name.name ≠ c.name.name)
    (e : x.name.name = c.name.name) : replaceConstraint (P ++ x :: Q) c = some (P ++ c :: Q) := by
  induction P with
  | nil => simp [replaceConstraint, e]
  | cons y P ih => simp [replaceConstraint, h y (by simp), ih fun z hz => h z (by simp [hz])]

theorem append_at (P : List Constraint) (x : Constraint) (Q : List Constraint) (c : Constraint) (h : ∀ y ∈ P, y.name.name ≠ c.name.name)
    (e : x.name.name = c.name.name) : appendConstraint (P ++ x :: Q) c = P ++ c :: Q := by
  rw [appendConstraint, replace_at P x Q c h e]

theorem append_end (A : List Constraint) (c : Constraint) (h : ∀ y ∈ A, y.name.name ≠ c.name.name) (h1 : ((A ++ [c]).filter isKey).length ≤ 1) :
    appendConstraint A c = keyFirst isKey (A ++ [c]) := by
  rw [appendConstraint, replaceConstraint_new h]
  exact sortPrimaryKey_eq h1

/-- What counts of the constraints written so far. -/
abbrev Counts (p A : List Constraint) : Prop := KeyFirst isKey (·.name.name) p A

/-- The primary keys have one name, and nothing else has it. -/
abbrev Apart (p : List Constraint) : Prop := KeysApart isKey (·.name.name) p

theorem append_counts {p A : List Constraint} {c : Constraint} (h : Counts p A) (hk : Apart (p ++ [c])) : Counts (p ++ [c]) (appendConstraint A c) :=
  keyFirst_step append_at append_end h hk

theorem foldl_counts {p A : List Constraint} (l : List Constraint) (h : Counts p A) (hk : Apart (p ++ l)) : Counts (p ++ l) (l.foldl appendConstraint A) :=
  keyFirst_foldl append_at append_end l h hk

/-- The constraints of a column are collected three times. -/
theorem foldl_counts₃ {p A : List Constraint} (l : List Constraint) (h : Counts p A) (hk : Apart (p ++ l)) :
    Counts (p ++ l) (((l.foldl appendConstraint []).foldl appendConstraint []).foldl appendConstraint A) := by
  have hl : Apart l := hk.sub fun x hx => List.mem_append_right _ hx
  have h1 : Counts l (l.foldl appendConstraint []) := by simpa using foldl_counts l keyFirst_nil hl
  have h2 : Counts l ((l.foldl appendConstraint []).foldl appendConstraint []) :=
    keyFirst_part (p := []) h1 (foldl_counts _ keyFirst_nil (hl.sub (keyFirst_sub h1)))
  refine keyFirst_part h2 (foldl_counts _ h (hk.sub fun x hx => ?_))
  rcases List.mem_append.1 hx with hx | hx
  · exact List.mem_append_left _ hx
  · exact List.mem_append_right _ (keyFirst_sub h2 x hx)

/-! ## Items -/

theorem named_read {a : List Token} {dflt : Str} {n : Ident} (h : Named .mysql a dflt n) {rest : List Token} (hp : NoPanic (a ++ rest))
    (hr : curT rest ≠ .CONSTRAINT) : ∃ o : Option Ident, parseConstraintName (a ++ rest) = .ok (o, rest) ∧ o.getD (given dflt) = n := by
  rcases h with ⟨rfl, rfl⟩ | ⟨k, t, rfl, hk, ht, rfl⟩
  · exact ⟨none, by simp [parseConstraintName, hr], rfl⟩
  · simp only [List.cons_append, List.nil_append] at hp ⊢
    exact ⟨some (word .mysql t), by simp [parseConstraintName, hk, ht, next_cons hp, next_cons hp.of_cons, word, rawIdent], rfl⟩

theorem underscored_flatMap (l : List ColumnIdent) :
    underscored l = l.flatMap fun c => s%"_" ++ c.ident.name ++ (if c.order = some true then s%" DESC" else []) := by
  simp [underscored, List.flatMap, ColumnIdent.diffStr, Ident.diffStr]

theorem join_actions {a b : List Token} (ha : a ≠ []) (hb : b ≠ []) :
    join s%" " ((a ++ b).map (·.lit)) = join s%" " (a.map (·.lit)) ++ (s%" " ++ join s%" " (b.map (·.lit))) := by
  have key : ∀ (l : List Str) (x : Str) (m : List Str), l ≠ [] → join s%" " (l ++ x :: m) = join s%" " l ++ (s%" " ++ join s%" " (x :: m)) := by
    intro l x m hl
    induction l with
    | nil => exact absurd rfl hl
    | cons y l ih =>
      cases l with
      | nil => simp [join]
      | cons z l => have := ih (by simp); simp only [List.cons_append] at this ⊢; simp [join, this]
  obtain ⟨x, b, rfl⟩ := List.exists_cons_of_ne_nil hb
  rw [List.map_append, List.map_cons, key _ _ _ (by simpa using ha)]

theorem onAction_ne {act : List Token} (h : OnAction act) : act ≠ [] := by
  rintro rfl
  obtain ⟨a, _, h | h⟩ := h <;> simp [kinds] at h

theorem onActions_read {act act' : List Token} (h : (act = [] ∧ act' = []) ∨ (OnAction act ∧ (act' = [] ∨ OnAction act'))) {rest : List Token}
    (hp : NoPanic (act ++ (act' ++ rest))) (hr : curT rest ≠ .ON) : ∃ o o' : Option Str, parseOnActionOpt (act ++ (act' ++ rest)) = .ok (o, act' ++ rest) ∧
      parseOnActionOpt (act' ++ rest) = .ok (o', rest) ∧
      o.getD [] ++ (match o' with
        | some a => s%" " ++ a
        | none => []) = join s%" " ((act ++ act').map (·.lit)) := by
  rcases h with ⟨rfl, rfl⟩ | ⟨h, rfl | h'⟩
  · exact ⟨none, none, noAction_read hr, noAction_read hr, rfl⟩
  · exact ⟨_, none, onAction_read h hp, noAction_read hr, by simp⟩
  · exact ⟨_, _, onAction_read h hp, onAction_read h' hp.of_append, (join_actions (onAction_ne h) (onAction_ne h')).symm⟩

theorem ofTable_read {tbl : Ident} (hq : Bare tbl.name) {ts : List Token} {c : Constraint} (h : OfTable tbl.name ts c) {rest : List Token}
    (hr : curT rest ∈ [.COMMA, .CLOSE_PAREN]) (hp : NoPanic (ts ++ rest)) : parseTableConstraint tbl (ts ++ rest) = .ok (c, rest) := by
  unfold parseTableConstraint
  cases h with
  | primaryKey a k l s n cols hn hk hl =>
    obtain ⟨t, r, rfl, ht, h⟩ := map_type_cons hk
    obtain ⟨u, r, rfl, hu, h⟩ := map_type_cons h
    obtain rfl := map_type_nil h
    obtain ⟨m, rfl⟩ := columns_head hl
    simp only [List.append_assoc, List.cons_append, List.nil_append] at hp ⊢
    obtain ⟨o, e, ho⟩ := named_read hn hp (by simp [ht])
    have hp := hp.of_append
    have hl' := columns_read hl hp.of_cons.of_cons
    simp only [List.cons_append] at hl'
    rw [e]
    simp only [bind_ok, curT_cons, ht, hu, checkPeek, peekT_cons, next_cons hp, next_cons hp.of_cons, hl', if_true, List.mem_singleton,
      show opn.type = .OPEN_PAREN from rfl]
    rfl
  | foreignKey a k l m act act' r ref n cols refs hn hk hl hrf href hm hact =>
    obtain ⟨t, r', rfl, ht, h⟩ := map_type_cons hk
    obtain ⟨u, r', rfl, hu, h⟩ := map_type_cons h
    obtain rfl := map_type_nil h
    obtain ⟨l, rfl⟩ := columns_head hl
    simp only [List.append_assoc, List.cons_append, List.nil_append] at hp ⊢
    obtain ⟨o, e, ho⟩ := named_read hn hp (by simp [ht])
    have hp := hp.of_append
    have hl' := columns_read hl hp.of_cons.of_cons
    have hp2 : NoPanic (r :: ref :: (m ++ (act ++ (act' ++ rest)))) := hp.of_cons.of_cons.of_cons.of_append
    have hm' := columns_read hm hp2.of_cons.of_cons
    have hon : curT rest ≠ .ON := by
      simp only [List.mem_cons, List.not_mem_nil, or_false] at hr
      rcases hr with h | h <;> simp [h]
    obtain ⟨o1, o2, e1, e2, e3⟩ := onActions_read hact hp2.of_cons.of_cons.of_append hon
    simp only [List.cons_append] at hl'
    rw [e]
    have hB : Bare (tbl.name ++ ((cols.flatMap fun c => s%"_" ++ c.ident.name ++ (if c.order = some true then s%" DESC" else [])) ++ s%"_fkey")) :=
      bare_append hq (by cases cols <;> simp [Bare])
    rw [List.append_assoc, ← rawIdent_bare hB, ← List.append_assoc] at ho
    simp only [bind_ok, curT_cons, ht, hu, checkPeek, checkCur, peekT_cons, next_cons hp, next_cons hp.of_cons, hl', if_true, List.mem_singleton,
      reduceCtorEq, if_false, show opn.type = .OPEN_PAREN from rfl, Ident.diffStr, underscored_flatMap, hrf, href, next_cons hp2,
      next_cons hp2.of_cons, hm', e1, e2, curL_cons]
    subst ho
    cases o2 <;> simpa [word, rawIdent] using e3
  | index k l n cols hk hn hl =>
    obtain ⟨m, rfl⟩ := columns_head hl
    have : ∃ t, k = [t] ∧ (t.type = .KEY ∨ t.type = .INDEX) := by
      rcases hk with h | h <;> obtain ⟨t, r, rfl, ht, h⟩ := map_type_cons h <;> obtain rfl := map_type_nil h <;> exact ⟨t, rfl, by simp [ht]⟩
    obtain ⟨t, rfl, ht⟩ := this
    simp only [List.append_assoc, List.cons_append, List.nil_append] at hp ⊢
    have hl' := columns_read hl hp.of_cons.of_cons
    simp only [List.cons_append] at hl'
    rcases ht with ht | ht <;>
      simp [parseConstraintName, ht, checkCur, checkPeek, next_cons hp, hn, next_cons hp.of_cons, hl', show opn.type = .OPEN_PAREN from rfl, word, rawIdent]
  | unique k l n cols hk hn hl =>
    obtain ⟨m, rfl⟩ := columns_head hl
    have : ∃ t u, k = [t, u] ∧ t.type = .UNIQUE ∧ (u.type = .KEY ∨ u.type = .INDEX) := by
      rcases hk with h | h <;> obtain ⟨t, r, rfl, ht, h⟩ := map_type_cons h <;> obtain ⟨u, r, rfl, hu, h⟩ := map_type_cons h <;>
        obtain rfl := map_type_nil h <;> exact ⟨t, u, rfl, ht, by simp [hu]⟩
    obtain ⟨t, u, rfl, ht, hu⟩ := this
    simp only [List.append_assoc, List.cons_append, List.nil_append] at hp ⊢
    have hl' := columns_read hl hp.of_cons.of_cons.of_cons
    simp only [List.cons_append] at hl'
    rcases hu with hu | hu <;>
      simp [parseConstraintName, ht, hu, checkCur, checkPeek, next_cons hp, hn, next_cons hp.of_cons, next_cons hp.of_cons.of_cons, hl',
        show opn.type = .OPEN_PAREN from rfl, word, rawIdent]
  | check a e k n ws hn hk he =>
    simp only [List.append_assoc, List.cons_append, List.nil_append] at hp ⊢
    obtain ⟨o, e1, ho⟩ := named_read hn hp (by simp [hk])
    have hp := hp.of_append
    rw [e1]
    rw [← rawIdent_bare (bare_append hq (by simp [Bare]))] at ho
    simp only [bind_ok, curT_cons, hk, checkPeek, peekT_cons, next_cons hp, if_true, List.mem_singleton, reduceCtorEq, if_false, or_false,
      show opn.type = .OPEN_PAREN from rfl, Ident.diffStr, parseExpr_read he hp.of_cons]
    subst ho
    rfl

theorem ofTable_first {T : Str} {ts : List Token} {c : Constraint} (h : OfTable T ts c) (rest : List Token) :
    isConstraint (curT (ts ++ rest)) = true ∧ curT (ts ++ rest) ≠ .IDENT ∧ 1 ≤ ts.length := by
  have hN : ∀ {a : List Token} {s : Str} {n : Ident} (x : List Token), Named .mysql a s n → isConstraint (curT x) = true → curT x ≠ .IDENT → 1 ≤ x.length →
      isConstraint (curT (a ++ x)) = true ∧ curT (a ++ x) ≠ .IDENT ∧ 1 ≤ (a ++ x).length := by
    intro a s n x h h1 h2 h3
    rcases h with ⟨rfl, _⟩ | ⟨k, t, rfl, hk, _⟩
    · exact ⟨h1, h2, h3⟩
    · simp [hk, isConstraint]
  cases h with
  | primaryKey a k l s n cols hn hk hl =>
    obtain ⟨t, r, rfl, ht, h⟩ := map_type_cons hk
    have h1 := hN (t :: (r ++ l) ++ rest) hn (by simp [ht, isConstraint]) (by simp [ht]) (by simp)
    refine ⟨by simpa using h1.1, by simpa using h1.2.1, by simp; omega⟩
  | foreignKey a k l m act act' r' ref n cols refs hn hk hl hrf href hm hact =>
    obtain ⟨t, r, rfl, ht, h⟩ := map_type_cons hk
    have h1 := hN (t :: (r ++ (l ++ r' :: ref :: (m ++ (act ++ act')))) ++ rest) hn (by simp [ht, isConstraint]) (by simp [ht]) (by simp)
    refine ⟨by simpa using h1.1, by simpa using h1.2.1, by simp; omega⟩
  | index k l n cols hk hn hl => rcases hk with h | h <;> obtain ⟨t, r, rfl, ht, h⟩ := map_type_cons h <;> simp [ht, isConstraint]
  | unique k l n cols hk hn hl => rcases hk with h | h <;> obtain ⟨t, r, rfl, ht, h⟩ := map_type_cons h <;> simp [ht, isConstraint]
  | check a e k n ws hn hk he =>
    have h1 := hN (k :: opn :: (e ++ [cls]) ++ rest) hn (by simp [hk, isConstraint]) (by simp [hk]) (by simp)
    refine ⟨by simpa using h1.1, by simpa using h1.2.1, by simp; omega⟩

theorem comment_read {m : List Token} {text : Str} (h : Commented m text) {rest : List Token} (hr : curT rest ≠ .COMMENT) (hp : NoPanic (m ++ rest)) :
    parseComment (m ++ rest) = .ok (text, rest) := by
  rcases h with ⟨rfl, rfl⟩ | ⟨k, v, rfl, hk, rfl⟩
  · simp [parseComment, hr]
  · simp only [List.cons_append, List.nil_append] at hp ⊢
    simp [parseComment, hk, next_cons hp, next_cons hp.of_cons]

theorem item_read {tbl : Ident} (hq : Bare tbl.name) {ts : List Token} {cols : List Column} {cs : List Constraint} {ex : Bool}
    (h : Item tbl.name ts cols cs ex) {rest : List Token} (hr : curT rest ∈ [.COMMA, .CLOSE_PAREN]) (hex : ex = true ∨ curT rest.tail = .IDENT)
    (hp : NoPanic (ts ++ rest)) {p A : List Constraint} (hA : Counts p A) (hd : Apart (p ++ cs)) :
    ∃ A', (∀ (n : Nat) (C : List Column), tableLoop tbl (n + 1) C A (ts ++ rest) = tableLoop tbl n (C ++ cols) A' (onward ex rest)) ∧ Counts (p ++ cs) A' := by
  have hrc : curT rest ≠ .COMMENT := by
    simp only [List.mem_cons, List.not_mem_nil, or_false] at hr
    rcases hr with h | h <;> simp [h]
  cases h with
  | column nm y a r m x c cs ex hnm hname hty hat h1 h2 h3 h4 h5 h6 hcs hm hexm =>
    simp only [List.cons_append, List.append_assoc] at hp ⊢
    have hrm : curT (m ++ rest) ∈ [.COMMENT, .COMMA, .CLOSE_PAREN] := by
      rcases hm with ⟨rfl, _⟩ | ⟨k, v, rfl, hk, _⟩
      · exact List.mem_cons_of_mem _ hr
      · simp [hk]
    have hf := ofColumns_first hcs hrm
    obtain ⟨k, e, hk⟩ := ofType_read hty (ofAttributes_first hat hf.1) hp.of_cons
    have hpr := hk.of_cons.of_append
    have hcomment : ∃ q, onward ex (m ++ rest) = q ∧ (curT q = .IDENT ∨ curT q = .COMMA ∨ curT q = .CLOSE_PAREN ∨ curT q = .COMMENT) ∧
        parseComment q = .ok (c.comment, onward ex rest) := by
      refine ⟨_, rfl, ?_⟩
      cases ex with
      | true =>
        simp only [onward, if_true]
        refine ⟨?_, comment_read hm hrc hpr.of_append⟩
        simp only [List.mem_cons, List.not_mem_nil, or_false] at hrm
        tauto
      | false =>
        obtain rfl : m = [] := by simpa using hexm
        have hi : curT rest.tail = .IDENT := by simpa using hex
        have hc : c.comment = [] := by rcases hm with ⟨_, h⟩ | ⟨k, v, h, _⟩ <;> [exact h; simp at h]
        simp [onward, hi, parseComment, hc]
    obtain ⟨q, eq, hq2, ecm⟩ := hcomment
    have hcon : parseColumnConstraints tbl c.name (r ++ (m ++ rest)) = .ok (cs.foldl appendConstraint [], q) := by
      rw [parseColumnConstraints, show (r ++ (m ++ rest)).length + 1 = ((r ++ (m ++ rest)).length - cs.length + 1) + cs.length by simp; omega,
        ofColumns_read hq hcs hrm hpr, columnConstraintsLoop, eq]
      rcases hq2 with h | h | h | h <;> simp [h]
    have hcol : parseColumn tbl (nm :: (y ++ (a ++ (r ++ (m ++ rest))))) = .ok (c, (cs.foldl appendConstraint []).foldl appendConstraint [], onward ex rest) := by
      unfold parseColumn
      simp only [checkCur, curT_cons, hnm, List.mem_singleton, if_true, bind_ok, curL_cons, next_cons hp, ofType_first hty, e, next_cons hk]
      rw [ofAttributes_read hat hf.1 _ _ (by simp; omega) hk.of_cons]
      have e1 : rawIdent nm.lit = c.name := hname.symm
      simp only [bind_ok, e1, hcon, ecm]
      obtain ⟨cn, dt, chs, col, df, nn, ai, oa, cm⟩ := c
      simp only at h1 h2 h3 h4 h5 h6
      subst h1 h2 h3 h4 h5 h6
      have : x.nullity.getD false = (x.nullity == some true) := by
        cases x.nullity with
        | none => rfl
        | some b => cases b <;> rfl
      simp [merge, this]
    refine ⟨_, fun n C => ?_, foldl_counts₃ cs hA hd⟩
    rw [tableLoop, if_pos (by simp [hnm]), hcol]
    simp only [bind_ok]
  | constraint ts c h =>
    obtain ⟨h1, h2, _⟩ := ofTable_first h rest
    refine ⟨_, fun n C => ?_, append_counts hA hd⟩
    rw [tableLoop, if_neg h2, if_pos h1, ofTable_read hq h hr hp]
    simp only [bind_ok]
    simp [onward]

theorem item_length {T : Str} {ts : List Token} {cols : List Column} {cs : List Constraint} {ex : Bool} (h : Item T ts cols cs ex) : 1 ≤ ts.length := by
  cases h with
  | column nm => simp
  | constraint ts c h => exact (ofTable_first h []).2.2

theorem items_read {tbl : Ident} (hq : Bare tbl.name) {ts : List Token} {cols : List Column} {cs : List Constraint}
    (h : Items (Item tbl.name) ts cols cs) {rest : List Token} :
    NoPanic (ts ++ cls :: rest) → ∀ {p A : List Constraint}, Counts p A → Apart (p ++ cs) → ∃ A',
    (∀ (n : Nat) (C : List Column), ts.length + 1 ≤ n → tableLoop tbl n C A (ts ++ cls :: rest) = .ok (C ++ cols, A', rest)) ∧ Counts (p ++ cs) A' := by
  induction h with
  | one ts cols cs h =>
    intro hp p A hA hd
    have := item_length h
    obtain ⟨A', e, hl⟩ := item_read hq h (by simp [cls]) (.inl rfl) hp hA hd
    refine ⟨A', fun n C hn => ?_, hl⟩
    obtain ⟨n, rfl⟩ : ∃ m, n = m + 2 := ⟨n - 2, by omega⟩
    rw [e]
    simp only [onward, if_true]
    rw [tableLoop, if_neg (by simp [cls]), if_neg (by simp [cls, isConstraint]), if_neg (by simp [cls]), if_pos (by simp [cls]), next_cons hp.of_append]
    rfl
  | cons ts r k cols cols' cs cs' ex h hk hex _ ih =>
    intro hp p A hA hd
    have := item_length h
    simp only [List.append_assoc, List.cons_append] at hp ⊢
    have hp2 := hp.of_append
    rw [← List.append_assoc] at hd
    obtain ⟨A1, e1, hl1⟩ := item_read hq h (by simp [hk]) (by
      rcases hex with h | h
      · exact .inl h
      · refine .inr ?_
        cases r with
        | nil => simp at h
        | cons t r => simpa using h) hp hA (hd.sub fun x hx => List.mem_append_left _ hx)
    obtain ⟨A2, e2, hl2⟩ := ih hp2.of_cons hl1 hd
    refine ⟨A2, fun n C hn => ?_, by simpa using hl2⟩
    simp only [List.length_append, List.length_cons] at hn
    obtain ⟨n, rfl⟩ : ∃ m, n = m + 2 := ⟨n - 2, by omega⟩
    rw [e1]
    have ih1 := e2 (n + 1) (C ++ cols) (by omega)
    have ih2 := e2 n (C ++ cols) (by omega)
    cases ex with
    | true =>
      simp only [onward, if_true]
      rw [tableLoop, if_neg (by simp [hk]), if_neg (by simp [hk, isConstraint]), if_pos (by simp [hk]), next_cons hp2]
      simp only [bind_ok, ih2, List.append_assoc]
    | false =>
      simp only [onward, Bool.false_eq_true, if_false, List.tail_cons, ih1, List.append_assoc]

/-! ## Primary keys have one name -/

/-- All primary keys have the same name. -/
def Keyed (cs : List Constraint) : Prop := ∀ c ∈ cs, isKey c = true → c.name.name = s%"PRIMARY KEY"

theorem Keyed.append {a b : List Constraint} (ha : Keyed a) (hb : Keyed b) : Keyed (a ++ b) := by
  intro c hc hk
  rcases List.mem_append.1 hc with h | h
  · exact ha c h hk
  · exact hb c h hk

theorem ofColumn_keyed {T : Str} {col : Ident} {ts : List Token} {c : Constraint} {ex : Bool} (h : OfColumn T col ts c ex) : Keyed [c] := by
  intro d hd hk
  obtain rfl := List.mem_singleton.1 hd
  cases h with
  | primaryKey ts h => rfl
  | _ => simp [isKey] at hk

theorem ofColumns_keyed {T : Str} {col : Ident} {ts : List Token} {cs : List Constraint} {ex : Bool} (h : OfColumns T col ts cs ex) : Keyed cs := by
  induction h with
  | nil => intro c hc; simp at hc
  | last ts c h => exact ofColumn_keyed h
  | cons ts r c cs ex h _ ih => exact (ofColumn_keyed h).append ih

theorem item_keyed {T : Str} {ts : List Token} {cols : List Column} {cs : List Constraint} {ex : Bool} (h : Item T ts cols cs ex) : Keyed cs := by
  cases h with
  | column nm y a r m x c cs ex hnm hname hty hat h1 h2 h3 h4 h5 h6 hcs hm hexm => exact ofColumns_keyed hcs
  | constraint ts c h =>
    intro d hd hk
    obtain rfl := List.mem_singleton.1 hd
    cases h with
    | primaryKey => rfl
    | _ => simp [isKey] at hk

theorem items_keyed {T : Str} {ts : List Token} {cols : List Column} {cs : List Constraint} (h : Items (Item T) ts cols cs) : Keyed cs := by
  induction h with
  | one ts cols cs h => exact item_keyed h
  | cons ts r k cols cols' cs cs' ex h _ _ _ ih => exact (item_keyed h).append ih

theorem apart_of_keyed {cs : List Constraint} (h : Keyed cs) (hd : ∀ a ∈ cs, isKey a = true → ∀ b ∈ cs, b.name.name = a.name.name → isKey b = true) :
    Apart cs :=
  fun a ha hk b hb => ⟨fun hb' => (h b hb hb').trans (h a ha hk).symm, hd a ha hk b hb⟩

/-! ## Options -/

theorem options_read {o : List Token} {l : List TableOption} (h : Options o l) {rest : List Token} (hr : rest = [] ∨ curT rest = .SEMICOLON) :
    ∀ n, o.length < n → NoPanic (o ++ rest) → optionsLoop n (o ++ rest) = .ok (l, rest) := by
  induction h with
  | nil =>
    intro n hn hp
    obtain ⟨n, rfl⟩ : ∃ m, n = m + 1 := ⟨n - 1, by omega⟩
    have : curT rest = .SEMICOLON ∨ curT rest = .EOF := by
      rcases hr with rfl | h
      · exact .inr rfl
      · exact .inl h
    simp only [List.nil_append, optionsLoop, if_pos this]
  | cons k r e v name l hk he hv _ ih =>
    intro n hn hp
    obtain ⟨n, rfl⟩ : ∃ m, n = m + 1 := ⟨n - 1, by omega⟩
    simp only [List.append_assoc, List.cons_append, List.length_append, List.length_cons] at hn hp ⊢
    have ih := ih n (by omega) hp.of_append.of_cons.of_cons
    have hpe := hp.of_append
    have hval : ∀ t, NoPanic (t :: e :: v :: (r ++ rest)) → parseOptionValue (t :: e :: v :: (r ++ rest)) = .ok ([word .mysql v], v :: (r ++ rest)) := by
      intro t ht
      simp [parseOptionValue, checkCur, next_cons ht, next_cons ht.of_cons, he, hv, word, rawIdent]
    simp only [optionNames, List.mem_cons, Prod.mk.injEq, List.not_mem_nil, or_false] at hk
    have one : ∀ T, kinds k = [T] → ∃ t, k = [t] ∧ t.type = T := by
      intro T h
      obtain ⟨t, q, rfl, ht, h⟩ := map_type_cons h
      obtain rfl := map_type_nil h
      exact ⟨t, rfl, ht⟩
    rcases hk with ⟨h, rfl⟩ | ⟨h, rfl⟩ | ⟨h, rfl⟩ | ⟨h, rfl⟩ | ⟨h, rfl⟩
    · obtain ⟨t, rfl, ht⟩ := one _ h
      simp only [List.cons_append, List.nil_append] at hp ⊢
      simp [optionsLoop, parseOption, ht, hval t hp, next_cons hpe.of_cons, ih]
    · obtain ⟨t, rfl, ht⟩ := one _ h
      simp only [List.cons_append, List.nil_append] at hp ⊢
      simp [optionsLoop, parseOption, ht, hval t hp, next_cons hpe.of_cons, ih]
    · obtain ⟨t, q, rfl, ht, h⟩ := map_type_cons h
      obtain ⟨u, q, rfl, hu, h⟩ := map_type_cons h
      obtain rfl := map_type_nil h
      simp only [List.cons_append, List.nil_append] at hp ⊢
      simp [optionsLoop, parseOption, ht, hu, checkPeek, next_cons hp, hval u hp.of_cons, next_cons hpe.of_cons, ih]
    · obtain ⟨t, rfl, ht⟩ := one _ h
      simp only [List.cons_append, List.nil_append] at hp ⊢
      simp [optionsLoop, parseOption, ht, hval t hp, next_cons hpe.of_cons, ih]
    · obtain ⟨t, rfl, ht⟩ := one _ h
      simp only [List.cons_append, List.nil_append] at hp ⊢
      simp [optionsLoop, parseOption, ht, hval t hp, next_cons hpe.of_cons, ih]

/-! ## Statements -/

theorem table_consumed {ts : List Token} {t : CreateTable} (h : Table ts t) : Consumes parseCreate ts (.createTable t) := by
  obtain ⟨a, i, n, body, o, cs, rfl, ha, hi, hn, hname, hq, hit, hcs, hd, hc, ho⟩ := h
  obtain ⟨t1, r, rfl, h1, h⟩ := map_type_cons ha
  obtain ⟨t2, r, rfl, h2, h⟩ := map_type_cons h
  obtain rfl := map_type_nil h
  refine ⟨fun r => by simp [h1], fun rest hp hr => ⟨rest, ?_, hp.of_append, .inl rfl⟩⟩
  simp only [List.cons_append, List.nil_append, List.append_assoc] at hp ⊢
  obtain ⟨k, e, hk⟩ := parseIfNotExists_shape (k := t2) (r := n :: opn :: (body ++ cls :: (o ++ rest))) hi (by simp [hn]) (by simpa using hp.of_cons)
  have hk1 := hk.of_cons
  obtain ⟨A, e2, hl⟩ := items_read hq hit hk1.of_cons.of_cons (p := []) keyFirst_nil (apart_of_keyed (items_keyed hit) hd)
  obtain rfl : A = t.constraints := keyFirst_unique hl hcs
  replace e2 := e2 ((body ++ cls :: (o ++ rest)).length + 1) [] (by simp)
  have e3 := options_read ho hr ((o ++ rest).length + 1) (by simp; omega) hk1.of_cons.of_cons.of_append.of_cons
  simp only [List.cons_append] at e
  rw [hname] at e2
  unfold parseCreate
  rw [next_cons hp]
  simp only [bind_ok, curT_cons, h2, if_true]
  unfold parseCreateTable
  rw [e]
  simp only [bind_ok, next_cons hk, checkCur, curT_cons, hn, List.mem_singleton, if_true, curL_cons, next_cons hk1, show opn.type = .OPEN_PAREN from rfl,
    next_cons hk1.of_cons, e2, List.nil_append, e3]
  obtain ⟨cm, ine, nm, cols, cs', os⟩ := t
  simp only at hname hc
  subst hname hc
  rfl

theorem index_consumed {ts : List Token} {x : CreateIndex} (h : Index ts x) : Consumes parseCreate ts (.createIndex x) := by
  obtain ⟨a, i, n, o, tb, u, l, rfl, ha, hi, hn, hname, ho, htb, htn, hu, hl, hc⟩ := h
  obtain ⟨l', rfl⟩ := columns_head hl
  refine ⟨fun r => ?_, fun rest hp hr => ⟨rest, ?_, ?_, .inl rfl⟩⟩
  · cases hx : x.isUnique <;> rw [hx] at ha <;> obtain ⟨t1, r, rfl, h1, h⟩ := map_type_cons ha <;> simp [h1]
  · have key : ∃ t1 k, NoPanic (t1 :: k :: (i ++ n :: o :: tb :: (u ++ opn :: (l' ++ rest)))) ∧ k.type = .INDEX ∧
        ∃ q, next (a ++ (i ++ n :: o :: tb :: (u ++ opn :: (l' ++ rest)))) = .ok q ∧ (curT q = .INDEX ∨ curT q = .UNIQUE) ∧
          parseUnique q = .ok (x.isUnique, k :: (i ++ n :: o :: tb :: (u ++ opn :: (l' ++ rest)))) := by
      cases hx : x.isUnique with
      | false =>
        rw [hx] at ha
        obtain ⟨t1, r, rfl, h1, h⟩ := map_type_cons ha
        obtain ⟨t2, r, rfl, h2, h⟩ := map_type_cons h
        obtain rfl := map_type_nil h
        simp only [List.cons_append, List.nil_append, List.append_assoc] at hp ⊢
        exact ⟨t1, t2, hp, h2, _, next_cons hp, .inl h2, by simp [parseUnique, h2]⟩
      | true =>
        rw [hx] at ha
        obtain ⟨t1, r, rfl, h1, h⟩ := map_type_cons ha
        obtain ⟨t2, r, rfl, h2, h⟩ := map_type_cons h
        obtain ⟨t3, r, rfl, h3, h⟩ := map_type_cons h
        obtain rfl := map_type_nil h
        simp only [List.cons_append, List.nil_append, List.append_assoc] at hp ⊢
        exact ⟨t2, t3, hp.of_cons, h3, _, next_cons hp, .inr h2, by simp [parseUnique, h2, next_cons hp.of_cons]⟩
    obtain ⟨t1, k, hp1, hk, q, e1, hq, e2⟩ := key
    obtain ⟨k', e, hk'⟩ := parseIfNotExists_shape (k := k) (r := n :: o :: tb :: (u ++ opn :: (l' ++ rest))) hi (by simp [hn])
      (by simpa using hp1.of_cons)
    simp only [List.cons_append] at e
    have p1 := hk'.of_cons
    have p2 := p1.of_cons.of_cons.of_cons
    have hus : parseUsing (u ++ opn :: (l' ++ rest)) = .ok (x.using_, opn :: (l' ++ rest)) := by
      rcases hu with ⟨rfl, hx⟩ | ⟨k, m, rfl, hk, hx⟩
      · rw [hx]; simp [parseUsing, opn]
      · simp only [List.cons_append, List.nil_append] at p2 ⊢
        rw [hx]
        simp [parseUsing, hk, next_cons p2, next_cons p2.of_cons, newIdent, given]
    have hl' := columns_read hl (rest := rest) p2.of_append
    simp only [List.cons_append] at hl'
    simp only [List.append_assoc, List.cons_append] at hp ⊢
    unfold parseCreate
    rw [e1]
    have hT : curT q ≠ .TABLE := by rcases hq with h | h <;> rw [h] <;> decide
    simp only [bind_ok, if_neg hT, if_pos hq]
    unfold parseCreateIndex
    rw [e2]
    simp only [bind_ok, e, next_cons hk', next_cons p1, next_cons p1.of_cons, next_cons p1.of_cons.of_cons, checkCur, curT_cons, hn, ho, htb,
      List.mem_singleton, if_true, curL_cons, hus, show opn.type = .OPEN_PAREN from rfl, hl']
    obtain ⟨cm, uq, ine, nm, tn, us, cols⟩ := x
    simp only at hname htn hc
    subst hname htn hc
    rfl
  · intro y hy
    exact hp y (by simp [hy])

theorem statement_consumed (ts : List Token) (x : MStmt) (h : Statement ts x) : Consumes parseCreate ts x := by
  cases h with
  | table t h => exact table_consumed h
  | index x h => exact index_consumed h

end Ddl.My.Written
