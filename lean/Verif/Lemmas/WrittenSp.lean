import Verif.Lemmas.Append
import Verif.Spec.WrittenSp
import Verif.Lemmas.Written
import Verif.Lemmas.SpTable

/-! # Reading Spanner statements as they are written -/

set_option autoImplicit false

namespace Ddl.Sp.Written
open Spec Spec.Written

/-! ## Names -/

/-- The name does not begin with a quotation mark. -/
def Bare (s : Str) : Prop := ∀ c ∈ s.head?, c ∉ ['"', '`', '\'']

theorem rawIdent_bare {s : Str} (h : Bare s) : rawIdent s = given s := by
  cases s with
  | nil => decide
  | cons c r =>
    have : c ≠ '"' ∧ c ≠ '`' ∧ c ≠ '\'' := by simpa [Bare] using h
    simp [rawIdent, newRawIdent, quotationMarks, newRawIdentQ, hasPrefix, this.1.symm, this.2.1.symm, this.2.2.symm, given]

theorem bare_append {T s : Str} (hq : Bare T) (hs : Bare s) : Bare (T ++ s) := by
  cases T with
  | nil => exact hs
  | cons c r => simpa [Bare] using hq

theorem bare_under (s : Str) : Bare ('_' :: s) := by simp [Bare]

theorem named_under {T : Str} (hq : Bare T) (s : Str) : given (T ++ '_' :: s) = rawIdent (T ++ '_' :: s) :=
  (rawIdent_bare (bare_append hq (bare_under s))).symm

/-! ## Expressions -/

theorem signHead {d : Dialect} {ts : List Token} {ws : List Ident} (_h : Bracketed d ts ws) {rest : List Token} (hn : ∀ u ∈ ts.head?, ¬ IsSign u) :
    ¬ (curT (ts ++ cls :: rest) = .EQUAL ∨ curT (ts ++ cls :: rest) = .GREATER ∨ curT (ts ++ cls :: rest) = .LESS) := by
  cases ts with
  | nil => simp [cls]
  | cons t r =>
    have := hn t (by simp)
    simp only [IsSign, List.mem_cons, List.not_mem_nil, or_false] at this
    simpa using this

theorem bracketed_read {ts : List Token} {ws : List Ident} (h : Bracketed .spanner ts ws) : ∀ (n : Nat) (rest : List Token), ts.length + 1 < n →
    NoPanic (ts ++ cls :: rest) → exprLoop n (ts ++ cls :: rest) = .ok (ws ++ [given s%")"], rest) := by
  have hcls : cls.type = .CLOSE_PAREN := rfl
  induction h with
  | nil =>
    intro n rest hn hp
    obtain ⟨n, rfl⟩ : ∃ m, n = m + 1 := ⟨n - 1, by omega⟩
    simp only [List.nil_append] at hp ⊢
    simp [exprLoop, next_cons hp, hcls]
    rfl
  | word t r w h1 h1' h2 _ ih =>
    intro n rest hn hp
    obtain ⟨n, rfl⟩ : ∃ m, n = m + 1 := ⟨n - 1, by omega⟩
    simp only [IsSign, List.mem_cons, List.not_mem_nil, or_false, not_or] at h1 h2
    simp only [List.cons_append, List.length_cons] at hn hp ⊢
    rw [exprLoop, curT_cons, if_neg h2.1, if_neg h2.2.1, if_neg (by simp [h1]), if_neg h2.2.2, next_cons hp]
    simp only [bind_ok]
    rw [ih n _ (by omega) hp.of_cons]
    have : isReservedValue t.type = false := by simpa [isReservedValue, IsLiteral] using h1'
    simp [this, word, rawIdent]
  | constant t r w h1 _ ih =>
    intro n rest hn hp
    obtain ⟨n, rfl⟩ : ∃ m, n = m + 1 := ⟨n - 1, by omega⟩
    simp only [IsLiteral, List.mem_cons, List.not_mem_nil, or_false] at h1
    simp only [List.cons_append, List.length_cons] at hn hp ⊢
    rw [exprLoop, next_cons hp]
    simp only [bind_ok]
    rw [ih n _ (by omega) hp.of_cons]
    rcases h1 with h | h | h <;> simp [h, isReservedValue] <;> rfl
  | sign t r w h1 h2 hr ih =>
    intro n rest hn hp
    obtain ⟨n, rfl⟩ : ∃ m, n = m + 1 := ⟨n - 1, by omega⟩
    have hh := signHead hr (rest := rest) h2
    simp only [IsSign, List.mem_cons, List.not_mem_nil, or_false] at h1
    simp only [List.cons_append, List.length_cons] at hn hp ⊢
    have h3 : t.type ≠ .OPEN_PAREN ∧ t.type ≠ .CLOSE_PAREN := by rcases h1 with h | h | h <;> simp [h]
    rw [exprLoop]
    simp only [curT_cons, if_neg h3.1, if_neg h3.2, if_pos h1, peekT_cons, if_neg hh, bind_ok, next_cons hp]
    rw [ih n _ (by omega) hp.of_cons]
    rfl
  | signs t u r w h1 h2 hr ih =>
    intro n rest hn hp
    obtain ⟨n, rfl⟩ : ∃ m, n = m + 1 := ⟨n - 1, by omega⟩
    simp only [IsSign, List.mem_cons, List.not_mem_nil, or_false] at h1 h2
    simp only [List.cons_append, List.length_cons] at hn hp ⊢
    have h3 : t.type ≠ .OPEN_PAREN ∧ t.type ≠ .CLOSE_PAREN := by rcases h1 with h | h | h <;> simp [h]
    rw [exprLoop]
    simp only [curT_cons, if_neg h3.1, if_neg h3.2, if_pos h1, peekT_cons, if_pos h2, next_cons hp, bind_ok, next_cons hp.of_cons]
    rw [ih n _ (by omega) hp.of_cons.of_cons]
    rfl
  | group a b v w ha hb iha ihb =>
    intro n rest hn hp
    obtain ⟨n, rfl⟩ : ∃ m, n = m + 1 := ⟨n - 1, by omega⟩
    simp only [List.cons_append, List.append_assoc, List.length_cons, List.length_append] at hn hp ⊢
    rw [exprLoop, if_pos (by simp [opn]), next_cons hp]
    simp only [bind_ok]
    rw [iha n (b ++ cls :: rest) (by omega) hp.of_cons]
    simp only [bind_ok]
    rw [ihb n _ (by omega) hp.of_cons.of_append.of_cons]
    simp
    rfl

theorem parseExpr_read {e : List Token} {ws : List Ident} (h : Bracketed .spanner e ws) {rest : List Token} (hp : NoPanic (opn :: (e ++ cls :: rest))) :
    parseExpr (opn :: (e ++ cls :: rest)) = .ok (given s%"(" :: (ws ++ [given s%")"]), rest) := by
  unfold parseExpr
  simp only [checkCur, curT_cons, show opn.type = .OPEN_PAREN from rfl, List.mem_singleton, if_true, bind_ok, next_cons hp]
  rw [bracketed_read h _ _ (by simp) hp.of_cons]
  rfl

/-- What may follow a value. -/
def afterValue : List TokType := [.NOT, .COMMA, .CLOSE_PAREN, .REFERENCES, .CHECK]

theorem valued_read {f : Bool} {ts : List Token} {ws : List Ident} (h : ValueWords .spanner [.IDENT] [] f ts ws) :
    ∀ (n : Nat) (v : Option Expr) (rest : List Token), ts.length < n → (f = false → v ≠ none) → curT rest ∈ afterValue → NoPanic (ts ++ rest) →
    defaultLoop n v (ts ++ rest) = .ok (⟨some (v.getD [] ++ ws)⟩, rest) := by
  induction h with
  | nil =>
    intro n v rest hn hv hr hp
    obtain ⟨n, rfl⟩ : ∃ m, n = m + 1 := ⟨n - 1, by omega⟩
    cases v with
    | none => exact absurd rfl (hv rfl)
    | some e =>
      simp only [afterValue, List.mem_cons, List.not_mem_nil, or_false] at hr
      simp only [List.nil_append]
      unfold defaultLoop
      rcases hr with h | h | h | h | h <;> simp [h, isReservedValue, isConstraint]
  | word f t r w ht _ ih =>
    intro n v rest hn hv hr hp
    obtain ⟨n, rfl⟩ : ∃ m, n = m + 1 := ⟨n - 1, by omega⟩
    simp only [List.cons_append, List.length_cons] at hn hp ⊢
    have ih := ih n (some (v.getD [] ++ [rawIdent t.lit])) rest (by omega) (by simp) hr hp.of_cons
    have ht : t.type = .IDENT := by simpa using ht
    unfold defaultLoop
    rw [curT_cons, if_pos ht, next_cons hp]
    simp only [bind_ok, curL_cons, appendExpr, ih]
    simp [word, rawIdent]
  | later t r w ht _ ih => simp at ht
  | constant f t r w ht _ ih =>
    intro n v rest hn hv hr hp
    obtain ⟨n, rfl⟩ : ∃ m, n = m + 1 := ⟨n - 1, by omega⟩
    simp only [List.cons_append, List.length_cons] at hn hp ⊢
    have hT : t.type = .NULL ∨ t.type = .TRUE ∨ t.type = .FALSE := by simpa [IsLiteral] using ht
    unfold defaultLoop
    rw [if_neg (by rcases hT with h | h | h <;> simp [h]), if_neg (by rcases hT with h | h | h <;> simp [h]),
      if_neg (by rcases hT with h | h | h <;> simp [h]), if_pos (by rcases hT with h | h | h <;> simp [h, isReservedValue]), next_cons hp]
    simp only [bind_ok]
    rw [ih n _ rest (by omega) (by simp [appendExpr]) hr hp.of_cons]
    simp [appendExpr, newIdent]
  | group f a b v w ha hb ih =>
    intro n x rest hn hv hr hp
    obtain ⟨n, rfl⟩ : ∃ m, n = m + 1 := ⟨n - 1, by omega⟩
    simp only [List.cons_append, List.append_assoc, List.length_cons, List.length_append] at hn hp ⊢
    unfold defaultLoop
    rw [if_neg (by simp [opn]), if_pos (by simp [opn]), parseExpr_read ha hp]
    simp only [bind_ok]
    rw [ih n _ rest (by omega) (by simp [appendExpr]) hr hp.of_cons.of_append.of_cons]
    simp [appendExpr]

/-! ## Lists of columns and types -/

theorem parseOrder_read {t : Token} {o : List Token} {b : Option Bool} (h : kinds o = orderTypes b) {rest : List Token}
    (hr : curT rest ∈ [.COMMA, .CLOSE_PAREN]) (hp : NoPanic (t :: (o ++ rest))) :
    ∃ k, parseOrder (t :: (o ++ rest)) = .ok (b, k :: rest) ∧ NoPanic (k :: rest) := by
  simp only [List.mem_cons, List.not_mem_nil, or_false] at hr
  rcases b with _ | _ | _
  · obtain rfl := map_type_nil h
    refine ⟨t, ?_, hp⟩
    simp only [List.nil_append, parseOrder, peekT_cons]
    rcases hr with h | h <;> simp [h]
  · obtain ⟨u, r, rfl, hu, h⟩ := map_type_cons h
    obtain rfl := map_type_nil h
    simp only [List.cons_append, List.nil_append] at hp ⊢
    exact ⟨_, by simp [parseOrder, peekT_cons, next_cons hp, hu], hp.of_cons⟩
  · obtain ⟨u, r, rfl, hu, h⟩ := map_type_cons h
    obtain rfl := map_type_nil h
    simp only [List.cons_append, List.nil_append] at hp ⊢
    exact ⟨_, by simp [parseOrder, peekT_cons, next_cons hp, hu], hp.of_cons⟩

theorem ordered_read {b : List Token} {l : List (Ident × Option Bool)} (h : Ordered .spanner b l) : ∀ (n : Nat) (rest : List Token), b.length + 1 < n →
    NoPanic (b ++ cls :: rest) → columnIdentsLoop n (b ++ cls :: rest) = .ok (l.map fun p => ⟨p.1, p.2⟩, rest) := by
  induction h with
  | one t o b ht ho =>
    intro n rest hn hp
    obtain ⟨n, rfl⟩ : ∃ m, n = m + 2 := ⟨n - 2, by omega⟩
    simp only [List.cons_append] at hp ⊢
    obtain ⟨k, e, hk⟩ := parseOrder_read ho (by simp [cls]) hp
    rw [columnIdentsLoop, if_neg (by simp [ht]), if_pos (by simp [ht]), e]
    simp only [bind_ok, next_cons hk]
    rw [columnIdentsLoop, if_neg (by simp [cls]), if_neg (by simp [cls]), if_pos (by simp [cls]), next_cons hk.of_cons]
    simp [word, rawIdent]
  | cons t k o r b l ht ho hk _ ih =>
    intro n rest hn hp
    obtain ⟨n, rfl⟩ : ∃ m, n = m + 2 := ⟨n - 2, by omega⟩
    simp only [List.cons_append, List.append_assoc, List.length_cons, List.length_append] at hp hn ⊢
    obtain ⟨j, e, hj⟩ := parseOrder_read ho (by simp [hk]) hp
    rw [columnIdentsLoop, if_neg (by simp [ht]), if_pos (by simp [ht]), e]
    simp only [bind_ok, next_cons hj]
    rw [columnIdentsLoop, if_pos (by simp [hk]), next_cons hj.of_cons]
    simp only [bind_ok]
    rw [ih n rest (by omega) hj.of_cons.of_cons]
    simp [word, rawIdent]

theorem columns_read {l : List Token} {cols : List ColumnIdent} (h : Columns l cols) {rest : List Token} (hp : NoPanic (l ++ rest)) :
    parseColumnIdents (l ++ rest) = .ok (cols, rest) := by
  obtain ⟨q, ⟨b, rfl, hb⟩, rfl⟩ := h
  simp only [List.cons_append, List.append_assoc, List.nil_append] at hp ⊢
  unfold parseColumnIdents
  rw [List.length_cons, columnIdentsLoop, if_pos (by simp [opn]), next_cons hp]
  simp only [bind_ok]
  exact ordered_read hb _ _ (by simp) hp.of_cons

theorem columns_head {l : List Token} {cols : List ColumnIdent} (h : Columns l cols) : ∃ r, l = opn :: r := by
  obtain ⟨q, ⟨b, rfl, hb⟩, rfl⟩ := h
  exact ⟨_, rfl⟩

/-- The tokens write the type. -/
abbrev OfType (y : List Token) (dt : DataType) : Prop := Typed .spanner types y dt.name dt.type dt.expr

theorem types_one {w : List TokType} {ty : TokType} (h : (w, ty) ∈ types) : w = [ty] ∧ isDataType ty = true := by
  have : ∀ p ∈ types, p.1 = [p.2] ∧ isDataType p.2 = true := by decide
  exact this _ h

theorem ofType_read {y : List Token} {dt : DataType} (h : OfType y dt) {rest : List Token}
    (hr : curT rest ≠ .OPEN_PAREN) (hp : NoPanic (y ++ rest)) :
    ∃ k, parseDataType (y ++ rest) = .ok (dt, k :: rest) ∧ NoPanic (k :: rest) := by
  obtain ⟨ws, as, h1, h2, h3, h4, h5⟩ := h
  obtain ⟨hw, ht⟩ := types_one h1
  obtain ⟨w, q, rfl, hw, h⟩ := map_type_cons hw
  obtain rfl := map_type_nil h
  obtain ⟨name, ty, expr⟩ := dt
  simp only at h2 h3 hw
  subst h2 h3 hw
  unfold parseDataType
  rcases h5 with ⟨rfl, rfl⟩ | ⟨ha, rfl⟩
  · simp only [List.cons_append, List.nil_append] at hp ⊢
    refine ⟨w, ?_, hp⟩
    simp [hr, peekT_cons, join]
  · simp only [List.cons_append, List.append_assoc, List.nil_append] at hp ⊢
    have e2 : parseIdents (opn :: (as ++ cls :: rest)) = .ok (as.map (fun a => rawIdent a.lit), cls :: rest) := by
      unfold parseIdents
      simp only [List.length_cons]
      rw [identsLoop, if_pos (by simp [opn]), next_cons hp.of_cons]
      simp only [bind_ok]
      exact identsLoop_reads as h4 _ _ (by simp; omega) hp.of_cons.of_cons
    refine ⟨cls, ?_, hp.of_cons.of_cons.of_append⟩
    simp [peekT_cons, next_cons hp, e2, show opn.type = .OPEN_PAREN from rfl, join]
    intro a _
    rfl

theorem ofType_first {y : List Token} {dt : DataType} (h : OfType y dt) (rest : List Token) : isDataType (curT (y ++ rest)) = true := by
  obtain ⟨ws, as, h1, -, -, -, h5⟩ := h
  obtain ⟨hw, ht⟩ := types_one h1
  obtain ⟨u, r', rfl, hu, _⟩ := map_type_cons hw
  rcases h5 with ⟨_, rfl⟩ | ⟨_, rfl⟩ <;> simpa [hu] using ht

/-! ## Attributes -/

/-- What may follow the attributes of a column. -/
def afterAttrs : List TokType := [.COMMA, .CLOSE_PAREN, .REFERENCES, .CHECK]

theorem ofAttributes_read {a : List Token} {x : Attributes} {v : Bool} (h : OfAttributes a x v) {rest : List Token}
    (hr : curT rest ∈ afterAttrs ∨ (v = false ∧ curT rest = .OPTIONS)) :
    ∀ (n : Nat) (d : Option Default) (nn : Bool), a.length < n → NoPanic (a ++ rest) →
    columnAttrsLoop n d nn (a ++ rest) = .ok ((x.default.map fun w => (⟨some w⟩ : Default)).or d, x.nullity.getD nn, rest) := by
  induction h with
  | nil =>
    intro n d nn hn hp
    obtain ⟨n, rfl⟩ : ∃ m, n = m + 1 := ⟨n - 1, by omega⟩
    simp only [List.nil_append, columnAttrsLoop]
    simp only [afterAttrs, List.mem_cons, List.not_mem_nil, or_false] at hr
    rcases hr with (h | h | h | h) | ⟨_, h⟩ <;> simp [h]
  | null k r a v hk ha _ ih =>
    intro n d nn hn hp
    obtain ⟨n, rfl⟩ : ∃ m, n = m + 1 := ⟨n - 1, by omega⟩
    simp only [List.cons_append, List.length_cons] at hn hp ⊢
    rw [columnAttrsLoop]
    simp [hk, next_cons hp, ih hr n _ _ (by omega) hp.of_cons, ha]
  | notNull k j r a v hk hj ha _ ih =>
    intro n d nn hn hp
    obtain ⟨n, rfl⟩ : ∃ m, n = m + 1 := ⟨n - 1, by omega⟩
    simp only [List.cons_append, List.length_cons] at hn hp ⊢
    rw [columnAttrsLoop]
    simp [hk, hj, checkPeek, next_cons hp, next_cons hp.of_cons, ih hr n _ _ (by omega) hp.of_cons.of_cons, ha]
  | default k v r w a l hk hv ha hf _ ih =>
    intro n d nn hn hp
    obtain ⟨n, rfl⟩ : ∃ m, n = m + 1 := ⟨n - 1, by omega⟩
    simp only [List.cons_append, List.append_assoc, List.length_cons, List.length_append] at hn hp ⊢
    have hv' : curT (r ++ rest) ∈ afterValue := by
      cases r with
      | nil =>
        rcases hr with h | ⟨h, _⟩
        · exact List.mem_cons_of_mem _ h
        · simp at h
      | cons t r =>
        simp only [List.map_cons, List.head?_cons, List.mem_cons, List.not_mem_nil, or_false, reduceCtorEq, false_or, Option.some.injEq, kinds] at hf
        simp [hf, afterValue]
    have hr' : curT rest ∈ afterAttrs ∨ (l = false ∧ curT rest = .OPTIONS) := by
      rcases hr with h | ⟨h, h'⟩
      · exact .inl h
      · exact .inr ⟨by simp at h; exact h.2, h'⟩
    rw [columnAttrsLoop]
    simp only [curT_cons, hk, next_cons hp, bind_ok, parseColumnDefault]
    rw [valued_read hv _ none _ (by simp; omega) (by simp) hv' hp.of_cons]
    simp [ih hr' n _ _ (by omega) hp.of_cons.of_append, ha]

theorem ofAttributes_first {a : List Token} {x : Attributes} {v : Bool} (h : OfAttributes a x v) {rest : List Token} (hr : curT rest ≠ .OPEN_PAREN) :
    curT (a ++ rest) ≠ .OPEN_PAREN := by
  cases h with
  | nil => exact hr
  | null k r a v hk => simp [hk]
  | notNull k j r a v hk => simp [hk]
  | default k v r w a l hk => simp [hk]

/-! ## Constraints -/

/-- Where the parser goes on. -/
def onward (exact : Bool) (rest : List Token) : List Token := if exact then rest else rest.tail

/-- What counts of the constraints written so far. -/
abbrev Counts (p A : List Constraint) : Prop := LastWinsAtFirst (fun c : Constraint => c.name.map (·.name)) p A

theorem counts_sub {p A : List Constraint} (h : Counts p A) : ∀ c ∈ A, c ∈ p := by
  intro c hc
  obtain ⟨a, b, rfl, _⟩ := h.1 c hc
  simp

theorem counts_nil {A : List Constraint} (h : Counts [] A) : A = [] := by
  cases A with
  | nil => rfl
  | cons c A => exact absurd (counts_sub h c (by simp)) (by simp)

theorem append_named {A : List Constraint} {c : Constraint} (hA : ∀ x ∈ A, x.name ≠ none) (hc : c.name ≠ none) : ∃ A', appendConstraint A c = .ok A' := by
  induction A with
  | nil => exact ⟨_, rfl⟩
  | cons x A ih =>
    obtain ⟨A', e⟩ := ih fun y hy => hA y (by simp [hy])
    obtain ⟨n, hn⟩ := Option.ne_none_iff_exists'.1 (hA x (by simp))
    obtain ⟨m, hm⟩ := Option.ne_none_iff_exists'.1 hc
    rw [appendConstraint]
    simp only [Constraint.nameStr, hn, hm, bind_ok, e]
    split
    · exact ⟨_, rfl⟩
    · exact ⟨_, rfl⟩

theorem append_counts {p A : List Constraint} {c : Constraint} (h : Counts p A) (hc : Chain (p ++ [c])) :
    ∃ A', appendConstraint A c = .ok A' ∧ Counts (p ++ [c]) A' := by
  have hok : ∃ A', appendConstraint A c = .ok A' := by
    rcases hc with hc | hc
    · obtain rfl : p = [] := by
        cases p with
        | nil => rfl
        | cons x p => simp at hc
      rw [counts_nil h]
      exact ⟨_, rfl⟩
    · exact append_named (fun x hx => hc x (by simp [counts_sub h x hx])) (hc c (by simp))
  obtain ⟨A', e⟩ := hok
  refine ⟨A', e, appendAll_lastWins [c] p A A' h ?_⟩
  rw [appendAll, e]
  rfl

theorem chain_left {a b : List Constraint} (h : Chain (a ++ b)) : Chain a := by
  rcases h with h | h
  · exact .inl (by simp at h; omega)
  · exact .inr fun c hc => h c (by simp [hc])

theorem appendAll_counts {l : List Constraint} : ∀ {p A : List Constraint}, Counts p A → Chain (p ++ l) → ∃ A', appendAll A l = .ok A' ∧ Counts (p ++ l) A' := by
  induction l with
  | nil => intro p A h _; exact ⟨A, rfl, by simpa using h⟩
  | cons c l ih =>
    intro p A h hc
    rw [List.append_cons] at hc
    obtain ⟨A1, e1, h1⟩ := append_counts h (chain_left hc)
    obtain ⟨A2, e2, h2⟩ := ih h1 hc
    exact ⟨A2, by rw [appendAll, e1]; exact e2, by simpa using h2⟩

theorem ofColumns_read {tbl col : Ident} (hq : Bare tbl.name) {ts : List Token} {cs : List Constraint} {ex : Bool}
    (h : OfColumns tbl.name col ts cs ex) {rest : List Token} (hr : curT rest ∈ [.COMMA, .CLOSE_PAREN] ∨ (ex = true ∧ curT rest = .OPTIONS))
    (hex : ex = true ∨ curT rest.tail = .IDENT) (hp : NoPanic (ts ++ rest)) :
    parseColumnConstraints tbl col (ts ++ rest) = .ok (cs, onward ex rest) := by
  unfold parseColumnConstraints
  rcases h with ⟨rfl, rfl, rfl⟩ | ⟨c, h, rfl, rfl⟩
  · simp only [List.nil_append, onward, if_true]
    rw [columnConstraintsLoop]
    simp only [List.mem_cons, List.not_mem_nil, or_false] at hr
    rcases hr with (h | h) | ⟨_, h⟩ <;> simp [h]
  · have hi : curT rest.tail = .IDENT := by simpa using hex
    have stop : ∀ n l, columnConstraintsLoop tbl col (n + 1) l rest.tail = .ok (l, rest.tail) := by
      intro n l; rw [columnConstraintsLoop]; simp [hi]
    cases h with
    | refers k ref l cols hk href hl =>
      simp only [List.cons_append, List.append_assoc, List.nil_append, named_under hq] at hp ⊢
      rw [columnConstraintsLoop]
      simp only [curT_cons, curL_cons, peekT_cons, hk, checkPeek, href, next_cons hp, next_cons hp.of_cons, columns_read hl hp.of_cons.of_cons, bind_ok,
        NoPanic.next hp.of_cons.of_cons.of_append, appendConstraint]
      simp [Ident.diffStr, onward, word, rawIdent, stop]
    | check k e ws hk he =>
      simp only [List.cons_append, List.append_assoc, List.nil_append, named_under hq] at hp ⊢
      rw [columnConstraintsLoop]
      simp only [curT_cons, peekT_cons, hk, checkPeek, show opn.type = .OPEN_PAREN from rfl, next_cons hp, bind_ok, parseExpr_read he hp.of_cons,
        NoPanic.next hp.of_cons.of_cons.of_append.of_cons, appendConstraint]
      simp [onward, Ident.diffStr, stop]

theorem ofColumns_first {T : Str} {col : Ident} {ts : List Token} {cs : List Constraint} {ex : Bool} (h : OfColumns T col ts cs ex) {rest : List Token}
    {v : Bool} (hr : curT rest ∈ [.COMMA, .CLOSE_PAREN] ∨ (ex = true ∧ v = false ∧ curT rest = .OPTIONS)) :
    curT (ts ++ rest) ∈ afterAttrs ∨ (v = false ∧ curT (ts ++ rest) = .OPTIONS) := by
  rcases h with ⟨rfl, rfl, rfl⟩ | ⟨c, h, rfl, rfl⟩
  · simp only [List.mem_cons, List.not_mem_nil, or_false] at hr
    rcases hr with (h | h) | ⟨_, h, h'⟩
    · exact .inl (by simp [h, afterAttrs])
    · exact .inl (by simp [h, afterAttrs])
    · exact .inr ⟨h, h'⟩
  · refine .inl ?_
    cases h with
    | refers k ref l cols hk href hl => simp [hk, afterAttrs]
    | check k e ws hk he => simp [hk, afterAttrs]

theorem optional_read {o : List Token} {x : Option Expr} (h : Optional o x) {rest : List Token} (hr : curT rest ≠ .OPTIONS) (hp : NoPanic (o ++ rest)) :
    parseColumnOptions (o ++ rest) = .ok (x, rest) := by
  rcases h with ⟨rfl, rfl⟩ | ⟨k, e, ws, rfl, hk, he, rfl⟩
  · simp [parseColumnOptions, hr]
  · simp only [List.cons_append, List.append_assoc, List.nil_append] at hp ⊢
    simp [parseColumnOptions, hk, next_cons hp, parseExpr_read he hp.of_cons]

theorem named_read {a : List Token} {dflt : Str} {n : Ident} (h : Spec.Written.Named .spanner a dflt n) {rest : List Token} (hp : NoPanic (a ++ rest))
    (hr : curT rest ≠ .CONSTRAINT) : ∃ o : Option Ident, parseConstraintName (a ++ rest) = .ok (o, rest) ∧ o.getD (given dflt) = n := by
  rcases h with ⟨rfl, rfl⟩ | ⟨k, t, rfl, hk, ht, rfl⟩
  · exact ⟨none, by simp [parseConstraintName, hr], rfl⟩
  · simp only [List.cons_append, List.nil_append] at hp ⊢
    exact ⟨some (word .spanner t), by simp [parseConstraintName, hk, ht, next_cons hp, next_cons hp.of_cons, word, rawIdent], rfl⟩

theorem underscored_flatMap (l : List ColumnIdent) :
    underscored l = l.flatMap fun c => s%"_" ++ c.ident.name ++ (if c.order = some true then s%" DESC" else s%" ASC") := by
  simp [underscored, List.flatMap, ColumnIdent.diffStr, Ident.diffStr]

theorem labelled_read {a : List Token} {n : Option Ident} (h : Labelled a n) {rest : List Token} (hp : NoPanic (a ++ rest))
    (hr : curT rest ≠ .CONSTRAINT) : parseConstraintName (a ++ rest) = .ok (n, rest) := by
  rcases h with ⟨rfl, rfl⟩ | ⟨k, t, rfl, hk, ht, rfl⟩
  · simp [parseConstraintName, hr]
  · simp only [List.cons_append, List.nil_append] at hp ⊢
    simp [parseConstraintName, hk, ht, next_cons hp, next_cons hp.of_cons, word, rawIdent]

theorem ofTable_read {tbl : Ident} (hq : Bare tbl.name) {ts : List Token} {c : Constraint} (h : OfTable tbl.name ts c) {rest : List Token}
    (hp : NoPanic (ts ++ rest)) : parseTableConstraint tbl (ts ++ rest) = .ok (c, rest) := by
  unfold parseTableConstraint
  cases h with
  | foreignKey a k l m r ref n cols refs hn hk hl hrf href hm =>
    obtain ⟨t, r', rfl, ht, h⟩ := map_type_cons hk
    obtain ⟨u, r', rfl, hu, h⟩ := map_type_cons h
    obtain rfl := map_type_nil h
    obtain ⟨l, rfl⟩ := columns_head hl
    simp only [List.append_assoc, List.cons_append, List.nil_append] at hp ⊢
    obtain ⟨o, e, ho⟩ := named_read hn hp (by simp [ht])
    have hp := hp.of_append
    have hl' := columns_read hl hp.of_cons.of_cons
    have hp2 : NoPanic (r :: ref :: (m ++ rest)) := hp.of_cons.of_cons.of_cons.of_append
    have hm' := columns_read hm hp2.of_cons.of_cons
    simp only [List.cons_append] at hl'
    rw [e]
    have hB : Bare (tbl.name ++ ((cols.flatMap fun c => s%"_" ++ c.ident.name ++ (if c.order = some true then s%" DESC" else s%" ASC")) ++ s%"_fkey")) :=
      bare_append hq (by cases cols <;> simp [Bare])
    rw [List.append_assoc, ← rawIdent_bare hB, ← List.append_assoc] at ho
    simp only [bind_ok, curT_cons, ht, hu, checkPeek, checkCur, peekT_cons, next_cons hp, next_cons hp.of_cons, hl', if_true, List.mem_singleton,
      show opn.type = .OPEN_PAREN from rfl, Ident.diffStr, underscored_flatMap, hrf, href, next_cons hp2,
      next_cons hp2.of_cons, hm', curL_cons]
    subst ho
    simp [word, rawIdent]
  | check a e k n ws hn hk he =>
    simp only [List.append_assoc, List.cons_append, List.nil_append] at hp ⊢
    rw [labelled_read hn hp (by simp [hk])]
    simp [hk, checkPeek, show opn.type = .OPEN_PAREN from rfl, next_cons hp.of_append, parseExpr_read he hp.of_append.of_cons]

theorem ofTable_first {T : Str} {ts : List Token} {c : Constraint} (h : OfTable T ts c) (rest : List Token) :
    isConstraint (curT (ts ++ rest)) = true ∧ curT (ts ++ rest) ≠ .IDENT ∧ 1 ≤ ts.length := by
  cases h with
  | foreignKey a k l m r' ref n cols refs hn hk hl hrf href hm =>
    obtain ⟨t, r, rfl, ht, h⟩ := map_type_cons hk
    rcases hn with ⟨rfl, _⟩ | ⟨k, j, rfl, hk, _⟩
    · simp [ht, isConstraint]
    · simp [hk, isConstraint]
  | check a e k n ws hn hk he =>
    rcases hn with ⟨rfl, _⟩ | ⟨k, j, rfl, hk, _⟩
    · simp [hk, isConstraint]
    · simp [hk, isConstraint]

/-! ## Items -/

theorem item_read {tbl : Ident} (hq : Bare tbl.name) {ts : List Token} {cols : List Column} {cs : List Constraint} {ex : Bool}
    (h : Item tbl.name ts cols cs ex) {rest : List Token} (hr : curT rest ∈ [.COMMA, .CLOSE_PAREN]) (hex : ex = true ∨ curT rest.tail = .IDENT)
    (hp : NoPanic (ts ++ rest)) {p A : List Constraint} (hA : Counts p A) (hd : Chain (p ++ cs)) :
    ∃ A', (∀ (n : Nat) (C : List Column), tableLoop tbl (n + 1) C A (ts ++ rest) = tableLoop tbl n (C ++ cols) A' (onward ex rest)) ∧ Counts (p ++ cs) A' := by
  cases h with
  | column nm y a r o x v c cs ex hnm hname hty hat h1 h2 hcs ho hov =>
    simp only [List.cons_append, List.append_assoc] at hp ⊢
    have hro : curT (o ++ rest) ∈ [.COMMA, .CLOSE_PAREN] ∨ (ex = true ∧ v = false ∧ curT (o ++ rest) = .OPTIONS) := by
      rcases ho with ⟨rfl, _⟩ | ⟨k, e, ws, rfl, hk, _⟩
      · exact .inl hr
      · have := hov.resolve_left (by simp)
        exact .inr ⟨this.1, this.2, by simpa using hk⟩
    have hf := ofColumns_first hcs hro
    have hfo : curT (r ++ (o ++ rest)) ≠ .OPEN_PAREN := by
      rcases hf with h | ⟨_, h⟩
      · intro e; rw [e] at h; revert h; decide
      · simp [h]
    obtain ⟨k, e, hk⟩ := ofType_read hty (ofAttributes_first hat hfo) hp.of_cons
    have hpr := hk.of_cons.of_append
    have hexo : ex = true ∨ curT (o ++ rest).tail = .IDENT := by
      rcases hov with rfl | h
      · exact hex
      · exact .inl h.1
    have hcon : parseColumnConstraints tbl c.name (r ++ (o ++ rest)) = .ok (cs, onward ex (o ++ rest)) :=
      ofColumns_read hq hcs (hro.imp id fun h => ⟨h.1, h.2.2⟩) hexo hpr
    have hopt : parseColumnOptions (onward ex (o ++ rest)) = .ok (c.options, onward ex rest) := by
      cases ex with
      | true =>
        simp only [onward, if_true]
        refine optional_read ho ?_ hpr.of_append
        intro e; rw [e] at hr; revert hr; decide
      | false =>
        have : o = [] := by simpa using hov
        subst this
        have e : c.options = none := by
          rcases ho with ⟨_, h⟩ | ⟨k, e, ws, h, _⟩
          · exact h
          · simp at h
        have hi : curT rest.tail = .IDENT := by simpa using hex
        simp [onward, parseColumnOptions, hi, e]
    have e2 : appendAll [] cs = .ok cs := by
      rcases hcs with ⟨_, rfl, _⟩ | ⟨c, _, rfl, _⟩ <;> simp [appendAll, appendConstraint]
    have hcol : parseColumn tbl (nm :: (y ++ (a ++ (r ++ (o ++ rest))))) = .ok (c, cs, onward ex rest) := by
      unfold parseColumn
      simp only [checkCur, curT_cons, hnm, List.mem_singleton, if_true, bind_ok, curL_cons, next_cons hp, ofType_first hty, e, next_cons hk]
      rw [ofAttributes_read hat hf _ _ _ (by simp; omega) hk.of_cons]
      have e1 : rawIdent nm.lit = c.name := hname.symm
      simp only [bind_ok, e1, hcon, e2, hopt]
      obtain ⟨cn, dt, df, nn, op⟩ := c
      simp only at h1 h2
      subst h1 h2
      have : x.nullity.getD false = (x.nullity == some true) := by
        cases x.nullity with
        | none => rfl
        | some b => cases b <;> rfl
      simp [this]
    obtain ⟨A', e3, h3⟩ := appendAll_counts hA hd
    refine ⟨A', fun n C => ?_, h3⟩
    rw [tableLoop, if_pos (by simp [hnm]), hcol]
    simp only [bind_ok]
    rw [e3]
    rfl
  | constraint ts c h =>
    obtain ⟨h1, h2, _⟩ := ofTable_first h rest
    obtain ⟨A', e3, h3⟩ := append_counts hA hd
    refine ⟨A', fun n C => ?_, h3⟩
    rw [tableLoop, if_neg h2, if_pos h1, ofTable_read hq h hp]
    simp only [bind_ok]
    rw [e3]
    simp [onward]

theorem item_length {T : Str} {ts : List Token} {cols : List Column} {cs : List Constraint} {ex : Bool} (h : Item T ts cols cs ex) : 1 ≤ ts.length := by
  cases h with
  | column nm => simp
  | constraint ts c h => exact (ofTable_first h []).2.2

theorem items_read {tbl : Ident} (hq : Bare tbl.name) {ts : List Token} {cols : List Column} {cs : List Constraint}
    (h : Items (Item tbl.name) ts cols cs) {rest : List Token} :
    NoPanic (ts ++ cls :: rest) → ∀ {p A : List Constraint}, Counts p A → Chain (p ++ cs) → ∃ A',
    (∀ (n : Nat) (C : List Column), ts.length + 1 ≤ n → tableLoop tbl n C A (ts ++ cls :: rest) = .ok (C ++ cols, A', rest)) ∧ Counts (p ++ cs) A' := by
  induction h with
  | one ts cols cs h =>
    intro hp p A hA hd
    have := item_length h
    obtain ⟨A', e, hl⟩ := item_read hq h (by simp [cls]) (.inl rfl) hp hA hd
    refine ⟨A', fun n C hn => ?_, hl⟩
    obtain ⟨n, rfl⟩ : ∃ m, n = m + 2 := ⟨n - 2, by omega⟩
    rw [e]
    simp only [onward, if_true]
    rw [tableLoop, if_neg (by simp [cls]), if_neg (by simp [cls, isConstraint]), if_neg (by simp [cls]), if_pos (by simp [cls]), next_cons hp.of_append]
    rfl
  | cons ts r k cols cols' cs cs' ex h hk hex _ ih =>
    intro hp p A hA hd
    have := item_length h
    simp only [List.append_assoc, List.cons_append] at hp ⊢
    have hp2 := hp.of_append
    rw [← List.append_assoc] at hd
    obtain ⟨A1, e1, hl1⟩ := item_read hq h (by simp [hk]) (by
      rcases hex with h | h
      · exact .inl h
      · refine .inr ?_
        cases r with
        | nil => simp at h
        | cons t r => simpa using h) hp hA (chain_left hd)
    obtain ⟨A2, e2, hl2⟩ := ih hp2.of_cons hl1 hd
    refine ⟨A2, fun n C hn => ?_, by simpa using hl2⟩
    simp only [List.length_append, List.length_cons] at hn
    obtain ⟨n, rfl⟩ : ∃ m, n = m + 2 := ⟨n - 2, by omega⟩
    rw [e1]
    have ih1 := e2 (n + 1) (C ++ cols) (by omega)
    have ih2 := e2 n (C ++ cols) (by omega)
    cases ex with
    | true =>
      simp only [onward, if_true]
      rw [tableLoop, if_neg (by simp [hk]), if_neg (by simp [hk, isConstraint]), if_pos (by simp [hk]), next_cons hp2]
      simp only [bind_ok, ih2, List.append_assoc]
    | false =>
      simp only [onward, Bool.false_eq_true, if_false, List.tail_cons, ih1, List.append_assoc]

/-! ## Options -/

theorem expect_read {T : TokType} {k t : Token} {r : List Token} (hp : NoPanic (k :: t :: r)) (ht : t.type = T) :
    expect T (k :: t :: r) = .ok (t.lit, t :: r) := by
  simp [expect, next_cons hp, checkCur, ht]

theorem options_first {o : List Token} {l : List TableOption} {p : Option TableOption} (h : Options o l p) {rest : List Token}
    (hr : rest = [] ∨ curT rest = .SEMICOLON) : curT (o ++ rest) ≠ .ON := by
  cases h with
  | nil =>
    rcases hr with rfl | h
    · simp [show curT [] = .EOF from rfl]
    · simp [h]
  | comma k r os p hk => simp [hk]
  | primaryKey k e r ws os p hk => obtain ⟨t, q, rfl, ht, h⟩ := map_type_cons hk; simp [ht]
  | interleave k act r t x os p hk => obtain ⟨t, q, rfl, ht, h⟩ := map_type_cons hk; simp [ht]
  | policy k e r os hk => obtain ⟨t, q, rfl, ht, h⟩ := map_type_cons hk; simp [ht]

theorem deletes_read {act : List Token} {x : List Ident} (h : Deletes act x) {t : Token} {rest : List Token} (hr : curT rest ≠ .ON)
    (hp : NoPanic (t :: (act ++ rest))) : ∃ k, parseInterleaveAction (t :: (act ++ rest)) = .ok (x, k :: rest) ∧ NoPanic (k :: rest) := by
  rcases h with ⟨rfl, rfl⟩ | ⟨h, rfl⟩ | ⟨h, rfl⟩
  · exact ⟨t, by simp [parseInterleaveAction, hr], hp⟩
  · obtain ⟨a, q, rfl, ha, h⟩ := map_type_cons h
    obtain ⟨b, q, rfl, hb, h⟩ := map_type_cons h
    obtain ⟨c, q, rfl, hc, h⟩ := map_type_cons h
    obtain rfl := map_type_nil h
    simp only [List.cons_append, List.nil_append] at hp ⊢
    refine ⟨c, ?_, hp.of_cons.of_cons.of_cons⟩
    simp [parseInterleaveAction, ha, next_cons hp, expect_read hp.of_cons hb, next_cons hp.of_cons.of_cons, hc]
    rfl
  · obtain ⟨a, q, rfl, ha, h⟩ := map_type_cons h
    obtain ⟨b, q, rfl, hb, h⟩ := map_type_cons h
    obtain ⟨c, q, rfl, hc, h⟩ := map_type_cons h
    obtain ⟨d, q, rfl, hd, h⟩ := map_type_cons h
    obtain rfl := map_type_nil h
    simp only [List.cons_append, List.nil_append] at hp ⊢
    refine ⟨d, ?_, hp.of_cons.of_cons.of_cons.of_cons⟩
    simp [parseInterleaveAction, ha, next_cons hp, expect_read hp.of_cons hb, next_cons hp.of_cons.of_cons, hc, expect_read hp.of_cons.of_cons.of_cons hd]
    rfl

theorem options_read {o : List Token} {l : List TableOption} {p : Option TableOption} (h : Options o l p) {rest : List Token}
    (hr : rest = [] ∨ curT rest = .SEMICOLON) :
    ∀ (n : Nat) (os : List TableOption) (q : Option TableOption), o.length < n → NoPanic (o ++ rest) →
    optionsLoop n os q (o ++ rest) = .ok (os ++ l, p.or q, rest) := by
  induction h with
  | nil =>
    intro n os q hn hp
    obtain ⟨n, rfl⟩ : ∃ m, n = m + 1 := ⟨n - 1, by omega⟩
    simp only [List.nil_append]
    rw [optionsLoop]
    rcases hr with rfl | h
    · simp [show curT [] = .EOF from rfl]
    · simp [h]
  | comma k r l p hk _ ih =>
    intro n os q hn hp
    obtain ⟨n, rfl⟩ : ∃ m, n = m + 1 := ⟨n - 1, by omega⟩
    simp only [List.cons_append, List.length_cons] at hn hp ⊢
    rw [optionsLoop]
    simp [hk, next_cons hp, ih n _ _ (by omega) hp.of_cons]
  | primaryKey k e r ws l p hk he _ ih =>
    intro n os q hn hp
    obtain ⟨n, rfl⟩ : ∃ m, n = m + 1 := ⟨n - 1, by omega⟩
    obtain ⟨a, k, rfl, ha, h⟩ := map_type_cons hk
    obtain ⟨b, k, rfl, hb, h⟩ := map_type_cons h
    obtain rfl := map_type_nil h
    simp only [List.cons_append, List.nil_append, List.append_assoc, List.length_cons, List.length_append] at hn hp ⊢
    rw [optionsLoop]
    simp [ha, expect_read hp hb, next_cons hp.of_cons, parseExpr_read he hp.of_cons.of_cons,
      ih n _ _ (by omega) hp.of_cons.of_cons.of_cons.of_append.of_cons]
  | interleave k act r t x l p hk ht hx hr' ih =>
    intro n os q hn hp
    obtain ⟨n, rfl⟩ : ∃ m, n = m + 1 := ⟨n - 1, by omega⟩
    obtain ⟨a, k, rfl, ha, h⟩ := map_type_cons hk
    obtain ⟨b, k, rfl, hb, h⟩ := map_type_cons h
    obtain ⟨c, k, rfl, hc, h⟩ := map_type_cons h
    obtain rfl := map_type_nil h
    simp only [List.cons_append, List.nil_append, List.append_assoc, List.length_cons, List.length_append] at hn hp ⊢
    obtain ⟨j, e, hj⟩ := deletes_read hx (options_first hr' hr) hp.of_cons.of_cons.of_cons
    rw [optionsLoop]
    simp [ha, parseInterleave, expect_read hp hb, expect_read hp.of_cons hc, expect_read hp.of_cons.of_cons ht, e, next_cons hj,
      ih n _ _ (by omega) hj.of_cons, word, rawIdent]
  | policy k e r l hk he _ ih =>
    intro n os q hn hp
    obtain ⟨n, rfl⟩ : ∃ m, n = m + 1 := ⟨n - 1, by omega⟩
    obtain ⟨a, k, rfl, ha, h⟩ := map_type_cons hk
    obtain ⟨b, k, rfl, hb, h⟩ := map_type_cons h
    obtain ⟨c, k, rfl, hc, h⟩ := map_type_cons h
    obtain rfl := map_type_nil h
    obtain ⟨e1, e, rfl, h1, h⟩ := map_type_cons he
    obtain ⟨e2, e, rfl, h2, h⟩ := map_type_cons h
    obtain ⟨e3, e, rfl, h3, h⟩ := map_type_cons h
    obtain ⟨e4, e, rfl, h4, h⟩ := map_type_cons h
    obtain ⟨e5, e, rfl, h5, h⟩ := map_type_cons h
    obtain ⟨e6, e, rfl, h6, h⟩ := map_type_cons h
    obtain ⟨e7, e, rfl, h7, h⟩ := map_type_cons h
    obtain ⟨e8, e, rfl, h8, h⟩ := map_type_cons h
    obtain ⟨e9, e, rfl, h9, h⟩ := map_type_cons h
    obtain ⟨e10, e, rfl, h10, h⟩ := map_type_cons h
    obtain rfl := map_type_nil h
    simp only [List.cons_append, List.nil_append, List.append_assoc, List.length_cons, List.length_append] at hn hp ⊢
    have p3 := hp.of_cons.of_cons
    have p6 := p3.of_cons.of_cons.of_cons
    have p9 := p6.of_cons.of_cons.of_cons
    have p12 := p9.of_cons.of_cons.of_cons
    rw [optionsLoop]
    simp [ha, parseRowDeletionPolicy, expect_read hp hb, expect_read hp.of_cons hc, expect_read p3 h1, expect_read p3.of_cons h2,
      expect_read p3.of_cons.of_cons h3, expect_read p6 h4, expect_read p6.of_cons h5, expect_read p6.of_cons.of_cons h6, expect_read p9 h7,
      expect_read p9.of_cons h8, expect_read p9.of_cons.of_cons h9, expect_read p12 h10, next_cons p12.of_cons, ih n _ _ (by omega) p12.of_cons.of_cons,
      word, rawIdent]

/-! ## Statements -/

theorem table_consumed {ts : List Token} {t : CreateTable} (h : Table ts t) : Consumes parseCreate ts (.createTable t) := by
  obtain ⟨a, i, n, body, o, written, rfl, ha, hi, hn, hname, hq, hit, hd, hch, hc, ho⟩ := h
  obtain ⟨t1, r, rfl, h1, h⟩ := map_type_cons ha
  obtain ⟨t2, r, rfl, h2, h⟩ := map_type_cons h
  obtain rfl := map_type_nil h
  refine ⟨fun r => by simp [h1], fun rest hp hr => ⟨rest, ?_, hp.of_append, .inl rfl⟩⟩
  simp only [List.cons_append, List.nil_append, List.append_assoc] at hp ⊢
  obtain ⟨k, e, hk⟩ := parseIfNotExists_shape (k := t2) (r := n :: opn :: (body ++ cls :: (o ++ rest))) hi (by simp [hn]) (by simpa using hp.of_cons)
  have hk1 := hk.of_cons
  obtain ⟨A, e2, hl⟩ := items_read hq hit hk1.of_cons.of_cons (p := []) (A := []) lastWinsAtFirst_nil (by simpa [Chain, Named] using hch)
  obtain rfl : A = t.constraints := LastWinsAtFirst.unique hl (by simpa using hd)
  replace e2 := e2 ((body ++ cls :: (o ++ rest)).length + 1) [] (by simp)
  have e3 := options_read ho hr ((o ++ rest).length + 1) [] none (by simp; omega) hk1.of_cons.of_cons.of_append.of_cons
  simp only [List.cons_append] at e
  rw [hname] at e2
  unfold parseCreate
  rw [next_cons hp]
  simp only [bind_ok, curT_cons, h2, if_true]
  unfold parseCreateTable
  rw [e]
  simp only [bind_ok, next_cons hk, checkCur, curT_cons, hn, List.mem_singleton, if_true, curL_cons, next_cons hk1, show opn.type = .OPEN_PAREN from rfl,
    next_cons hk1.of_cons, e2, List.nil_append, e3]
  obtain ⟨cm, ine, nm, cols, cs', os, p⟩ := t
  simp only at hname hc
  subst hname hc
  simp

theorem index_consumed {ts : List Token} {x : CreateIndex} (h : Index ts x) : Consumes parseCreate ts (.createIndex x) := by
  obtain ⟨a, i, n, o, tb, u, l, rfl, ha, hi, hn, hname, ho, htb, htn, hu, hl, hc⟩ := h
  obtain ⟨l', rfl⟩ := columns_head hl
  refine ⟨fun r => ?_, fun rest hp hr => ⟨rest, ?_, ?_, .inl rfl⟩⟩
  · cases hx : x.isUnique <;> rw [hx] at ha <;> obtain ⟨t1, r, rfl, h1, h⟩ := map_type_cons ha <;> simp [h1]
  · have key : ∃ t1 k, NoPanic (t1 :: k :: (i ++ n :: o :: tb :: (u ++ opn :: (l' ++ rest)))) ∧ k.type = .INDEX ∧
        ∃ q, next (a ++ (i ++ n :: o :: tb :: (u ++ opn :: (l' ++ rest)))) = .ok q ∧ (curT q = .INDEX ∨ curT q = .UNIQUE) ∧
          parseUnique q = .ok (x.isUnique, k :: (i ++ n :: o :: tb :: (u ++ opn :: (l' ++ rest)))) := by
      cases hx : x.isUnique with
      | false =>
        rw [hx] at ha
        obtain ⟨t1, r, rfl, h1, h⟩ := map_type_cons ha
        obtain ⟨t2, r, rfl, h2, h⟩ := map_type_cons h
        obtain rfl := map_type_nil h
        simp only [List.cons_append, List.nil_append, List.append_assoc] at hp ⊢
        exact ⟨t1, t2, hp, h2, _, next_cons hp, .inl h2, by simp [parseUnique, h2]⟩
      | true =>
        rw [hx] at ha
        obtain ⟨t1, r, rfl, h1, h⟩ := map_type_cons ha
        obtain ⟨t2, r, rfl, h2, h⟩ := map_type_cons h
        obtain ⟨t3, r, rfl, h3, h⟩ := map_type_cons h
        obtain rfl := map_type_nil h
        simp only [List.cons_append, List.nil_append, List.append_assoc] at hp ⊢
        exact ⟨t2, t3, hp.of_cons, h3, _, next_cons hp, .inr h2, by simp [parseUnique, h2, next_cons hp.of_cons]⟩
    obtain ⟨t1, k, hp1, hk, q, e1, hq, e2⟩ := key
    obtain ⟨k', e, hk'⟩ := parseIfNotExists_shape (k := k) (r := n :: o :: tb :: (u ++ opn :: (l' ++ rest))) hi (by simp [hn])
      (by simpa using hp1.of_cons)
    simp only [List.cons_append] at e
    have p1 := hk'.of_cons
    have p2 := p1.of_cons.of_cons.of_cons
    have hus : parseUsing (u ++ opn :: (l' ++ rest)) = .ok (x.using_, opn :: (l' ++ rest)) := by
      rcases hu with ⟨rfl, hx⟩ | ⟨k, m, rfl, hk, hx⟩
      · rw [hx]; simp [parseUsing, opn]
      · simp only [List.cons_append, List.nil_append] at p2 ⊢
        rw [hx]
        simp [parseUsing, hk, next_cons p2, next_cons p2.of_cons, newIdent, given]
    have hl' := columns_read hl (rest := rest) p2.of_append
    simp only [List.cons_append] at hl'
    simp only [List.append_assoc, List.cons_append] at hp ⊢
    unfold parseCreate
    rw [e1]
    have hT : curT q ≠ .TABLE := by rcases hq with h | h <;> rw [h] <;> decide
    simp only [bind_ok, if_neg hT, if_pos hq]
    unfold parseCreateIndex
    rw [e2]
    simp only [bind_ok, e, next_cons hk', next_cons p1, next_cons p1.of_cons, next_cons p1.of_cons.of_cons, checkCur, curT_cons, hn, ho, htb,
      List.mem_singleton, if_true, curL_cons, hus, show opn.type = .OPEN_PAREN from rfl, hl']
    obtain ⟨cm, uq, ine, nm, tn, us, cols⟩ := x
    simp only at hname htn hc
    subst hname htn hc
    rfl
  · intro y hy
    exact hp y (by simp [hy])

theorem statement_consumed (ts : List Token) (x : SStmt) (h : Statement ts x) : Consumes parseCreate ts x := by
  cases h with
  | table t h => exact table_consumed h
  | index x h => exact index_consumed h

end Ddl.Sp.Written
