import Verif.Lemmas.PgTable
import Verif.Spec.ShowPg

/-! # PostgreSQL: reading the tokens of what `ShowCreateAllTables` prints -/

namespace Ddl.Pg.Show
open Spec
set_option autoImplicit false

/-! ## Default values -/

theorem plain_raw (s : Str) (h : newRawIdent .postgres s = plain s) : rawIdent s = plain s := h

theorem Inner.head {ts : List Token} {ws : List Ident} (h : Inner ts ws) {rest : List Token} (hn : ∀ u ∈ ts.head?, ¬ IsCmp u) :
    ¬ (curT (ts ++ closeTok :: rest) = .EQUAL ∨ curT (ts ++ closeTok :: rest) = .GREATER ∨ curT (ts ++ closeTok :: rest) = .LESS) := by
  cases ts with
  | nil => simp
  | cons t r =>
    have := hn t (by simp)
    simp only [IsCmp, List.mem_cons, List.not_mem_nil, or_false] at this
    simpa using this

theorem exprLoop_inner {ts : List Token} {ws : List Ident} (h : Inner ts ws) : ∀ (n : Nat) (rest : List Token), ts.length + 1 < n →
    NoPanic (ts ++ closeTok :: rest) → exprLoop n (ts ++ closeTok :: rest) = .ok (ws ++ [plain s%")"], rest) := by
  induction h with
  | nil =>
    intro n rest hn hp
    obtain ⟨n, rfl⟩ : ∃ m, n = m + 1 := ⟨n - 1, by omega⟩
    simp only [List.nil_append] at hp ⊢
    simp [exprLoop, next_cons hp]
    rfl
  | word t r w h1 h2 _ ih =>
    intro n rest hn hp
    obtain ⟨n, rfl⟩ : ∃ m, n = m + 1 := ⟨n - 1, by omega⟩
    simp only [IsCmp, List.mem_cons, List.not_mem_nil, or_false, not_or] at h1 h2
    simp only [List.cons_append, List.length_cons] at hn hp ⊢
    rw [exprLoop, curT_cons, if_neg h2.1, if_neg h2.2.1, if_neg (by simp [h1]), if_neg h2.2.2, next_cons hp]
    simp only [bind_ok]
    rw [ih n _ (by omega) hp.of_cons]
    simp only [bind_ok, curL_cons]
    have : isReservedValue t.type = decide (IsConstant t) := by simp [isReservedValue, IsConstant]
    simp only [this, decide_eq_true_eq, innerWord]
    split
    · rename_i hc
      simp only [IsConstant, List.mem_cons, List.not_mem_nil, or_false] at hc
      rcases hc with hc | hc | hc <;> rw [hc] <;> rfl
    · rfl
  | sign t r w h1 h2 hr ih =>
    intro n rest hn hp
    obtain ⟨n, rfl⟩ : ∃ m, n = m + 1 := ⟨n - 1, by omega⟩
    have hh := hr.head (rest := rest) h2
    simp only [IsCmp, List.mem_cons, List.not_mem_nil, or_false] at h1
    simp only [List.cons_append, List.length_cons] at hn hp ⊢
    have h3 : t.type ≠ .OPEN_PAREN ∧ t.type ≠ .CLOSE_PAREN := by rcases h1 with h | h | h <;> simp [h]
    rw [exprLoop]
    simp only [curT_cons, if_neg h3.1, if_neg h3.2, if_pos h1, peekT_cons, if_neg hh, bind_ok, next_cons hp]
    rw [ih n _ (by omega) hp.of_cons]
    rfl
  | signs t u r w h1 h2 hr ih =>
    intro n rest hn hp
    obtain ⟨n, rfl⟩ : ∃ m, n = m + 1 := ⟨n - 1, by omega⟩
    simp only [IsCmp, List.mem_cons, List.not_mem_nil, or_false] at h1 h2
    simp only [List.cons_append, List.length_cons] at hn hp ⊢
    have h3 : t.type ≠ .OPEN_PAREN ∧ t.type ≠ .CLOSE_PAREN := by rcases h1 with h | h | h <;> simp [h]
    rw [exprLoop]
    simp only [curT_cons, if_neg h3.1, if_neg h3.2, if_pos h1, peekT_cons, if_pos h2, next_cons hp, bind_ok, next_cons hp.of_cons]
    rw [ih n _ (by omega) hp.of_cons.of_cons]
    rfl
  | group a b v w ha hb iha ihb =>
    intro n rest hn hp
    obtain ⟨n, rfl⟩ : ∃ m, n = m + 1 := ⟨n - 1, by omega⟩
    simp only [List.cons_append, List.append_assoc, List.length_cons, List.length_append] at hn hp ⊢
    rw [exprLoop, if_pos (by simp), next_cons hp]
    simp only [bind_ok]
    change NoPanic (openTok :: (a ++ closeTok :: (b ++ closeTok :: rest))) at hp
    have e1 := iha n (b ++ closeTok :: rest) (by omega) hp.of_cons
    change exprLoop n (a ++ (⟨.CLOSE_PAREN, s%")"⟩ : Token) :: (b ++ closeTok :: rest)) = _ at e1
    rw [e1]
    simp only [bind_ok]
    rw [ihb n _ (by omega) hp.of_cons.of_append.of_cons]
    simp
    rfl

theorem defaultLoop_outer {f : Bool} {ts : List Token} {ws : List Ident} (h : Outer f ts ws) : ∀ (n : Nat) (v : Option Expr) (rest : List Token),
    ts.length < n → (f = false → v ≠ none) → curT rest ∈ [.NOT, .COMMA, .CLOSE_PAREN, .PRIMARY, .REFERENCES, .UNIQUE, .CHECK] → NoPanic (ts ++ rest) →
    defaultLoop n v (ts ++ rest) = .ok (⟨some (v.getD [] ++ ws)⟩, rest) := by
  induction h with
  | nil =>
    intro n v rest hn hv hr hp
    obtain ⟨n, rfl⟩ : ∃ m, n = m + 1 := ⟨n - 1, by omega⟩
    cases v with
    | none => exact absurd rfl (hv rfl)
    | some e =>
      simp only [List.mem_cons, List.not_mem_nil, or_false] at hr
      simp only [List.nil_append]
      unfold defaultLoop
      rcases hr with h | h | h | h | h | h | h <;> simp [h, isReservedValue, isOperator, isDataType, isConstraint]
  | word f t r w ht _ ih =>
    intro n v rest hn hv hr hp
    obtain ⟨n, rfl⟩ : ∃ m, n = m + 1 := ⟨n - 1, by omega⟩
    simp only [List.cons_append, List.length_cons] at hn hp ⊢
    have ih := ih n (some (v.getD [] ++ [rawIdent t.lit])) rest (by omega) (by simp) hr hp.of_cons
    have e : defaultLoop (n + 1) v (t :: (r ++ rest)) = defaultLoop n (some (v.getD [] ++ [rawIdent t.lit])) (r ++ rest) := by
      by_cases hi : t.type = .IDENT
      · simp [defaultLoop, hi, next_cons hp, appendExpr]
      · by_cases ho : isOperator t.type = true
        · have hT : t.type ∉ [.IDENT, .OPEN_PAREN, .NOT, .COMMA, .CLOSE_PAREN] ∧ isReservedValue t.type = false := by
            revert ho; cases t.type <;> simp [isOperator, isReservedValue]
          simp only [List.mem_cons, List.not_mem_nil, or_false, not_or] at hT
          simp [defaultLoop, hT, ho, next_cons hp, appendExpr]
        · have hd : f = false ∧ isDataType t.type = true := by
            cases f with
            | true =>
              exfalso
              simp only [valueTypes, if_true, List.append_nil, List.mem_cons, List.not_mem_nil, or_false, isOperator, decide_eq_true_eq] at ht ho
              rcases ht with ht | ht
              · exact hi ht
              · exact ho ht
            | false =>
              refine ⟨rfl, ?_⟩
              simp only [valueTypes, Bool.false_eq_true, if_false, List.mem_append] at ht
              rcases ht with ht | ht
              · exfalso
                simp only [List.mem_cons, List.not_mem_nil, or_false, isOperator, decide_eq_true_eq] at ht ho
                rcases ht with ht | ht
                · exact hi ht
                · exact ho ht
              · simpa [isDataType] using ht
          have hT : t.type ∉ [.IDENT, .OPEN_PAREN, .NOT, .COMMA, .CLOSE_PAREN] ∧ isReservedValue t.type = false := by
            have := hd.2
            revert this; cases t.type <;> simp [isDataType, isReservedValue]
          simp only [List.mem_cons, List.not_mem_nil, or_false, not_or] at hT
          cases v with
          | none => exact absurd rfl (hv hd.1)
          | some e => simp [defaultLoop, hT, ho, hd.2, next_cons hp]
    rw [e, ih]
    simp
    rfl
  | constant f t r w ht _ ih =>
    intro n v rest hn hv hr hp
    obtain ⟨n, rfl⟩ : ∃ m, n = m + 1 := ⟨n - 1, by omega⟩
    simp only [List.cons_append, List.length_cons] at hn hp ⊢
    have hT : t.type = .NULL ∨ t.type = .TRUE ∨ t.type = .FALSE := by simpa [IsConstant] using ht
    unfold defaultLoop
    rw [if_neg (by rcases hT with h | h | h <;> simp [h]), if_neg (by rcases hT with h | h | h <;> simp [h]),
      if_neg (by rcases hT with h | h | h <;> simp [h]), if_pos (by rcases hT with h | h | h <;> simp [h, isReservedValue]), next_cons hp]
    simp only [bind_ok]
    rw [ih n _ rest (by omega) (by simp [appendExpr]) hr hp.of_cons]
    simp [appendExpr, newIdent]
  | group f a b v w ha hb ih =>
    intro n x rest hn hv hr hp
    obtain ⟨n, rfl⟩ : ∃ m, n = m + 1 := ⟨n - 1, by omega⟩
    simp only [List.cons_append, List.append_assoc, List.length_cons, List.length_append] at hn hp ⊢
    change NoPanic (openTok :: (a ++ closeTok :: (b ++ rest))) at hp
    have e : parseExpr (openTok :: (a ++ closeTok :: (b ++ rest))) = .ok (plain s%"(" :: (v ++ [plain s%")"]), b ++ rest) := by
      unfold parseExpr
      simp only [checkCur, curT_cons, openTok_type, List.mem_singleton, if_true, bind_ok, next_cons hp]
      rw [exprLoop_inner ha _ _ (by simp) hp.of_cons]
      rfl
    change defaultLoop (n + 1) x (openTok :: (a ++ closeTok :: (b ++ rest))) = _
    unfold defaultLoop
    rw [if_neg (by simp), if_pos (by simp), e]
    simp only [bind_ok]
    rw [ih n _ rest (by omega) (by simp [appendExpr]) hr hp.of_cons.of_append.of_cons]
    simp [appendExpr]

theorem Outer.ne_nil {ts : List Token} {ws : List Ident} (h : Outer true ts ws) : ts ≠ [] := by cases h <;> simp

/-! ## Columns -/

/-- The tokens of the default value. -/
def valueToks : Option (List Token) → List Token
  | none => []
  | some ts => defaultTok :: ts

/-- The default value is read from the tokens. -/
def ValueOk : Option (List Ident) → Option (List Token) → Prop
  | none, none => True
  | some ws, some ts => Outer true ts ws
  | _, _ => False

theorem columnAttrs_shown {w : Option (List Ident)} {ts : Option (List Token)} (hd : ValueOk w ts) {nn : Bool} {rest : List Token} {n : Nat}
    (hn : (nnToks nn).length + (valueToks ts).length < n) (hr : curT rest ∈ [.COMMA, .CLOSE_PAREN])
    (hp : NoPanic (nnToks nn ++ (valueToks ts ++ rest))) :
    columnAttrsLoop n none false (nnToks nn ++ (valueToks ts ++ rest)) = .ok (w.map fun x => ⟨some x⟩, nn, rest) := by
  simp only [List.mem_cons, List.not_mem_nil, or_false] at hr
  have hstop : ∀ (n : Nat) (d : Option Default) (nn : Bool), 0 < n → columnAttrsLoop n d nn rest = .ok (d, nn, rest) := by
    intro n d nn hn
    obtain ⟨n, rfl⟩ : ∃ m, n = m + 1 := ⟨n - 1, by omega⟩
    rcases hr with h | h <;> simp [columnAttrsLoop, h]
  have hval : ∀ (n : Nat) (nn : Bool), (valueToks ts).length < n → NoPanic (valueToks ts ++ rest) →
      columnAttrsLoop n none nn (valueToks ts ++ rest) = .ok (w.map fun x => ⟨some x⟩, nn, rest) := by
    intro n nn hn hp
    cases w with
    | none =>
      cases ts with
      | some ts => exact hd.elim
      | none => exact hstop n none nn (by omega)
    | some w =>
      cases ts with
      | none => exact hd.elim
      | some ts =>
        have hd : Outer true ts w := hd
        obtain ⟨n, rfl⟩ : ∃ m, n = m + 1 := ⟨n - 1, by omega⟩
        simp only [valueToks, List.cons_append, List.length_cons] at hn hp ⊢
        rw [columnAttrsLoop, if_neg (by simp [defaultTok]), if_neg (by simp [defaultTok]), if_pos (by simp [defaultTok]), next_cons hp]
        simp only [bind_ok, parseColumnDefault]
        rw [defaultLoop_outer hd _ none _ (by simp; omega) (by simp) (by rcases hr with h | h <;> simp [h]) hp.of_cons]
        simp only [bind_ok, Option.getD_none, List.nil_append]
        exact hstop n _ nn (by omega)
  cases nn with
  | false => exact hval n false (by simp [nnToks] at hn; omega) (by simpa [nnToks] using hp)
  | true =>
    obtain ⟨n, rfl⟩ : ∃ m, n = m + 1 := ⟨n - 1, by omega⟩
    simp only [nnToks, if_true, List.cons_append, List.nil_append, List.length_cons, List.length_nil] at hn hp ⊢
    rw [columnAttrsLoop, if_pos (by simp [notTok])]
    simp only [checkPeek, peekT_cons, curT_cons, nullTok, List.mem_singleton, if_true, bind_ok]
    rw [next_cons (by exact hp)]
    simp only [bind_ok]
    rw [next_cons (by exact hp.of_cons)]
    simp only [bind_ok]
    exact hval n true (by omega) hp.of_cons.of_cons

/-- The tokens are read as the column. -/
structure ReadsCol (c : Column) (ts : List Token) : Prop where
  noPanic : NoPanic ts
  first : ∀ r, curT (ts ++ r) = .IDENT
  reads : ∀ (tbl : Ident) (rest : List Token), curT rest ∈ [.COMMA, .CLOSE_PAREN] → NoPanic rest → parseColumn tbl (ts ++ rest) = .ok (c, [], rest)

theorem readsCol {name : Ident} (hname : NameOk name) {dt : DataType} {us : List Token} (hdt : DtOk dt us) (hus : NoPanic us)
    {w : Option (List Ident)} {ts : Option (List Token)} (hd : ValueOk w ts) (hts : NoPanic (valueToks ts)) (nn : Bool) :
    ReadsCol ⟨name, dt, w.map fun x => ⟨some x⟩, nn⟩ (nameTok name :: (us ++ (nnToks nn ++ valueToks ts))) := by
  have hnn : NoPanic (nnToks nn) := by
    unfold nnToks
    split
    · exact noPanic_cons (by decide) (noPanic_cons (by decide) noPanic_nil)
    · exact noPanic_nil
  have h0 : NoPanic (nameTok name :: (us ++ (nnToks nn ++ valueToks ts))) :=
    noPanic_cons (by simp) (noPanic_append hus (noPanic_append hnn hts))
  refine ⟨h0, fun r => rfl, ?_⟩
  intro tbl rest hr hrest
  have hp := noPanic_append h0 hrest
  simp only [List.cons_append, List.append_assoc] at hp ⊢
  have hfirst : isDataType (curT (us ++ (nnToks nn ++ (valueToks ts ++ rest)))) = true := by
    obtain ⟨ws, as, h1, _, _, _, _, _, rfl⟩ := hdt
    rcases h1 with ⟨h, _⟩ | ⟨h, _⟩ | ⟨h, _⟩ | ⟨h, _⟩ | ⟨h, _⟩ | ⟨h, h1, _⟩ <;>
      (obtain ⟨t, r, rfl, ht, _⟩ := map_type_cons h; simp [ht, isDataType])
    simpa [isDataType] using h1
  have hnext : curT (nnToks nn ++ (valueToks ts ++ rest)) ∉ [.WITH, .OPEN_PAREN] := by
    simp only [List.mem_cons, List.not_mem_nil, or_false] at hr
    unfold nnToks
    split
    · simp [notTok]
    · cases ts with
      | none => rcases hr with h | h <;> simp [valueToks, h]
      | some ts => simp [valueToks, defaultTok]
  unfold parseColumn
  simp only [checkCur, curT_cons, nameTok_type, List.mem_singleton, if_true, bind_ok, curL_cons, nameTok_lit, next_cons hp, hfirst]
  obtain ⟨k, e, hk⟩ := parseDataType_reads hdt hnext hp.of_cons
  rw [e]
  simp only [bind_ok, next_cons hk]
  rw [columnAttrs_shown hd (by simp; omega) hr hk.of_cons]
  simp only [bind_ok]
  have hc : parseColumnConstraints tbl (rawIdent name.raw) rest = .ok ([], rest) := by
    simp only [List.mem_cons, List.not_mem_nil, or_false] at hr
    unfold parseColumnConstraints columnConstraintsLoop
    rcases hr with h | h <;> simp [h]
  rw [hc]
  simp only [bind_ok, ← hname.1, List.foldl_nil]

/-! ## The items of a table -/

/-- The tokens are read as the constraint. -/
structure ReadsCon (c : Constraint) (ts : List Token) : Prop where
  noPanic : NoPanic ts
  first : ∀ r, curT (ts ++ r) = .CONSTRAINT
  reads : ∀ (tbl : Ident) (rest : List Token), curT rest ∈ [.COMMA, .CLOSE_PAREN] → NoPanic rest →
    parseTableConstraint tbl (ts ++ rest) = .ok (c, rest)

theorem readsCon {c : Constraint} (h : ConOk c) (h1 : c.NoCheckNoAction) : ReadsCon c (conToks c) :=
  ⟨conToks_noPanic c, fun _ => rfl, fun _ _ hr hp => parseTableConstraint_reads h h1 hr (noPanic_append (conToks_noPanic c) hp)⟩

/-- The tokens are a constraint that cannot be read. -/
structure BadCon (ts : List Token) : Prop where
  noPanic : NoPanic ts
  err : ∀ (tbl : Ident) (n : Nat) (cols : List Column) (cs : List Constraint) (rest : List Token), curT rest ∈ [.COMMA, .CLOSE_PAREN] → NoPanic rest →
    ∃ e, tableLoop tbl (n + 2) cols cs (ts ++ rest) = .err e

theorem tableLoop_comma {tbl : Ident} {n : Nat} {cols : List Column} {cs : List Constraint} {ts : List Token} (hp : NoPanic ts) :
    tableLoop tbl (n + 1) cols cs (commaTok :: ts) = tableLoop tbl n cols cs ts := by
  rw [tableLoop, if_neg (by simp), if_neg (by simp [isConstraint]), if_pos (by simp), next_cons (noPanic_cons (by decide) hp)]
  rfl

/-- What may follow an item. -/
structure Goes (R : List Token) : Prop where
  first : curT R ∈ [.COMMA, .CLOSE_PAREN]
  noPanic : NoPanic R

theorem Goes.tail {l : List (List Token)} (hl : ∀ x ∈ l, NoPanic x) {R : List Token} (h : Goes R) : Goes (tailToks l ++ R) := by
  refine ⟨?_, noPanic_append (tailToks_noPanic hl) h.noPanic⟩
  cases l with
  | nil => exact h.first
  | cons x l => simp [tailToks]

theorem cols_read {tbl : Ident} {cs : List Constraint} {R : List Token} (hR : Goes R) (m : Nat) :
    ∀ (l : List (Column × List Token)) (cols : List Column), (∀ c ∈ l, ReadsCol c.1 c.2) →
    tableLoop tbl (2 * l.length + m) cols cs (tailToks (l.map (·.2)) ++ R) = tableLoop tbl m (cols ++ l.map (·.1)) cs R
  | [], cols, _ => by simp [tailToks]
  | c :: l, cols, h => by
    have hc := h c (by simp)
    have hg : Goes (tailToks (l.map (·.2)) ++ R) := hR.tail (by
      intro x hx
      obtain ⟨y, hy, rfl⟩ := List.mem_map.1 hx
      exact (h y (by simp [hy])).noPanic)
    have e : 2 * (c :: l).length + m = 2 * l.length + m + 1 + 1 := by simp; omega
    rw [e, List.map_cons, tailToks, List.cons_append, List.append_assoc, tableLoop_comma (noPanic_append hc.noPanic hg.noPanic),
      tableLoop, if_pos (hc.first _), hc.reads _ _ hg.first hg.noPanic]
    simp only [bind_ok, List.foldl_nil]
    rw [cols_read hR m l (cols ++ [c.1]) (fun x hx => h x (by simp [hx]))]
    simp

theorem cons_read {tbl : Ident} {cols : List Column} {R : List Token} (hR : Goes R) (m : Nat) :
    ∀ (l : List (Constraint × List Token)) (cs : List Constraint), (∀ c ∈ l, ReadsCon c.1 c.2) →
    tableLoop tbl (2 * l.length + m) cols cs (tailToks (l.map (·.2)) ++ R) = tableLoop tbl m cols ((l.map (·.1)).foldl appendConstraint cs) R
  | [], cs, _ => by simp [tailToks]
  | c :: l, cs, h => by
    have hc := h c (by simp)
    have hg : Goes (tailToks (l.map (·.2)) ++ R) := hR.tail (by
      intro x hx
      obtain ⟨y, hy, rfl⟩ := List.mem_map.1 hx
      exact (h y (by simp [hy])).noPanic)
    have e : 2 * (c :: l).length + m = 2 * l.length + m + 1 + 1 := by simp; omega
    rw [e, List.map_cons, tailToks, List.cons_append, List.append_assoc, tableLoop_comma (noPanic_append hc.noPanic hg.noPanic),
      tableLoop, if_neg (by rw [hc.first]; decide), if_pos (by rw [hc.first]; decide), hc.reads _ _ hg.first hg.noPanic]
    simp only [bind_ok]
    rw [cons_read hR m l (appendConstraint cs c.1) (fun x hx => h x (by simp [hx]))]
    simp

/-! ## Tables -/

/-- The tokens of a table with these items. -/
def shownToks (name : Str) (items : List (List Token)) : List Token :=
  createTok :: ⟨.TABLE, s%"TABLE"⟩ :: ⟨.IDENT, name⟩ :: openTok :: (sepToks items ++ [closeTok, semiTok])

theorem shownToks_noPanic {name : Str} {items : List (List Token)} (h : ∀ x ∈ items, NoPanic x) : NoPanic (shownToks name items) :=
  noPanic_cons (by decide) (noPanic_cons (by decide) (noPanic_cons (by simp) (noPanic_cons (by decide) (noPanic_append (sepToks_noPanic h)
    (noPanic_cons (by decide) (noPanic_cons (by decide) noPanic_nil))))))

theorem parseCreate_shown {name : Str} {items : List (List Token)} (h : ∀ x ∈ items, NoPanic x) {rest : List Token} (hp : NoPanic rest) :
    parseCreate (shownToks name items ++ rest) =
      (tableLoop (newObjectName .postgres name).name ((sepToks items).length + rest.length + 3) [] [] (sepToks items ++ closeTok :: semiTok :: rest) >>=
        fun r => .ok (.createTable ⟨[], false, newObjectName .postgres name, r.1, r.2.1, []⟩, r.2.2)) := by
  have hp0 := noPanic_append (shownToks_noPanic (name := name) h) hp
  unfold shownToks at hp0 ⊢
  simp only [List.cons_append, List.append_assoc, List.nil_append] at hp0 ⊢
  obtain ⟨k, e, hk⟩ := ineToks_read false (k := ⟨.TABLE, s%"TABLE"⟩) (t := ⟨.IDENT, name⟩) (by simp) hp0.of_cons
  simp only [ineToks, Bool.false_eq_true, if_false, List.nil_append] at e
  unfold parseCreate
  simp only [next_cons hp0, bind_ok, curT_cons, if_true]
  unfold parseCreateTable
  simp only [e, bind_ok, next_cons hk, next_cons hk.of_cons, next_cons hk.of_cons.of_cons, checkCur, curT_cons, List.mem_singleton, if_true,
    openTok_type, curL_cons]
  have hl : (sepToks items ++ closeTok :: semiTok :: rest).length + 1 = (sepToks items).length + rest.length + 3 := by simp; omega
  rw [hl]
  cases tableLoop (newObjectName .postgres name).name ((sepToks items).length + rest.length + 3) [] []
    (sepToks items ++ closeTok :: semiTok :: rest) <;> rfl

theorem tailToks_length (l : List (List Token)) (h : ∀ x ∈ l, 1 ≤ x.length) : 2 * l.length ≤ (tailToks l).length := by
  induction l with
  | nil => simp
  | cons x l ih =>
    have := ih fun y hy => h y (by simp [hy])
    have := h x (by simp)
    simp [tailToks]; omega

theorem length_of_first {ts : List Token} {T : TokType} (h : ∀ r, curT (ts ++ r) = T) (hT : T ≠ .EOF) : 1 ≤ ts.length := by
  cases ts with
  | nil => exact absurd (h []).symm hT
  | cons t r => simp

/-- Peeling the comma off. -/
theorem tableLoop_sep {tbl : Ident} {n : Nat} {items : List (List Token)} (h : items ≠ []) {R : List Token} (hp : NoPanic (tailToks items ++ R)) :
    tableLoop tbl n [] [] (sepToks items ++ R) = tableLoop tbl (n + 1) [] [] (tailToks items ++ R) := by
  cases items with
  | nil => exact absurd rfl h
  | cons x l =>
    simp only [tailToks, sepToks, List.cons_append] at hp ⊢
    rw [tableLoop_comma hp.of_cons]

theorem parseCreate_readsShown {name : Str} {cols : List (Column × List Token)} {con : List (Constraint × List Token)} (h0 : cols ≠ [])
    (hcols : ∀ c ∈ cols, ReadsCol c.1 c.2) (hcon : ∀ c ∈ con, ReadsCon c.1 c.2) (hd : NodupNames (con.map (·.1)))
    {rest : List Token} (hp : NoPanic rest) :
    parseCreate (shownToks name (cols.map (·.2) ++ con.map (·.2)) ++ rest) =
      .ok (.createTable ⟨[], false, newObjectName .postgres name, cols.map (·.1), con.map (·.1), []⟩, closeTok :: semiTok :: rest) := by
  have hc1 : ∀ x ∈ cols.map (·.2), NoPanic x ∧ 1 ≤ x.length := by
    intro x hx
    obtain ⟨y, hy, rfl⟩ := List.mem_map.1 hx
    exact ⟨(hcols y hy).noPanic, length_of_first (hcols y hy).first (by decide)⟩
  have hc2 : ∀ x ∈ con.map (·.2), NoPanic x ∧ 1 ≤ x.length := by
    intro x hx
    obtain ⟨y, hy, rfl⟩ := List.mem_map.1 hx
    exact ⟨(hcon y hy).noPanic, length_of_first (hcon y hy).first (by decide)⟩
  have hall : ∀ x ∈ cols.map (·.2) ++ con.map (·.2), NoPanic x ∧ 1 ≤ x.length := by
    intro x hx
    rcases List.mem_append.1 hx with hx | hx
    · exact hc1 x hx
    · exact hc2 x hx
  have hend : Goes (closeTok :: semiTok :: rest) := ⟨by simp, noPanic_cons (by decide) (noPanic_cons (by decide) hp)⟩
  rw [parseCreate_shown (fun x hx => (hall x hx).1) hp,
    tableLoop_sep (by simp [h0]) (hend.tail fun x hx => (hall x hx).1).noPanic]
  have hlen := tailToks_length _ fun x hx => (hall x hx).2
  have hs : (tailToks (cols.map (·.2) ++ con.map (·.2))).length = (sepToks (cols.map (·.2) ++ con.map (·.2))).length + 1 := by
    cases e : cols.map (·.2) ++ con.map (·.2) with
    | nil => simp [h0] at e
    | cons x l => simp [tailToks, sepToks]
  obtain ⟨m, hm⟩ : ∃ m, (sepToks (cols.map (·.2) ++ con.map (·.2))).length + rest.length + 3 + 1 =
      2 * cols.length + (2 * con.length + (m + 1)) := by
    simp only [List.length_append, List.length_map] at hlen hs
    exact ⟨(sepToks (cols.map (·.2) ++ con.map (·.2))).length + rest.length + 3 - 2 * cols.length - 2 * con.length, by omega⟩
  rw [hm, tailToks_append, List.append_assoc, cols_read (hend.tail fun x hx => (hc2 x hx).1) _ cols [] hcols, cons_read hend _ con [] hcon,
    foldl_append_new _ [] (by simpa using hd)]
  simp [tableLoop, isConstraint, peekT_cons]

theorem parseCreate_errShown {name : Str} {cols : List (Column × List Token)} {con : List (Constraint × List Token)} {bad : List Token}
    {more : List (List Token)} (h0 : cols ≠ [])
    (hcols : ∀ c ∈ cols, ReadsCol c.1 c.2) (hcon : ∀ c ∈ con, ReadsCon c.1 c.2) (hbad : BadCon bad) (hmore : ∀ x ∈ more, NoPanic x)
    {rest : List Token} (hp : NoPanic rest) :
    ∃ e, parseCreate (shownToks name (cols.map (·.2) ++ (con.map (·.2) ++ bad :: more)) ++ rest) = .err e := by
  have hc1 : ∀ x ∈ cols.map (·.2), NoPanic x ∧ 1 ≤ x.length := by
    intro x hx
    obtain ⟨y, hy, rfl⟩ := List.mem_map.1 hx
    exact ⟨(hcols y hy).noPanic, length_of_first (hcols y hy).first (by decide)⟩
  have hc2 : ∀ x ∈ con.map (·.2), NoPanic x ∧ 1 ≤ x.length := by
    intro x hx
    obtain ⟨y, hy, rfl⟩ := List.mem_map.1 hx
    exact ⟨(hcon y hy).noPanic, length_of_first (hcon y hy).first (by decide)⟩
  have hall : ∀ x ∈ cols.map (·.2) ++ (con.map (·.2) ++ bad :: more), NoPanic x := by
    intro x hx
    simp only [List.mem_append, List.mem_cons] at hx
    rcases hx with hx | hx | rfl | hx
    · exact (hc1 x hx).1
    · exact (hc2 x hx).1
    · exact hbad.noPanic
    · exact hmore x hx
  have hend : Goes (closeTok :: semiTok :: rest) := ⟨by simp, noPanic_cons (by decide) (noPanic_cons (by decide) hp)⟩
  have hg := hend.tail hmore
  have hgb : Goes (tailToks (bad :: more) ++ closeTok :: semiTok :: rest) := hend.tail (by
    intro x hx
    rcases List.mem_cons.1 hx with rfl | hx
    · exact hbad.noPanic
    · exact hmore x hx)
  rw [parseCreate_shown hall hp, tableLoop_sep (by simp) (hend.tail hall).noPanic]
  have hlen := tailToks_length (cols.map (·.2) ++ con.map (·.2)) fun x hx => by
    rcases List.mem_append.1 hx with hx | hx
    · exact (hc1 x hx).2
    · exact (hc2 x hx).2
  have hs : (tailToks (cols.map (·.2) ++ con.map (·.2))).length ≤ (sepToks (cols.map (·.2) ++ (con.map (·.2) ++ bad :: more))).length := by
    cases e : cols.map (·.2) with
    | nil => simp [h0] at e
    | cons x l => simp [tailToks, sepToks, tailToks_append]; omega
  obtain ⟨m, hm⟩ : ∃ m, (sepToks (cols.map (·.2) ++ (con.map (·.2) ++ bad :: more))).length + rest.length + 3 + 1 =
      2 * cols.length + (2 * con.length + (m + 2 + 1)) := by
    simp only [List.length_append, List.length_map] at hlen hs
    exact ⟨(sepToks (cols.map (·.2) ++ (con.map (·.2) ++ bad :: more))).length + rest.length + 1 - 2 * cols.length - 2 * con.length, by omega⟩
  rw [hm, tailToks_append, tailToks_append, List.append_assoc, List.append_assoc,
    cols_read (hgb.tail fun x hx => (hc2 x hx).1) _ cols [] hcols, cons_read hgb _ con [] hcon]
  simp only [tailToks, List.cons_append, List.append_assoc]
  rw [tableLoop_comma (noPanic_append hbad.noPanic hg.noPanic)]
  obtain ⟨e, he⟩ := hbad.err (newObjectName .postgres name).name m ([] ++ cols.map (·.1)) ((con.map (·.1)).foldl appendConstraint [])
    _ hg.first hg.noPanic
  exact ⟨e, by rw [he]; rfl⟩

/-! ## Constraints that cannot be read -/

/-- The tokens of a foreign key as it is shown; `act` is what stands behind the columns. -/
def foreignToks (name : Ident) (cols : List Ident) (act : List Token) : List Token :=
  constraintTok :: nameTok name :: ⟨.FOREIGN, s%"FOREIGN"⟩ :: ⟨.KEY, s%"KEY"⟩ :: openTok :: (colToks cols ++ closeTok :: act)

theorem foreign_bad {name : Ident} (hn : NameOk name) {cols : List Ident} (hc : ∀ i ∈ cols, NameOk i) {act : List Token} (ha : NoPanic act)
    (h1 : ∀ R, curT R ∈ [.COMMA, .CLOSE_PAREN] → curT (act ++ R) ≠ .REFERENCES) : BadCon (foreignToks name cols act) := by
  have hp : NoPanic (foreignToks name cols act) :=
    noPanic_cons (by decide) (noPanic_cons (by simp) (noPanic_cons (by decide) (noPanic_cons (by decide) (noPanic_cons (by decide)
      (noPanic_append (colToks_noPanic _) (noPanic_cons (by decide) ha))))))
  refine ⟨hp, ?_⟩
  intro tbl n cs ks rest hr hrest
  have hp0 := noPanic_append hp hrest
  have hne := h1 rest hr
  refine ⟨.unexpectedCurrentToken, ?_⟩
  simp only [foreignToks, List.cons_append, List.append_assoc] at hp0 ⊢
  have hname : parseConstraintName (constraintTok :: nameTok name :: ⟨.FOREIGN, s%"FOREIGN"⟩ :: ⟨.KEY, s%"KEY"⟩ :: openTok :: (colToks cols ++ closeTok :: (act ++ rest))) =
      .ok (some name, ⟨.FOREIGN, s%"FOREIGN"⟩ :: ⟨.KEY, s%"KEY"⟩ :: openTok :: (colToks cols ++ closeTok :: (act ++ rest))) := by
    simp [parseConstraintName, constraintTok] at hp0 ⊢
    simp [next_cons hp0, next_cons hp0.of_cons, ← hn.1]
  have hp' := hp0.of_cons.of_cons
  rw [tableLoop, if_neg (by simp [constraintTok]), if_pos (by simp [constraintTok, isConstraint])]
  unfold parseTableConstraint
  rw [hname]
  simp [checkPeek, checkCur, next_cons hp', next_cons hp'.of_cons, parseColumnIdents_reads hc hp'.of_cons.of_cons, hne]

theorem key_bad {c : Constraint} (h : ConOk c) (h1 : c.NoCheckNoAction) (hk : ∀ n l r m a, c ≠ .foreignKey n l r m a) {act : List Token}
    (ha : NoPanic act) (ho : ∀ R, curT (act ++ R) = .ON) : BadCon (conToks c ++ act) := by
  have hp := noPanic_append (conToks_noPanic c) ha
  refine ⟨hp, ?_⟩
  intro tbl n cs ks rest hr hrest
  have hp0 := noPanic_append hp hrest
  rw [List.append_assoc] at hp0 ⊢
  have e : parseTableConstraint tbl (conToks c ++ (act ++ rest)) = .ok (c, act ++ rest) := by
    have hname : parseConstraintName (conToks c ++ (act ++ rest)) = .ok (some c.name, conBody c ++ (act ++ rest)) := by
      simp only [conToks, List.cons_append] at hp0 ⊢
      simp [parseConstraintName, constraintTok] at hp0 ⊢
      simp [next_cons hp0, next_cons hp0.of_cons, ← h.1]
    have hp' : NoPanic (conBody c ++ (act ++ rest)) := by
      simp only [conToks, List.cons_append] at hp0
      exact hp0.of_cons.of_cons
    unfold parseTableConstraint
    rw [hname]
    simp only [bind_ok]
    cases c with
    | primaryKey n cs =>
      have hcs : ∀ i ∈ cs, NameOk i := h.2
      simp only [conBody, List.cons_append, List.append_assoc, List.nil_append] at hp' ⊢
      simp [checkPeek, next_cons hp', next_cons hp'.of_cons, parseColumnIdents_reads hcs hp'.of_cons.of_cons, Constraint.name]
    | unique n cs =>
      have hcs : ∀ i ∈ cs, NameOk i := h.2
      simp only [conBody, List.cons_append, List.append_assoc, List.nil_append] at hp' ⊢
      simp [checkPeek, next_cons hp', parseColumnIdents_reads hcs hp'.of_cons, Constraint.name]
    | foreignKey n cs r rcs act => exact absurd rfl (hk _ _ _ _ _)
    | check n e => exact h1.elim
  refine ⟨.unexpectedCurrentToken, ?_⟩
  rw [tableLoop, if_neg (by simp [conToks, constraintTok]), if_pos (by simp [conToks, constraintTok, isConstraint]), e]
  simp [tableLoop, ho, isConstraint]

/-! ## Lists of statements -/

/-- The text is a statement, and something that ends it. -/
structure ReadsStmt (s : Str) (x : PStmt) (us : List Token) : Prop where
  text : ∀ r, lex .postgres (s ++ r) = us ++ lex .postgres r
  noPanic : NoPanic us
  first : ∀ r, curT (us ++ r) = .CREATE
  length : 2 ≤ us.length
  reads : ∀ rest, NoPanic rest → ∃ k r, parseCreate (us ++ rest) = .ok (x, k :: r) ∧ NoPanic (k :: r) ∧ (r = rest ∨ r = semiTok :: rest)

/-- The text is a statement that cannot be read. -/
structure BadStmt (s : Str) (us : List Token) : Prop where
  text : ∀ r, lex .postgres (s ++ r) = us ++ lex .postgres r
  noPanic : NoPanic us
  first : ∀ r, curT (us ++ r) = .CREATE
  err : ∀ rest, NoPanic rest → ∃ e, parseCreate (us ++ rest) = .err e

theorem parseLoop_step {x : PStmt} {us ts : List Token} (h1 : ∀ r, curT (us ++ r) = .CREATE)
    (h2 : ∃ k r, parseCreate (us ++ ts) = .ok (x, k :: r) ∧ NoPanic (k :: r) ∧ (r = ts ∨ r = semiTok :: ts)) (n : Nat) :
    parseLoop parseCreate (n + 2) (us ++ ts) = (parseLoop parseCreate n ts >>= fun l => .ok (x :: l)) ∨
    parseLoop parseCreate (n + 2) (us ++ ts) = (parseLoop parseCreate (n + 1) ts >>= fun l => .ok (x :: l)) := by
  obtain ⟨k, r, e1, e2, e3⟩ := h2
  rw [parseLoop, if_pos (h1 _), e1]
  simp only [bind_ok, next_cons e2]
  rcases e3 with rfl | rfl
  · exact .inr rfl
  · left
    rw [parseLoop, if_neg (by simp), if_pos (by simp), next_cons e2.of_cons]
    simp only [bind_ok]

theorem stmts_read : ∀ l : List (Str × PStmt), (∀ x ∈ l, ∃ us, ReadsStmt x.1 x.2 us) →
    NoPanic (lex .postgres (l.flatMap (·.1))) ∧
      ∀ n, (lex .postgres (l.flatMap (·.1))).length + 1 ≤ n → parseLoop parseCreate n (lex .postgres (l.flatMap (·.1))) = .ok (l.map (·.2))
  | [], _ => by
    refine ⟨noPanic_nil, ?_⟩
    intro n hn
    obtain ⟨n, rfl⟩ : ∃ k, n = k + 1 := ⟨n - 1, by omega⟩
    rfl
  | x :: l, h => by
    obtain ⟨hp, ih⟩ := stmts_read l fun y hy => h y (by simp [hy])
    obtain ⟨us, hx⟩ := h x (by simp)
    rw [List.flatMap_cons, hx.text]
    refine ⟨noPanic_append hx.noPanic hp, ?_⟩
    intro n hn
    have := hx.length
    rw [List.length_append] at hn
    obtain ⟨n, rfl⟩ : ∃ k, n = k + 2 := ⟨n - 2, by omega⟩
    rcases parseLoop_step hx.first (hx.reads _ hp) n with e | e <;> rw [e, ih _ (by omega)] <;> rfl

theorem parse_read {l : List (Str × PStmt)} (h : ∀ x ∈ l, ∃ us, ReadsStmt x.1 x.2 us) : parse (l.flatMap (·.1)) = .ok (l.map (·.2)) := by
  obtain ⟨h1, h2⟩ := stmts_read l h
  unfold parse parseTokens
  rw [h1.start]
  exact h2 _ (by omega)

theorem stmts_err {b : Str} {ub : List Token} (hb : BadStmt b ub) {T : Str} (hT : NoPanic (lex .postgres T)) :
    ∀ l : List (Str × PStmt), (∀ x ∈ l, ∃ us, ReadsStmt x.1 x.2 us) →
    NoPanic (lex .postgres (l.flatMap (·.1) ++ (b ++ T))) ∧ ∀ n, (lex .postgres (l.flatMap (·.1) ++ (b ++ T))).length + 1 ≤ n →
      ∃ e, parseLoop parseCreate n (lex .postgres (l.flatMap (·.1) ++ (b ++ T))) = .err e
  | [], _ => by
    rw [List.flatMap_nil, List.nil_append, hb.text]
    refine ⟨noPanic_append hb.noPanic hT, ?_⟩
    intro n hn
    obtain ⟨n, rfl⟩ : ∃ k, n = k + 1 := ⟨n - 1, by omega⟩
    obtain ⟨e, he⟩ := hb.err _ hT
    exact ⟨e, by rw [parseLoop, if_pos (hb.first _), he]; rfl⟩
  | x :: l, h => by
    obtain ⟨hp, ih⟩ := stmts_err hb hT l fun y hy => h y (by simp [hy])
    obtain ⟨us, hx⟩ := h x (by simp)
    rw [List.flatMap_cons, List.append_assoc, hx.text]
    refine ⟨noPanic_append hx.noPanic hp, ?_⟩
    intro n hn
    have := hx.length
    rw [List.length_append] at hn
    obtain ⟨n, rfl⟩ : ∃ k, n = k + 2 := ⟨n - 2, by omega⟩
    rcases parseLoop_step hx.first (hx.reads _ hp) n with e | e
    · obtain ⟨e', he⟩ := ih n (by omega)
      exact ⟨e', by rw [e, he]; rfl⟩
    · obtain ⟨e', he⟩ := ih (n + 1) (by omega)
      exact ⟨e', by rw [e, he]; rfl⟩

theorem parse_bad {b : Str} {ub : List Token} (hb : BadStmt b ub) {T : Str} (hT : NoPanic (lex .postgres T)) {l : List (Str × PStmt)}
    (h : ∀ x ∈ l, ∃ us, ReadsStmt x.1 x.2 us) : ∃ e, parse (l.flatMap (·.1) ++ (b ++ T)) = .err e := by
  obtain ⟨h1, h2⟩ := stmts_err hb hT l h
  obtain ⟨e, he⟩ := h2 _ (Nat.le_refl _)
  refine ⟨e, ?_⟩
  unfold parse parseTokens
  rw [h1.start]
  exact he

end Ddl.Pg.Show
