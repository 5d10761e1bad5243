import Verif.Lemmas.CrdbPrint
import Verif.Lemmas.CrdbSat
import Verif.Lemmas.Join

/-! # CockroachDB: columns and constraints, printed and read again -/

namespace Ddl.Crdb
open Spec
set_option autoImplicit false

/-! ## Names -/

/-- The identifier is the one read from the token of its text. -/
def NameOk (i : Ident) : Prop := i = rawIdent i.raw ∧ L ⟨.IDENT, i.raw⟩

/-- The token of a name. -/
def nameTok (i : Ident) : Token := ⟨.IDENT, i.raw⟩

@[simp] theorem nameTok_type (i : Ident) : (nameTok i).type = .IDENT := rfl
@[simp] theorem nameTok_lit (i : Ident) : (nameTok i).lit = i.raw := rfl

theorem nameOk_cur {ts : List Token} (hL : AllTok L ts) (hc : curT ts = .IDENT) : NameOk (rawIdent (curL ts)) := by
  refine ⟨by simp, ?_⟩
  simpa using hL.ident hc (by decide)

theorem lex_name {i : Ident} (h : NameOk i) {s : Str} (hs : Start s) :
    lex .cockroachdb (i.raw ++ s) = nameTok i :: lex .cockroachdb s := lex_lx (t := nameTok i) h.2 hs.apart

theorem start_app {c : Char} {r b : Str} (h : Soft c) : Start ((c :: r) ++ b) := start_cons h

/-- The tokens of an order. -/
def ordToks : Option Bool → List Token
  | none => []
  | some true => [⟨.DESC, s%"DESC"⟩]
  | some false => [⟨.ASC, s%"ASC"⟩]

/-- The tokens of a column list, without the brackets. -/
def colToks : List ColumnIdent → List Token
  | [] => []
  | [i] => nameTok i.ident :: ordToks i.order
  | i :: j :: r => nameTok i.ident :: (ordToks i.order ++ commaTok :: colToks (j :: r))

theorem lex_columnIdent {i : ColumnIdent} (h : NameOk i.ident) {s : Str} (hs : Start s) :
    lex .cockroachdb (i.str ++ s) = nameTok i.ident :: (ordToks i.order ++ lex .cockroachdb s) := by
  obtain ⟨i, o⟩ := i
  simp only at h
  unfold ColumnIdent.str
  simp only [Ident.str, List.append_assoc]
  rcases o with _ | _ | _
  · simpa [ordToks] using lex_name h hs
  · simp only [ordToks]
    rw [lex_name h (start_app (by decide)), lex_lit_start (d := .cockroachdb) (by decide) (by decide) (by decide) hs]
    rfl
  · simp only [ordToks]
    rw [lex_name h (start_app (by decide)), lex_lit_start (d := .cockroachdb) (by decide) (by decide) (by decide) hs]
    rfl

theorem lex_columnsStr {s : Str} (hs : Start s) : ∀ (l : List ColumnIdent), (∀ i ∈ l, NameOk i.ident) →
    lex .cockroachdb (columnsStr l ++ s) = colToks l ++ lex .cockroachdb s := by
  intro l
  unfold columnsStr
  induction l with
  | nil => intro _; rfl
  | cons i r ih =>
    intro h
    cases r with
    | nil => simp [join, colToks, lex_columnIdent (h i (by simp)) hs]
    | cons j r =>
      have ih := ih (fun x hx => h x (by simp [hx]))
      simp only [List.map_cons, join, List.append_assoc, colToks, List.cons_append, List.nil_append] at ih ⊢
      rw [lex_columnIdent (h i (by simp)) (start_cons (by decide)), lex_symbol .cockroachdb ',' .COMMA _ (by decide) (by simp),
        lex_ws .cockroachdb ' ' _ rfl, ih]
      rfl

theorem parseOrder_reads {t : Token} (o : Option Bool) {rest : List Token} (hr : curT rest ∈ [.COMMA, .CLOSE_PAREN])
    (hp : NoPanic (t :: (ordToks o ++ rest))) :
    ∃ k, parseOrder (t :: (ordToks o ++ rest)) = .ok (o, k :: rest) ∧ NoPanic (k :: rest) := by
  simp only [List.mem_cons, List.not_mem_nil, or_false] at hr
  rcases o with _ | _ | _
  · refine ⟨t, ?_, by simpa [ordToks] using hp⟩
    simp only [ordToks, List.nil_append, parseOrder, peekT_cons]
    rcases hr with h | h <;> simp [h]
  · simp only [ordToks, List.cons_append, List.nil_append] at hp ⊢
    exact ⟨_, by simp [parseOrder, peekT_cons, next_cons hp], hp.of_cons⟩
  · simp only [ordToks, List.cons_append, List.nil_append] at hp ⊢
    exact ⟨_, by simp [parseOrder, peekT_cons, next_cons hp], hp.of_cons⟩

theorem columnIdentsLoop_reads : ∀ (l : List ColumnIdent), (∀ i ∈ l, NameOk i.ident) → ∀ (n : Nat) (rest : List Token),
    (colToks l).length < n → NoPanic (colToks l ++ closeTok :: rest) →
    columnIdentsLoop n (colToks l ++ closeTok :: rest) = .ok (l, rest) := by
  intro l
  induction l with
  | nil =>
    intro _ n rest hn hp
    obtain ⟨n, rfl⟩ : ∃ m, n = m + 1 := ⟨n - 1, by omega⟩
    simp only [colToks, List.nil_append] at hp ⊢
    simp [columnIdentsLoop, next_cons hp]
  | cons i r ih =>
    intro h n rest hn hp
    obtain ⟨n, rfl⟩ : ∃ m, n = m + 1 := ⟨n - 1, by omega⟩
    have hi : rawIdent i.ident.raw = i.ident := (h i (by simp)).1.symm
    cases r with
    | nil =>
      simp only [colToks, List.cons_append, List.append_assoc, List.nil_append, List.length_cons] at hp hn ⊢
      obtain ⟨k, e, hk⟩ := parseOrder_reads i.order (by simp) hp
      have := ih (by simp) n rest (by simp [colToks]; omega) hk.of_cons
      simp only [colToks, List.nil_append] at this
      simp [columnIdentsLoop, e, next_cons hk, this, hi]
    | cons j r =>
      simp only [colToks, List.cons_append, List.append_assoc, List.length_cons, List.length_append] at hp hn ⊢
      obtain ⟨n, rfl⟩ : ∃ m, n = m + 1 := ⟨n - 1, by omega⟩
      obtain ⟨k, e, hk⟩ := parseOrder_reads i.order (by simp) hp
      have := ih (fun x hx => h x (by simp [hx])) n rest (by omega) hk.of_cons.of_cons
      rw [columnIdentsLoop, if_neg (by simp), if_pos (by simp), e]
      simp only [bind_ok, next_cons hk]
      rw [columnIdentsLoop, if_pos (by simp), next_cons hk.of_cons]
      simp [this, hi]

/-- A bracketed column list. -/
theorem parseColumnIdents_reads {l : List ColumnIdent} (h : ∀ i ∈ l, NameOk i.ident) {rest : List Token}
    (hp : NoPanic (openTok :: (colToks l ++ closeTok :: rest))) :
    parseColumnIdents (openTok :: (colToks l ++ closeTok :: rest)) = .ok (l, rest) := by
  unfold parseColumnIdents
  rw [List.length_cons, columnIdentsLoop, if_pos (by simp), next_cons hp]
  simp only [bind_ok]
  exact columnIdentsLoop_reads l h _ _ (by simp; omega) hp.of_cons

theorem parseOrder_post {ts : List Token} (hL : AllTok L ts) : Post (fun r => AllTok L r.2) (parseOrder ts) := by
  unfold parseOrder
  split
  · exact Post.next_bind (Post.ok hL.tail)
  split
  · exact Post.next_bind (Post.ok hL.tail)
  · exact Post.ok hL

theorem columnIdentsLoop_post : ∀ (n : Nat) (ts : List Token), AllTok L ts →
    Post (fun r => (∀ i ∈ r.1, NameOk i.ident) ∧ AllTok L r.2) (columnIdentsLoop n ts) := by
  intro n
  induction n with
  | zero => intro ts _; exact trivial
  | succ n ih =>
    intro ts hL
    unfold columnIdentsLoop
    split
    · exact Post.next_bind (ih _ hL.tail)
    split
    · rename_i hc
      refine (parseOrder_post hL).bind ?_
      rintro ⟨o, ts₀⟩ h₀
      refine Post.next_bind ((ih _ (AllTok.tail h₀)).bind ?_)
      rintro ⟨i₁, ts₁⟩ ⟨h₁, h₂⟩
      refine Post.ok ⟨?_, h₂⟩
      intro i hi
      rcases List.mem_cons.1 hi with rfl | hi
      · exact nameOk_cur hL hc
      · exact h₁ i hi
    split
    · exact Post.next_bind (Post.ok ⟨by simp, hL.tail⟩)
    · exact trivial

theorem parseColumnIdents_post {ts : List Token} (hL : AllTok L ts) :
    Post (fun r => (∀ i ∈ r.1, NameOk i.ident) ∧ AllTok L r.2) (parseColumnIdents ts) := columnIdentsLoop_post _ _ hL

/-! ## Data types -/

/-- The words of a type name and the type they stand for. -/
def TypeShape (ws : List TokType) (ty : TokType) : Prop :=
  (ws = [.TIMESTAMP, .WITH, .TIME, .ZONE] ∧ ty = .TIMESTAMPTZ) ∨
  (ws = [.TIMESTAMP] ∧ ty = .TIMESTAMP) ∨
  (ws = [.DOUBLE, .PRECISION] ∧ ty = .FLOAT8) ∨
  (ws = [.CHARACTER, .VARYING] ∧ ty = .VARCHAR) ∨
  (ws = [ty] ∧ isDataType ty = true ∧ ty ∉ [.TIMESTAMP, .DOUBLE, .CHARACTER])

/-- The tokens of the parameters of a type. -/
def argToks (as : List Token) : List Token := if as = [] then [] else openTok :: (as ++ [closeTok])

/-- The data type `t` is written with the tokens `ts`. -/
def DtOk (t : DataType) (ts : List Token) : Prop :=
  ∃ ws as, TypeShape (ws.map (·.type)) t.type ∧ AllTok L ws ∧ t.name = join s%" " (ws.map (·.lit)) ∧
    t.expr = as.map (fun a => rawIdent a.lit) ∧ AllTok L as ∧
    (∀ a ∈ as, a.type ∉ [.OPEN_PAREN, .CLOSE_PAREN, .EOF, .ILLEGAL]) ∧ ts = ws ++ argToks as

theorem identsLoop_post : ∀ (n : Nat) (ts : List Token), AllTok L ts →
    Post (fun r => (∃ as, r.1 = as.map (fun a => rawIdent a.lit) ∧ AllTok L as ∧
      ∀ a ∈ as, a.type ∉ [.OPEN_PAREN, .CLOSE_PAREN, .EOF, .ILLEGAL]) ∧ AllTok L r.2) (identsLoop n ts) := by
  intro n
  induction n with
  | zero => intro ts _; exact trivial
  | succ n ih =>
    intro ts hL
    unfold identsLoop
    split
    · exact Post.next_bind (ih _ hL.tail)
    split
    · exact Post.ok ⟨⟨[], rfl, .nil, by simp⟩, hL⟩
    split
    · exact trivial
    · rename_i h1 h2 h3
      simp only [not_or] at h3
      refine Post.next_bind ((ih _ hL.tail).bind ?_)
      rintro ⟨i₁, ts₁⟩ ⟨⟨as, e, h₁, h₂⟩, h₃⟩
      simp only at e
      refine Post.ok ⟨⟨cur ts :: as, by simp [e]; rfl, ?_, ?_⟩, h₃⟩
      · intro t ht
        rcases List.mem_cons.1 ht with rfl | ht
        · exact hL.cur h3.1
        · exact h₁ t ht
      · intro t ht
        rcases List.mem_cons.1 ht with rfl | ht
        · have : curT ts ∉ [.OPEN_PAREN, .CLOSE_PAREN, .EOF, .ILLEGAL] := by simp [h1, h2, h3]
          exact this
        · exact h₂ t ht

theorem identsLoop_reads : ∀ (as : List Token), (∀ a ∈ as, a.type ∉ [.OPEN_PAREN, .CLOSE_PAREN, .EOF, .ILLEGAL]) →
    ∀ (n : Nat) (rest : List Token), as.length < n → NoPanic (as ++ closeTok :: rest) →
    identsLoop n (as ++ closeTok :: rest) = .ok (as.map (fun a => rawIdent a.lit), closeTok :: rest) := by
  intro as
  induction as with
  | nil =>
    intro _ n rest hn hp
    obtain ⟨n, rfl⟩ : ∃ m, n = m + 1 := ⟨n - 1, by omega⟩
    simp [identsLoop]
  | cons a r ih =>
    intro h n rest hn hp
    obtain ⟨n, rfl⟩ : ∃ m, n = m + 1 := ⟨n - 1, by omega⟩
    have ha := h a (by simp)
    simp only [List.mem_cons, List.not_mem_nil, or_false, not_or] at ha
    simp only [List.cons_append, List.length_cons] at hn hp ⊢
    rw [identsLoop, if_neg (by simp [ha]), if_neg (by simp [ha]), if_neg (by simp [ha]), next_cons hp]
    simp only [bind_ok]
    rw [ih (fun x hx => h x (by simp [hx])) n rest (by omega) hp.of_cons]
    simp

theorem parseTypeName_post {ts : List Token} (hL : AllTok L ts) (hd : isDataType (curT ts) = true) :
    Post (fun r => (∃ ws : List Token, TypeShape (ws.map (·.type)) r.2.1 ∧ AllTok L ws ∧ r.1 = join s%" " (ws.map (·.lit))) ∧
      AllTok L r.2.2) (parseTypeName ts) := by
  have hx : L (cur ts) := hL.cur (by intro h; rw [h] at hd; simp [isDataType] at hd)
  unfold parseTypeName
  split
  · rename_i hc
    split
    · rename_i hp
      have h1 : L (cur ts.tail) := hL.tail.cur (by change curT ts.tail = _ at hp; simp [hp])
      refine Post.next_bind (Post.checkPeek_bind (fun ht => Post.next_bind (Post.checkPeek_bind (fun hz => Post.next_bind ?_))))
      simp only [List.mem_singleton] at ht hz
      have h2 : L (cur ts.tail.tail) := hL.tail.tail.cur (by change curT ts.tail.tail = _ at ht; simp [ht])
      have h3 : L (cur ts.tail.tail.tail) := hL.tail.tail.tail.cur (by change curT ts.tail.tail.tail = _ at hz; simp [hz])
      refine Post.ok ⟨⟨[cur ts, cur ts.tail, cur ts.tail.tail, cur ts.tail.tail.tail], Or.inl ⟨?_, rfl⟩,
        .cons hx (.cons h1 (.cons h2 (.cons h3 .nil))), ?_⟩, hL.tail.tail.tail⟩
      · simp only [List.map_cons, List.map_nil]
        congr 1
        congr 1
        congr 1
        congr 1
      · simp [join, curL]
    · exact Post.ok ⟨⟨[cur ts], Or.inr (Or.inl ⟨by simp; exact hc, rfl⟩), .cons hx .nil, rfl⟩, hL⟩
  split
  · rename_i hc
    refine Post.checkPeek_bind (fun ht => Post.next_bind ?_)
    simp only [List.mem_singleton] at ht
    have h1 : L (cur ts.tail) := hL.tail.cur (by change curT ts.tail = _ at ht; simp [ht])
    refine Post.ok ⟨⟨[cur ts, cur ts.tail], Or.inr (Or.inr (Or.inl ⟨?_, rfl⟩)), .cons hx (.cons h1 .nil), ?_⟩, hL.tail⟩
    · simp only [List.map_cons, List.map_nil]
      congr 1
      congr 1
    · simp [join, curL]
  split
  · rename_i hc
    refine Post.checkPeek_bind (fun ht => Post.next_bind ?_)
    simp only [List.mem_singleton] at ht
    have h1 : L (cur ts.tail) := hL.tail.cur (by change curT ts.tail = _ at ht; simp [ht])
    refine Post.ok ⟨⟨[cur ts, cur ts.tail], Or.inr (Or.inr (Or.inr (Or.inl ⟨?_, rfl⟩))), .cons hx (.cons h1 .nil), ?_⟩, hL.tail⟩
    · simp only [List.map_cons, List.map_nil]
      congr 1
      congr 1
    · simp [join, curL]
  · rename_i h1 h2 h3
    exact Post.ok ⟨⟨[cur ts], Or.inr (Or.inr (Or.inr (Or.inr ⟨rfl, hd, by simp [h1, h2, h3]⟩))), .cons hx .nil, rfl⟩, hL⟩

theorem parseDataType_post {ts : List Token} (hL : AllTok L ts) (hd : isDataType (curT ts) = true) :
    Post (fun r => (∃ us, DtOk r.1 us) ∧ AllTok L r.2) (parseDataType ts) := by
  unfold parseDataType
  refine (parseTypeName_post hL hd).bind ?_
  rintro ⟨name, ty, ts₁⟩ ⟨⟨ws, h1, h2, h3⟩, h4⟩
  simp only at h1 h3 h4 ⊢
  split
  · refine Post.next_bind ((identsLoop_post _ _ h4.tail).bind ?_)
    rintro ⟨i, ts₂⟩ ⟨⟨as, e, h5, h6⟩, h7⟩
    exact Post.ok ⟨⟨_, ws, as, h1, h2, h3, e, h5, h6, rfl⟩, h7⟩
  · exact Post.ok ⟨⟨_, ws, [], h1, h2, h3, rfl, .nil, by simp, rfl⟩, h4⟩

theorem parseTypeName_reads {ws : List Token} {ty : TokType} (h : TypeShape (ws.map (·.type)) ty) {rest : List Token}
    (hr : curT rest ≠ .WITH) (hp : NoPanic (ws ++ rest)) :
    ∃ k, parseTypeName (ws ++ rest) = .ok (join s%" " (ws.map (·.lit)), ty, k :: rest) ∧ NoPanic (k :: rest) := by
  rcases h with ⟨h, rfl⟩ | ⟨h, rfl⟩ | ⟨h, rfl⟩ | ⟨h, rfl⟩ | ⟨h, h1, h2⟩
  · obtain ⟨t₁, r, rfl, ht₁, h⟩ := map_type_cons h
    obtain ⟨t₂, r, rfl, ht₂, h⟩ := map_type_cons h
    obtain ⟨t₃, r, rfl, ht₃, h⟩ := map_type_cons h
    obtain ⟨t₄, r, rfl, ht₄, h⟩ := map_type_cons h
    rw [map_type_nil h] at hp ⊢
    simp only [List.cons_append, List.nil_append] at hp ⊢
    exact ⟨t₄, by simp [parseTypeName, ht₁, ht₂, ht₃, ht₄, join, checkPeek, next_cons hp, next_cons hp.of_cons,
      next_cons hp.of_cons.of_cons], hp.of_cons.of_cons.of_cons⟩
  · obtain ⟨t, r, rfl, ht, h⟩ := map_type_cons h
    rw [map_type_nil h] at hp ⊢
    exact ⟨t, by simp [parseTypeName, ht, join, hr], hp⟩
  · obtain ⟨t₁, r, rfl, ht₁, h⟩ := map_type_cons h
    obtain ⟨t₂, r, rfl, ht₂, h⟩ := map_type_cons h
    rw [map_type_nil h] at hp ⊢
    simp only [List.cons_append, List.nil_append] at hp ⊢
    exact ⟨t₂, by simp [parseTypeName, ht₁, ht₂, join, checkPeek, next_cons hp], hp.of_cons⟩
  · obtain ⟨t₁, r, rfl, ht₁, h⟩ := map_type_cons h
    obtain ⟨t₂, r, rfl, ht₂, h⟩ := map_type_cons h
    rw [map_type_nil h] at hp ⊢
    simp only [List.cons_append, List.nil_append] at hp ⊢
    exact ⟨t₂, by simp [parseTypeName, ht₁, ht₂, join, checkPeek, next_cons hp], hp.of_cons⟩
  · obtain ⟨t, r, rfl, ht, h⟩ := map_type_cons h
    rw [map_type_nil h] at hp ⊢
    simp only [List.mem_cons, List.not_mem_nil, or_false, not_or] at h2
    exact ⟨t, by simp [parseTypeName, h2, join, ht], hp⟩

theorem parseDataType_shape {t : DataType} {ws as : List Token} (h1 : TypeShape (ws.map (·.type)) t.type)
    (h3 : t.name = join s%" " (ws.map (·.lit))) (h4 : t.expr = as.map (fun a => rawIdent a.lit))
    (h6 : ∀ a ∈ as, a.type ∉ [.OPEN_PAREN, .CLOSE_PAREN, .EOF, .ILLEGAL]) {rest : List Token}
    (hr : curT rest ∉ [.WITH, .OPEN_PAREN]) (hp : NoPanic (ws ++ argToks as ++ rest)) :
    ∃ k, parseDataType (ws ++ argToks as ++ rest) = .ok (t, k :: rest) ∧ NoPanic (k :: rest) := by
  simp only [List.mem_cons, List.not_mem_nil, or_false, not_or] at hr
  obtain ⟨name, ty, expr⟩ := t
  simp only at h1 h3 h4
  subst h3 h4
  unfold parseDataType argToks at *
  split at hp
  · rename_i ha
    subst ha
    simp only [if_true, List.append_nil] at hp ⊢
    obtain ⟨k, e, hk⟩ := parseTypeName_reads h1 hr.1 hp
    refine ⟨k, ?_, hk⟩
    rw [e]
    simp [hr.2]
  · rename_i ha
    simp only [if_neg ha, List.append_assoc] at hp ⊢
    obtain ⟨k, e, hk⟩ := parseTypeName_reads h1 (rest := openTok :: (as ++ [closeTok]) ++ rest) (by simp) hp
    have e2 : parseIdents ((openTok :: (as ++ [closeTok])) ++ rest) = .ok (as.map (fun a => rawIdent a.lit), closeTok :: rest) := by
      have hk' : NoPanic (openTok :: (as ++ (closeTok :: rest))) := by simpa using hk.of_cons
      unfold parseIdents
      simp only [List.cons_append, List.append_assoc, List.nil_append, List.length_cons]
      rw [identsLoop, if_pos (by simp), next_cons hk']
      simp only [bind_ok]
      exact identsLoop_reads as h6 _ _ (by simp; omega) hk'.of_cons
    refine ⟨closeTok, ?_, ?_⟩
    · rw [e]
      simp only [bind_ok, peekT_cons, List.cons_append, curT_cons, openTok_type, if_true]
      rw [next_cons (by simpa using hk)]
      simp only [bind_ok]
      rw [← List.cons_append, e2]
      simp
    · intro t ht
      exact hk t (by simp only [List.mem_cons, List.mem_append] at ht ⊢; tauto)

theorem parseDataType_reads {t : DataType} {us : List Token} (h : DtOk t us) {rest : List Token}
    (hr : curT rest ∉ [.WITH, .OPEN_PAREN]) (hp : NoPanic (us ++ rest)) :
    ∃ k, parseDataType (us ++ rest) = .ok (t, k :: rest) ∧ NoPanic (k :: rest) := by
  obtain ⟨ws, as, h1, h2, h3, h4, h5, h6, rfl⟩ := h
  exact parseDataType_shape h1 h3 h4 h6 hr hp

theorem lex_join_words {s : Str} (hs : Start s) : ∀ (ws : List Token), AllTok L ws →
    lex .cockroachdb (join s%" " (ws.map (·.lit)) ++ s) = ws ++ lex .cockroachdb s := by
  intro ws
  induction ws with
  | nil => intro _; rfl
  | cons t r ih =>
    intro h
    cases r with
    | nil => simp [join, lex_lx (h t (by simp)) hs.apart]
    | cons j r =>
      have ih := ih (fun x hx => h x (by simp [hx]))
      simp only [List.map_cons, join, List.append_assoc, List.cons_append, List.nil_append] at ih ⊢
      rw [lex_lx (h t (by simp)) (Start.apart (start_cons (by decide))), lex_ws .cockroachdb ' ' _ rfl, ih]

theorem lex_dataType {t : DataType} {us : List Token} (h : DtOk t us) (hc : ApartCasts t.expr) {s : Str} (hs : Start s) :
    lex .cockroachdb (t.str ++ s) = us ++ lex .cockroachdb s := by
  obtain ⟨ws, as, h1, h2, h3, h4, h5, h6, rfl⟩ := h
  unfold DataType.str argToks
  rw [h4] at hc
  rw [h3, h4]
  by_cases ha : as = []
  · subst ha
    simp [lex_join_words hs ws h2]
  · have hw : ∀ w ∈ as.map (fun a => ((rawIdent a.lit, [a]) : Word)), WordOk w := by
      intro w hw
      obtain ⟨a, ha, rfl⟩ := List.mem_map.1 hw
      exact wordOk_tok (h5 a ha) (rawIdent_raw _)
    have e1 : as.map (fun a => rawIdent a.lit) = ids (as.map (fun a => ((rawIdent a.lit, [a]) : Word))) := by simp [ids]
    have e2 : toks (as.map (fun a => ((rawIdent a.lit, [a]) : Word))) = as := by
      clear hw e1 h4 h5 h6 ha hc
      induction as with
      | nil => rfl
      | cons a r ih => simp [ih]
    rw [if_neg (by simpa using ha), if_neg ha]
    simp only [List.append_assoc, List.cons_append, List.nil_append]
    rw [lex_join_words (start_cons (by decide)) ws h2,
      lex_symbol .cockroachdb '(' .OPEN_PAREN _ (by decide) (by simp), e1, lex_exprStr (start_cons (by decide)) _ hw (e1 ▸ hc), e2,
      lex_symbol .cockroachdb ')' .CLOSE_PAREN _ (by decide) (by simp)]
    simp [openTok, closeTok]

/-! ## Computed columns -/

theorem asLoop_post : ∀ (n : Nat) (v : Option Expr) (t : Option TokType) (ts : List Token), AllTok L ts →
    (t = none ∨ t = some .STORED ∨ t = some .VIRTUAL) →
    Post (fun r => ((v = none ∧ r.1.value = none) ∨ ∃ g, Dft v.isNone g ∧ r.1.value = some (v.getD [] ++ ids g)) ∧
      (r.1.type = none ∨ r.1.type = some .STORED ∨ r.1.type = some .VIRTUAL) ∧ AllTok L r.2)
      (asLoop n v t ts) := by
  intro n
  induction n with
  | zero => intros; exact trivial
  | succ n ih =>
    intro v t ts hL ht
    have step : ∀ (i : List Ident) (ts' : List Token), AllTok L ts' → (∀ g, Dft false g → ∃ g', Dft v.isNone g' ∧ ids g' = i ++ ids g) →
        Post (fun r => ((v = none ∧ r.1.value = none) ∨ ∃ g, Dft v.isNone g ∧ r.1.value = some (v.getD [] ++ ids g)) ∧
          (r.1.type = none ∨ r.1.type = some .STORED ∨ r.1.type = some .VIRTUAL) ∧ AllTok L r.2)
          (asLoop n (some (v.getD [] ++ i)) t ts') := by
      intro i ts' h' hg
      refine (ih _ _ _ h' ht).imp ?_
      rintro ⟨d, ts₁⟩ ⟨h, h₁⟩
      refine ⟨Or.inr ?_, h₁⟩
      rcases h with h | ⟨g, hd, e⟩
      · exact absurd h.1 (by simp)
      · obtain ⟨g', hg', e'⟩ := hg g hd
        exact ⟨g', hg', by simpa [e'] using e⟩
    have done : Post (fun r => ((v = none ∧ r.1.value = none) ∨ ∃ g, Dft v.isNone g ∧ r.1.value = some (v.getD [] ++ ids g)) ∧
          (r.1.type = none ∨ r.1.type = some .STORED ∨ r.1.type = some .VIRTUAL) ∧ AllTok L r.2)
        (.ok ((⟨v, t⟩ : As), ts)) := by
      refine Post.ok ⟨?_, ht, hL⟩
      cases v with
      | none => exact Or.inl ⟨rfl, rfl⟩
      | some e => exact Or.inr ⟨[], .nil, by simp⟩
    unfold asLoop
    split
    · rename_i hc
      have hx : L (cur ts) := hL.cur (by simp [hc])
      refine Post.next_bind (step _ _ hL.tail (fun g hg => ⟨_, .ident _ _ _ hx hc hg, rfl⟩))
    split
    · refine (parseExpr_post hL).bind ?_
      rintro ⟨i₁, ts₁⟩ ⟨⟨g₁, hg₁, e₁⟩, h₁⟩
      refine step _ _ h₁ (fun g hg => ⟨_, .group _ _ _ hg₁ hg, ?_⟩)
      simp only at e₁
      simp [e₁]
    split
    · rename_i hc
      refine Post.next_bind (ih _ _ _ hL.tail ?_)
      rcases hc with hc | hc <;> simp [hc]
    split
    · exact done
    split
    · rename_i hc
      have hx : L (cur ts) := hL.cur (by intro h; rw [h] at hc; simp [isReservedValue] at hc)
      refine Post.next_bind (step _ _ hL.tail (fun g hg => ⟨_, .reserved _ _ _ hx hc hg, rfl⟩))
    split
    · rename_i hc
      have hx : L (cur ts) := hL.cur (by intro h; rw [h] at hc; simp [isOperator] at hc)
      refine Post.next_bind (step _ _ hL.tail (fun g hg => ⟨_, .operator _ _ _ hx hc hg, rfl⟩))
    split
    · rename_i hc
      have hx : L (cur ts) := hL.cur (by intro h; rw [h] at hc; simp [isDataType] at hc)
      cases v with
      | none => exact trivial
      | some e =>
        exact Post.next_bind (step _ _ hL.tail (fun g hg => ⟨_, .dataType _ _ hx hc hg, rfl⟩))
    split
    · exact done
    · exact trivial

/-- The token of `STORED` or `VIRTUAL`. -/
def kindToks : Option TokType → List Token
  | none => []
  | some t => [⟨t, t.str⟩]

theorem asLoop_reads {t : Option TokType} (ht : t = none ∨ t = some .STORED ∨ t = some .VIRTUAL) {f : Bool} {g : List Word} (h : Dft f g) :
    ∀ (n : Nat) (v : Option Expr) (rest : List Token),
    (toks g).length + 1 < n → (f = false → v ≠ none) → curT rest ∈ [.NOT, .COMMA, .CLOSE_PAREN] →
    NoPanic (toks g ++ (kindToks t ++ rest)) →
    asLoop n v none (toks g ++ (kindToks t ++ rest)) = .ok (⟨some (v.getD [] ++ ids g), t⟩, rest) := by
  induction h with
  | nil =>
    intro n v rest hn hv hr hp
    obtain ⟨n, rfl⟩ : ∃ m, n = m + 2 := ⟨n - 2, by omega⟩
    cases v with
    | none => exact absurd rfl (hv rfl)
    | some e =>
      simp only [List.mem_cons, List.not_mem_nil, or_false] at hr
      have h1 : curT rest ≠ .IDENT ∧ curT rest ≠ .OPEN_PAREN ∧ ¬ (curT rest = .STORED ∨ curT rest = .VIRTUAL) := by
        rcases hr with h | h | h <;> simp [h]
      have stop : ∀ m t, asLoop (m + 1) (some e) t rest = .ok (⟨some e, t⟩, rest) := by
        intro m t
        unfold asLoop
        rw [if_neg h1.1, if_neg h1.2.1, if_neg h1.2.2, if_pos hr]
      simp only [toks_nil, List.nil_append] at hp ⊢
      rcases ht with rfl | rfl | rfl
      · simp only [kindToks, List.nil_append, Option.getD_some, ids_nil, List.append_nil, stop]
      all_goals
        simp only [kindToks, List.cons_append, List.nil_append] at hp ⊢
        rw [asLoop, if_neg (by simp), if_neg (by simp), if_pos (by simp), next_cons hp]
        simp [stop]
  | ident f t r ht hc _ ih =>
    intro n v rest hn hv hr hp
    obtain ⟨n, rfl⟩ : ∃ m, n = m + 1 := ⟨n - 1, by omega⟩
    simp only [toks_cons, List.cons_append, List.nil_append, List.length_cons] at hn hp ⊢
    unfold asLoop
    rw [if_pos (by simp [hc]), next_cons hp]
    simp only [bind_ok]
    rw [ih n _ rest (by omega) (by simp [appendExpr]) hr hp.of_cons]
    simp [appendExpr]
  | group f g r hg _ ih =>
    intro n v rest hn hv hr hp
    obtain ⟨n, rfl⟩ : ∃ m, n = m + 1 := ⟨n - 1, by omega⟩
    simp only [toks_cons, toks_append, List.cons_append, List.nil_append, List.append_assoc, List.length_cons,
      List.length_append] at hn hp ⊢
    unfold asLoop
    rw [if_neg (by simp), if_pos (by simp), parseExpr_reads hg hp]
    simp only [bind_ok]
    rw [ih n _ rest (by omega) (by simp [appendExpr]) hr hp.of_cons.of_append]
    simp [appendExpr]
  | reserved f t r ht hc _ ih =>
    intro n v rest hn hv hr hp
    obtain ⟨n, rfl⟩ : ∃ m, n = m + 1 := ⟨n - 1, by omega⟩
    simp only [toks_cons, List.cons_append, List.nil_append, List.length_cons] at hn hp ⊢
    have hT : t.type = .NULL ∨ t.type = .TRUE ∨ t.type = .FALSE := by simpa [isReservedValue] using hc
    unfold asLoop
    rw [if_neg (by rcases hT with h | h | h <;> simp [h]), if_neg (by rcases hT with h | h | h <;> simp [h]),
      if_neg (by rcases hT with h | h | h <;> simp [h]),
      if_neg (by rcases hT with h | h | h <;> simp [h]), if_pos (by simpa using hc), next_cons hp]
    simp only [bind_ok]
    rw [ih n _ rest (by omega) (by simp [appendExpr]) hr hp.of_cons]
    simp [appendExpr]
  | operator f t r ht hc _ ih =>
    intro n v rest hn hv hr hp
    obtain ⟨n, rfl⟩ : ∃ m, n = m + 1 := ⟨n - 1, by omega⟩
    simp only [toks_cons, List.cons_append, List.nil_append, List.length_cons] at hn hp ⊢
    have hT : t.type ∉ [.IDENT, .OPEN_PAREN, .NOT, .COMMA, .CLOSE_PAREN, .STORED, .VIRTUAL] ∧ isReservedValue t.type = false := by
      revert hc; cases t.type <;> simp [isOperator, isReservedValue]
    simp only [List.mem_cons, List.not_mem_nil, or_false, not_or] at hT
    unfold asLoop
    rw [if_neg (by simp [hT]), if_neg (by simp [hT]), if_neg (by simp [hT]),
      if_neg (by simp [hT]), if_neg (by simp [hT]), if_pos (by simpa using hc), next_cons hp]
    simp only [bind_ok]
    rw [ih n _ rest (by omega) (by simp [appendExpr]) hr hp.of_cons]
    simp [appendExpr]
  | dataType t r ht hc _ ih =>
    intro n v rest hn hv hr hp
    obtain ⟨n, rfl⟩ : ∃ m, n = m + 1 := ⟨n - 1, by omega⟩
    cases v with
    | none => exact absurd rfl (hv rfl)
    | some e =>
      simp only [toks_cons, List.cons_append, List.nil_append, List.length_cons] at hn hp ⊢
      have hT : t.type ∉ [.IDENT, .OPEN_PAREN, .NOT, .COMMA, .CLOSE_PAREN, .STORED, .VIRTUAL] ∧ isReservedValue t.type = false ∧
          isOperator t.type = false := by
        revert hc; cases t.type <;> simp [isOperator, isReservedValue, isDataType]
      simp only [List.mem_cons, List.not_mem_nil, or_false, not_or] at hT
      unfold asLoop
      rw [if_neg (by simp [hT]), if_neg (by simp [hT]), if_neg (by simp [hT]),
        if_neg (by simp [hT]), if_neg (by simp [hT]), if_neg (by simp [hT]), if_pos (by simpa using hc)]
      simp only [next_cons hp, bind_ok]
      rw [ih n _ rest (by omega) (by simp) hr hp.of_cons]
      simp

/-! ## Columns -/

def defaultTok : Token := ⟨.DEFAULT, s%"DEFAULT"⟩
def asTok : Token := ⟨.AS, s%"AS"⟩
def notTok : Token := ⟨.NOT, s%"NOT"⟩
def nullTok : Token := ⟨.NULL, s%"NULL"⟩
def visibleTok : Token := ⟨.VISIBLE, s%"VISIBLE"⟩

/-- The tokens of a default value. -/
def dftToks (g : List Word) : List Token := if g = [] then [] else defaultTok :: toks g

/-- The tokens of a computed column. -/
def asToks (g : List Word) (t : Option TokType) : List Token := if g = [] then [] else asTok :: (toks g ++ kindToks t)

/-- The tokens of `NOT NULL`. -/
def nnToks (nn : Bool) : List Token := if nn then [notTok, nullTok] else []

/-- The tokens of `NOT VISIBLE`. -/
def nvToks (nv : Bool) : List Token := if nv then [notTok, visibleTok] else []

/-- The default value consists of the words `g`. -/
def DefaultOk (d : Option Default) (g : List Word) : Prop := (d = none ∧ g = []) ∨ (d = some ⟨some (ids g)⟩ ∧ Dft true g)

/-- The computed value consists of the words `g`, followed by `t`. -/
def AsOk (a : Option As) (g : List Word) (t : Option TokType) : Prop :=
  (a = none ∧ g = []) ∨
    (a = some ⟨some (ids g), t⟩ ∧ Dft true g ∧ (t = none ∨ t = some .STORED ∨ t = some .VIRTUAL))

/-- The column `c` is printed with the tokens `ts`. -/
def ColOk (c : Column) (ts : List Token) : Prop :=
  NameOk c.name ∧ ∃ us g ga ty, DtOk c.dataType us ∧ DefaultOk c.default g ∧ AsOk c.as_ ga ty ∧
    ts = nameTok c.name :: (us ++ (nvToks c.notVisible ++ (nnToks c.notNull ++ (dftToks g ++ asToks ga ty))))

/-- `DEFAULT` and `AS` have values. -/
def Valued (c : Column) : Prop := c.default ≠ some ⟨none⟩ ∧ ∀ a, c.as_ = some a → a.value ≠ none

theorem columnAttrsLoop_post : ∀ (n : Nat) (a : Attrs) (ts : List Token), AllTok L ts →
    (a.default ≠ some ⟨none⟩ → ∃ g, DefaultOk a.default g) →
    ((∀ b, a.as_ = some b → b.value ≠ none) → ∃ g t, AsOk a.as_ g t) →
    Post (fun r => (r.1.default ≠ some ⟨none⟩ → ∃ g, DefaultOk r.1.default g) ∧
      ((∀ b, r.1.as_ = some b → b.value ≠ none) → ∃ g t, AsOk r.1.as_ g t) ∧ AllTok L r.2) (columnAttrsLoop n a ts) := by
  intro n
  induction n with
  | zero => intros; exact trivial
  | succ n ih =>
    intro a ts hL hd ha
    unfold columnAttrsLoop
    split
    · split
      · exact Post.next_bind (Post.next_bind (ih _ _ hL.tail.tail hd ha))
      split
      · exact Post.next_bind (Post.next_bind (ih _ _ hL.tail.tail hd ha))
      · exact trivial
    split
    · exact Post.next_bind (ih _ _ hL.tail hd ha)
    split
    · refine Post.next_bind ((defaultLoop_post _ none _ hL.tail).bind ?_)
      rintro ⟨v, ts₁⟩ ⟨h, h₁⟩
      refine ih _ _ h₁ ?_ ha
      intro hv
      rcases h with h | ⟨g, hg, e⟩
      · exact absurd (congrArg some h.2) hv
      · exact ⟨g, Or.inr ⟨congrArg some e, hg⟩⟩
    split
    · refine Post.next_bind ((asLoop_post _ none none _ hL.tail (Or.inl rfl)).bind ?_)
      rintro ⟨v, ts₁⟩ ⟨h, h₂, h₁⟩
      refine ih _ _ h₁ hd ?_
      intro hv
      rcases h with h | ⟨g, hg, e⟩
      · exact absurd h.2 (hv _ rfl)
      · refine ⟨g, v.type, Or.inr ⟨?_, hg, h₂⟩⟩
        obtain ⟨vv, vt⟩ := v
        simp only at e ⊢
        rw [e]
        simp
    · exact Post.ok ⟨hd, ha, hL⟩

theorem columnAttrsLoop_reads {d : Option Default} {g : List Word} (hd : DefaultOk d g) {as_ : Option As} {ga : List Word} {ty : Option TokType}
    (ha : AsOk as_ ga ty) (hone : d = none ∨ as_ = none) {nn nv : Bool} {rest : List Token} {n : Nat}
    (hn : (nvToks nv).length + (nnToks nn).length + (dftToks g).length + (asToks ga ty).length < n) (hr : curT rest ∈ [.COMMA, .CLOSE_PAREN])
    (hp : NoPanic (nvToks nv ++ (nnToks nn ++ (dftToks g ++ (asToks ga ty ++ rest))))) :
    columnAttrsLoop n ⟨none, false, false, none⟩ (nvToks nv ++ (nnToks nn ++ (dftToks g ++ (asToks ga ty ++ rest)))) =
      .ok (⟨d, nn, nv, as_⟩, rest) := by
  simp only [List.mem_cons, List.not_mem_nil, or_false] at hr
  have hstop : ∀ (n : Nat) (a : Attrs), 0 < n → columnAttrsLoop n a rest = .ok (a, rest) := by
    intro n a hn
    obtain ⟨n, rfl⟩ : ∃ m, n = m + 1 := ⟨n - 1, by omega⟩
    rcases hr with h | h <;> simp [columnAttrsLoop, h]
  have hrest : curT rest ∈ [.NOT, .COMMA, .CLOSE_PAREN] := by rcases hr with h | h <;> simp [h]
  have hval : ∀ (n : Nat) (nn nv : Bool), (dftToks g).length + (asToks ga ty).length < n → NoPanic (dftToks g ++ (asToks ga ty ++ rest)) →
      columnAttrsLoop n ⟨none, nn, nv, none⟩ (dftToks g ++ (asToks ga ty ++ rest)) = .ok (⟨d, nn, nv, as_⟩, rest) := by
    intro n nn nv hn hp
    rcases hd with ⟨rfl, rfl⟩ | ⟨rfl, hg⟩
    · simp only [dftToks, if_true, List.nil_append, List.length_nil] at hn hp ⊢
      rcases ha with ⟨rfl, rfl⟩ | ⟨rfl, hg, ht⟩
      · simp only [asToks, if_true, List.nil_append]
        exact hstop n _ (by omega)
      · have hg0 : ga ≠ [] := by intro h; subst h; cases hg
        obtain ⟨n, rfl⟩ : ∃ m, n = m + 1 := ⟨n - 1, by omega⟩
        simp only [asToks, if_neg hg0, List.cons_append, List.append_assoc, List.length_cons, List.length_append] at hn hp ⊢
        have hk : 0 < (toks ga).length := by
          cases hg <;> simp
        rw [columnAttrsLoop, if_neg (by simp [asTok]), if_neg (by simp [asTok]), if_neg (by simp [asTok]), if_pos (by simp [asTok]), next_cons hp]
        simp only [bind_ok, parseColumnAs]
        have hlen : 0 < rest.length := by
          cases rest with
          | nil => rcases hr with h | h <;> cases h
          | cons a l => simp
        rw [asLoop_reads ht hg _ none _ (by simp; omega) (by simp) hrest hp.of_cons]
        simp only [bind_ok, Option.getD_none, List.nil_append]
        exact hstop n _ (by omega)
    · have has : as_ = none := hone.resolve_left (by simp)
      subst has
      have hga : ga = [] := by
        rcases ha with ⟨_, h⟩ | ⟨h, _⟩
        · exact h
        · cases h
      subst hga
      have hg0 : g ≠ [] := by intro h; subst h; cases hg
      obtain ⟨n, rfl⟩ : ∃ m, n = m + 1 := ⟨n - 1, by omega⟩
      simp only [dftToks, if_neg hg0, asToks, if_true, List.nil_append, List.cons_append, List.length_cons] at hn hp ⊢
      rw [columnAttrsLoop, if_neg (by simp [defaultTok]), if_neg (by simp [defaultTok]), if_pos (by simp [defaultTok]), next_cons hp]
      simp only [bind_ok, parseColumnDefault]
      rw [defaultLoop_reads hg _ none _ (by simp; omega) (by simp) hrest hp.of_cons]
      simp only [bind_ok, Option.getD_none, List.nil_append]
      exact hstop n _ (by omega)
  have hnn : ∀ (n : Nat) (nv : Bool), (nnToks nn).length + (dftToks g).length + (asToks ga ty).length < n →
      NoPanic (nnToks nn ++ (dftToks g ++ (asToks ga ty ++ rest))) →
      columnAttrsLoop n ⟨none, false, nv, none⟩ (nnToks nn ++ (dftToks g ++ (asToks ga ty ++ rest))) = .ok (⟨d, nn, nv, as_⟩, rest) := by
    intro n nv hn hp
    cases nn with
    | false => exact hval n _ _ (by omega) hp
    | true =>
      obtain ⟨n, rfl⟩ : ∃ m, n = m + 1 := ⟨n - 1, by omega⟩
      simp only [nnToks, if_true, List.cons_append, List.nil_append, List.length_cons, List.length_nil] at hn hp ⊢
      rw [columnAttrsLoop, if_pos (by simp [notTok]), if_pos (by simp [peekT_cons, nullTok]), next_cons hp]
      simp only [bind_ok, next_cons hp.of_cons]
      exact hval n _ _ (by omega) hp.of_cons.of_cons
  cases nv with
  | false => exact hnn n _ (by omega) hp
  | true =>
    obtain ⟨n, rfl⟩ : ∃ m, n = m + 1 := ⟨n - 1, by omega⟩
    simp only [nvToks, if_true, List.cons_append, List.nil_append, List.length_cons, List.length_nil] at hn hp ⊢
    rw [columnAttrsLoop, if_pos (by simp [notTok]), if_neg (by simp [peekT_cons, visibleTok]), if_pos (by simp [peekT_cons, visibleTok]), next_cons hp]
    simp only [bind_ok, next_cons hp.of_cons]
    exact hnn n _ (by omega) hp.of_cons.of_cons

theorem parseColumn_reads {tbl : Ident} {c : Column} {ts : List Token} (h : ColOk c ts) (hone : c.default = none ∨ c.as_ = none)
    {rest : List Token} (hr : curT rest ∈ [.COMMA, .CLOSE_PAREN]) (hp : NoPanic (ts ++ rest)) :
    parseColumn tbl (ts ++ rest) = .ok (c, [], rest) := by
  obtain ⟨hname, us, g, ga, ty, hdt, hd, ha, rfl⟩ := h
  simp only [List.cons_append, List.append_assoc] at hp ⊢
  have hfirst : ∀ r, isDataType (curT (us ++ r)) = true := by
    intro r
    obtain ⟨ws, as, h1, _, _, _, _, _, rfl⟩ := hdt
    rcases h1 with ⟨h, _⟩ | ⟨h, _⟩ | ⟨h, _⟩ | ⟨h, _⟩ | ⟨h, h1, _⟩ <;>
      (obtain ⟨t, r, rfl, ht, _⟩ := map_type_cons h; simp [ht, isDataType])
    simpa [isDataType] using h1
  have hrest : curT (nvToks c.notVisible ++ (nnToks c.notNull ++ (dftToks g ++ (asToks ga ty ++ rest)))) ∉ [.WITH, .OPEN_PAREN] := by
    simp only [List.mem_cons, List.not_mem_nil, or_false] at hr
    unfold dftToks nnToks nvToks asToks
    split
    · simp [notTok]
    split
    · simp [notTok]
    split
    · split
      · rcases hr with h | h <;> simp [h]
      · simp [asTok]
    · simp [defaultTok]
  unfold parseColumn
  simp only [checkCur, curT_cons, nameTok_type, List.mem_singleton, if_true, bind_ok, curL_cons, nameTok_lit, next_cons hp, hfirst]
  obtain ⟨k, e, hk⟩ := parseDataType_reads hdt hrest hp.of_cons
  rw [e]
  simp only [bind_ok, next_cons hk]
  rw [columnAttrsLoop_reads hd ha hone (by simp; omega) hr hk.of_cons]
  simp only [bind_ok]
  have hc : parseColumnConstraints tbl (rawIdent c.name.raw) rest = .ok ([], rest) := by
    simp only [List.mem_cons, List.not_mem_nil, or_false] at hr
    unfold parseColumnConstraints columnConstraintsLoop
    rcases hr with h | h <;> simp [h]
  rw [hc]
  simp only [bind_ok, ← hname.1, List.foldl_nil]

/-- What is printed for the computed value. -/
def asText : Option As → Str
  | some a => s%" " ++ a.str
  | none => []

theorem column_str (c : Column) : c.str = c.name.str ++ s%" " ++ c.dataType.str ++
    (if c.notVisible then s%" NOT VISIBLE" else []) ++ (if c.notNull then s%" NOT NULL" else []) ++
    (if defaultStr c.default = [] then [] else s%" " ++ defaultStr c.default) ++ asText c.as_ := by
  unfold Column.str asText
  cases c.as_ <;> rfl

theorem lex_column {c : Column} {ts : List Token} (h : ColOk c ts) (hR : c.Rereadable) {s : Str} (hs : Start s) :
    lex .cockroachdb (c.str ++ s) = ts ++ lex .cockroachdb s := by
  obtain ⟨hname, us, g, ga, ty, hdt, hd, ha, rfl⟩ := h
  obtain ⟨hR1, hR2, hR3⟩ := hR
  have has : Start (asText c.as_ ++ s) ∧ lex .cockroachdb (asText c.as_ ++ s) = asToks ga ty ++ lex .cockroachdb s := by
    rcases ha with ⟨ha, rfl⟩ | ⟨ha, hg, ht⟩
    · rw [ha]
      exact ⟨hs, rfl⟩
    · have hg0 : ga ≠ [] := by intro h; subst h; cases hg
      obtain ⟨e, he, hcast⟩ := hR3 _ ha
      cases he
      rw [ha]
      refine ⟨start_cons (by decide), ?_⟩
      simp only [asText, As.str, asToks, if_neg hg0, List.append_assoc]
      rw [List.cons_append, lex_ws .cockroachdb ' ' _ rfl, List.nil_append, lex_lit (d := .cockroachdb) (by decide) (by decide) (by decide)]
      rcases ht with rfl | rfl | rfl
      · simp only [List.nil_append, kindToks]
        rw [lex_exprStr hs _ hg.ok hcast]
        simp only [List.append_nil, List.cons_append]
        rfl
      all_goals
        simp only [kindToks]
        rw [List.append_assoc, lex_exprStr (start_app (by decide)) _ hg.ok hcast, List.cons_append, lex_ws .cockroachdb ' ' _ rfl,
          List.nil_append, lex_lit_start (d := .cockroachdb) (by decide) (by decide) (by decide) hs]
        simp only [List.cons_append, List.append_assoc]
        rfl
  generalize htail : (asText c.as_ ++ s : Str) = r1 at has
  have hdf : Start ((if defaultStr c.default = [] then [] else s%" " ++ defaultStr c.default) ++ r1) ∧
      lex .cockroachdb ((if defaultStr c.default = [] then [] else s%" " ++ defaultStr c.default) ++ r1) =
        dftToks g ++ lex .cockroachdb r1 := by
    rcases hd with ⟨hd, rfl⟩ | ⟨hd, hg⟩
    · rw [hd]
      exact ⟨has.1, rfl⟩
    · have hg0 : g ≠ [] := by intro h; subst h; cases hg
      obtain ⟨_, e, he, hcast⟩ := hR2 _ hd
      cases he
      rw [hd, if_neg (by simp [defaultStr])]
      refine ⟨start_cons (by decide), ?_⟩
      simp only [defaultStr, dftToks, if_neg hg0, List.append_assoc]
      rw [List.cons_append, lex_ws .cockroachdb ' ' _ rfl, List.nil_append, lex_lit (d := .cockroachdb) (by decide) (by decide) (by decide),
        lex_exprStr has.1 g hg.ok hcast]
      simp only [List.cons_append]
      rfl
  generalize hr2 : ((if defaultStr c.default = [] then [] else s%" " ++ defaultStr c.default) ++ r1 : Str) = r2 at hdf
  have hnn : Start ((if c.notNull = true then s%" NOT NULL" else []) ++ r2) ∧
      lex .cockroachdb ((if c.notNull = true then s%" NOT NULL" else []) ++ r2) = nnToks c.notNull ++ lex .cockroachdb r2 := by
    unfold nnToks
    cases c.notNull with
    | false => exact ⟨hdf.1, rfl⟩
    | true =>
      simp only [if_true]
      rw [lex_lit_start (d := .cockroachdb) (by decide) (by decide) (by decide) hdf.1]
      exact ⟨start_cons (by decide), rfl⟩
  generalize hr3 : ((if c.notNull = true then s%" NOT NULL" else []) ++ r2 : Str) = r3 at hnn
  have hnv : Start ((if c.notVisible = true then s%" NOT VISIBLE" else []) ++ r3) ∧
      lex .cockroachdb ((if c.notVisible = true then s%" NOT VISIBLE" else []) ++ r3) = nvToks c.notVisible ++ lex .cockroachdb r3 := by
    unfold nvToks
    cases c.notVisible with
    | false => exact ⟨hnn.1, rfl⟩
    | true =>
      simp only [if_true]
      rw [lex_lit_start (d := .cockroachdb) (by decide) (by decide) (by decide) hnn.1]
      exact ⟨start_cons (by decide), rfl⟩
  rw [column_str]
  simp only [Ident.str, List.append_assoc]
  rw [htail, hr2, hr3, lex_name hname (start_app (by decide)), List.cons_append, lex_ws .cockroachdb ' ' _ rfl, List.nil_append,
    lex_dataType hdt hR1 hnv.1, hnv.2, hnn.2, hdf.2, has.2]
  simp only [List.cons_append, List.append_assoc]

end Ddl.Crdb
