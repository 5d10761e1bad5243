import Verif.Lemmas.MyPrint
import Verif.Lemmas.MySat
import Verif.Lemmas.Join
import Verif.Spec.RoundTripMy

/-! # MySQL: columns and constraints, printed and read again -/

namespace Ddl.My
open Spec
set_option autoImplicit false

/-! ## Names -/

/-- The identifier is the one read from the token of its text. -/
def NameOk (i : Ident) : Prop := i = rawIdent i.raw ∧ L ⟨.IDENT, i.raw⟩

/-- The token of a name. -/
def nameTok (i : Ident) : Token := ⟨.IDENT, i.raw⟩

@[simp] theorem nameTok_type (i : Ident) : (nameTok i).type = .IDENT := rfl
@[simp] theorem nameTok_lit (i : Ident) : (nameTok i).lit = i.raw := rfl

theorem nameOk_cur {ts : List Token} (hL : AllTok L ts) (hc : curT ts = .IDENT) : NameOk (rawIdent (curL ts)) := by
  refine ⟨by simp, ?_⟩
  simpa using hL.ident hc (by decide)

theorem lex_name {i : Ident} (h : NameOk i) {s : Str} (hs : Start s) :
    lex .mysql (i.raw ++ s) = nameTok i :: lex .mysql s := lex_lx (t := nameTok i) h.2 hs.apart

theorem start_app {c : Char} {r b : Str} (h : Soft c) : Start ((c :: r) ++ b) := start_cons h

/-- The tokens of an order. -/
def ordToks : Option Bool → List Token
  | none => []
  | some true => [⟨.DESC, s%"DESC"⟩]
  | some false => [⟨.ASC, s%"ASC"⟩]

/-- The tokens of a column list, without the brackets. -/
def colToks : List ColumnIdent → List Token
  | [] => []
  | [i] => nameTok i.ident :: ordToks i.order
  | i :: j :: r => nameTok i.ident :: (ordToks i.order ++ commaTok :: colToks (j :: r))

theorem lex_columnIdent {i : ColumnIdent} (h : NameOk i.ident) (ho : i.order ≠ some false) {s : Str} (hs : Start s) :
    lex .mysql (i.str ++ s) = nameTok i.ident :: (ordToks i.order ++ lex .mysql s) := by
  obtain ⟨i, o⟩ := i
  simp only at h ho
  unfold ColumnIdent.str
  simp only [Ident.str, List.append_assoc]
  rcases o with _ | _ | _
  · simpa [ordToks] using lex_name h hs
  · exact absurd rfl ho
  · simp only [ordToks, if_true]
    rw [lex_name h (start_app (by decide)), lex_lit_start (d := .mysql) (by decide) (by decide) (by decide) hs]
    rfl

theorem lex_columnsStr {s : Str} (hs : Start s) : ∀ (l : List ColumnIdent), (∀ i ∈ l, NameOk i.ident) → NoAsc l →
    lex .mysql (columnsStr l ++ s) = colToks l ++ lex .mysql s := by
  intro l
  unfold columnsStr
  induction l with
  | nil => intro _ _; rfl
  | cons i r ih =>
    intro h ho
    cases r with
    | nil => simp [join, colToks, lex_columnIdent (h i (by simp)) (ho i (by simp)) hs]
    | cons j r =>
      have ih := ih (fun x hx => h x (by simp [hx])) (fun x hx => ho x (by simp [hx]))
      simp only [List.map_cons, join, List.append_assoc, colToks, List.cons_append, List.nil_append] at ih ⊢
      rw [lex_columnIdent (h i (by simp)) (ho i (by simp)) (start_cons (by decide)), lex_symbol .mysql ',' .COMMA _ (by decide) (by simp),
        lex_ws .mysql ' ' _ rfl, ih]
      rfl

theorem parseOrder_reads {t : Token} (o : Option Bool) {rest : List Token} (hr : curT rest ∈ [.COMMA, .CLOSE_PAREN])
    (hp : NoPanic (t :: (ordToks o ++ rest))) :
    ∃ k, parseOrder (t :: (ordToks o ++ rest)) = .ok (o, k :: rest) ∧ NoPanic (k :: rest) := by
  simp only [List.mem_cons, List.not_mem_nil, or_false] at hr
  rcases o with _ | _ | _
  · refine ⟨t, ?_, by simpa [ordToks] using hp⟩
    simp only [ordToks, List.nil_append, parseOrder, peekT_cons]
    rcases hr with h | h <;> simp [h]
  · simp only [ordToks, List.cons_append, List.nil_append] at hp ⊢
    exact ⟨_, by simp [parseOrder, peekT_cons, next_cons hp], hp.of_cons⟩
  · simp only [ordToks, List.cons_append, List.nil_append] at hp ⊢
    exact ⟨_, by simp [parseOrder, peekT_cons, next_cons hp], hp.of_cons⟩

theorem columnIdentsLoop_reads : ∀ (l : List ColumnIdent), (∀ i ∈ l, NameOk i.ident) → ∀ (n : Nat) (rest : List Token),
    (colToks l).length < n → NoPanic (colToks l ++ closeTok :: rest) →
    columnIdentsLoop n (colToks l ++ closeTok :: rest) = .ok (l, rest) := by
  intro l
  induction l with
  | nil =>
    intro _ n rest hn hp
    obtain ⟨n, rfl⟩ : ∃ m, n = m + 1 := ⟨n - 1, by omega⟩
    simp only [colToks, List.nil_append] at hp ⊢
    simp [columnIdentsLoop, next_cons hp]
  | cons i r ih =>
    intro h n rest hn hp
    obtain ⟨n, rfl⟩ : ∃ m, n = m + 1 := ⟨n - 1, by omega⟩
    have hi : rawIdent i.ident.raw = i.ident := (h i (by simp)).1.symm
    cases r with
    | nil =>
      simp only [colToks, List.cons_append, List.append_assoc, List.nil_append, List.length_cons] at hp hn ⊢
      obtain ⟨k, e, hk⟩ := parseOrder_reads i.order (by simp) hp
      have := ih (by simp) n rest (by simp [colToks]; omega) hk.of_cons
      simp only [colToks, List.nil_append] at this
      simp [columnIdentsLoop, e, next_cons hk, this, hi]
    | cons j r =>
      simp only [colToks, List.cons_append, List.append_assoc, List.length_cons, List.length_append] at hp hn ⊢
      obtain ⟨n, rfl⟩ : ∃ m, n = m + 1 := ⟨n - 1, by omega⟩
      obtain ⟨k, e, hk⟩ := parseOrder_reads i.order (by simp) hp
      have := ih (fun x hx => h x (by simp [hx])) n rest (by omega) hk.of_cons.of_cons
      rw [columnIdentsLoop, if_neg (by simp), if_pos (by simp), e]
      simp only [bind_ok, next_cons hk]
      rw [columnIdentsLoop, if_pos (by simp), next_cons hk.of_cons]
      simp [this, hi]

/-- A bracketed column list. -/
theorem parseColumnIdents_reads {l : List ColumnIdent} (h : ∀ i ∈ l, NameOk i.ident) {rest : List Token}
    (hp : NoPanic (openTok :: (colToks l ++ closeTok :: rest))) :
    parseColumnIdents (openTok :: (colToks l ++ closeTok :: rest)) = .ok (l, rest) := by
  unfold parseColumnIdents
  rw [List.length_cons, columnIdentsLoop, if_pos (by simp), next_cons hp]
  simp only [bind_ok]
  exact columnIdentsLoop_reads l h _ _ (by simp; omega) hp.of_cons

theorem parseOrder_post {ts : List Token} (hL : AllTok L ts) : Post (fun r => AllTok L r.2) (parseOrder ts) := by
  unfold parseOrder
  split
  · exact Post.next_bind (Post.ok hL.tail)
  split
  · exact Post.next_bind (Post.ok hL.tail)
  · exact Post.ok hL

theorem columnIdentsLoop_post : ∀ (n : Nat) (ts : List Token), AllTok L ts →
    Post (fun r => (∀ i ∈ r.1, NameOk i.ident) ∧ AllTok L r.2) (columnIdentsLoop n ts) := by
  intro n
  induction n with
  | zero => intro ts _; exact trivial
  | succ n ih =>
    intro ts hL
    unfold columnIdentsLoop
    split
    · exact Post.next_bind (ih _ hL.tail)
    split
    · rename_i hc
      refine (parseOrder_post hL).bind ?_
      rintro ⟨o, ts₀⟩ h₀
      refine Post.next_bind ((ih _ (AllTok.tail h₀)).bind ?_)
      rintro ⟨i₁, ts₁⟩ ⟨h₁, h₂⟩
      refine Post.ok ⟨?_, h₂⟩
      intro i hi
      rcases List.mem_cons.1 hi with rfl | hi
      · exact nameOk_cur hL hc
      · exact h₁ i hi
    split
    · exact Post.next_bind (Post.ok ⟨by simp, hL.tail⟩)
    · exact trivial

theorem parseColumnIdents_post {ts : List Token} (hL : AllTok L ts) :
    Post (fun r => (∀ i ∈ r.1, NameOk i.ident) ∧ AllTok L r.2) (parseColumnIdents ts) := columnIdentsLoop_post _ _ hL

/-! ## Data types -/

/-- The words of a type name and the type they stand for. -/
def TypeShape (ws : List TokType) (ty : TokType) : Prop :=
  (ws = [.DOUBLE, .PRECISION] ∧ ty = .DOUBLE_PRECISION) ∨
  (ws = [.DOUBLE] ∧ ty = .DOUBLE) ∨
  (ws = [.CHARACTER, .VARYING] ∧ ty = .VARCHAR) ∨
  (ws = [ty] ∧ isDataType ty = true ∧ ty ∉ [.BOOLEAN, .DOUBLE, .CHARACTER])

/-- The tokens of the parameters of a type. -/
def argToks (as : List Token) : List Token := if as = [] then [] else openTok :: (as ++ [closeTok])

/-- The data type `t` is written with the tokens `ts`. -/
def DtOk (t : DataType) (ts : List Token) : Prop :=
  ∃ ws as, TypeShape (ws.map (·.type)) t.type ∧ AllTok L ws ∧ t.name = join s%" " (ws.map (·.lit)) ∧
    t.expr = as.map (fun a => rawIdent a.lit) ∧ AllTok L as ∧
    (∀ a ∈ as, a.type ∉ [.OPEN_PAREN, .CLOSE_PAREN, .EOF, .ILLEGAL]) ∧ ts = ws ++ argToks as

theorem identsLoop_post : ∀ (n : Nat) (ts : List Token), AllTok L ts →
    Post (fun r => (∃ as, r.1 = as.map (fun a => rawIdent a.lit) ∧ AllTok L as ∧
      ∀ a ∈ as, a.type ∉ [.OPEN_PAREN, .CLOSE_PAREN, .EOF, .ILLEGAL]) ∧ AllTok L r.2) (identsLoop n ts) := by
  intro n
  induction n with
  | zero => intro ts _; exact trivial
  | succ n ih =>
    intro ts hL
    unfold identsLoop
    split
    · exact Post.next_bind (ih _ hL.tail)
    split
    · exact Post.ok ⟨⟨[], rfl, .nil, by simp⟩, hL⟩
    split
    · exact trivial
    · rename_i h1 h2 h3
      simp only [not_or] at h3
      refine Post.next_bind ((ih _ hL.tail).bind ?_)
      rintro ⟨i₁, ts₁⟩ ⟨⟨as, e, h₁, h₂⟩, h₃⟩
      simp only at e
      refine Post.ok ⟨⟨cur ts :: as, by simp [e]; rfl, ?_, ?_⟩, h₃⟩
      · intro t ht
        rcases List.mem_cons.1 ht with rfl | ht
        · exact hL.cur h3.1
        · exact h₁ t ht
      · intro t ht
        rcases List.mem_cons.1 ht with rfl | ht
        · have : curT ts ∉ [.OPEN_PAREN, .CLOSE_PAREN, .EOF, .ILLEGAL] := by simp [h1, h2, h3]
          exact this
        · exact h₂ t ht

theorem identsLoop_reads : ∀ (as : List Token), (∀ a ∈ as, a.type ∉ [.OPEN_PAREN, .CLOSE_PAREN, .EOF, .ILLEGAL]) →
    ∀ (n : Nat) (rest : List Token), as.length < n → NoPanic (as ++ closeTok :: rest) →
    identsLoop n (as ++ closeTok :: rest) = .ok (as.map (fun a => rawIdent a.lit), closeTok :: rest) := by
  intro as
  induction as with
  | nil =>
    intro _ n rest hn hp
    obtain ⟨n, rfl⟩ : ∃ m, n = m + 1 := ⟨n - 1, by omega⟩
    simp [identsLoop]
  | cons a r ih =>
    intro h n rest hn hp
    obtain ⟨n, rfl⟩ : ∃ m, n = m + 1 := ⟨n - 1, by omega⟩
    have ha := h a (by simp)
    simp only [List.mem_cons, List.not_mem_nil, or_false, not_or] at ha
    simp only [List.cons_append, List.length_cons] at hn hp ⊢
    rw [identsLoop, if_neg (by simp [ha]), if_neg (by simp [ha]), if_neg (by simp [ha]), next_cons hp]
    simp only [bind_ok]
    rw [ih (fun x hx => h x (by simp [hx])) n rest (by omega) hp.of_cons]
    simp

theorem parseTypeName_post {ts : List Token} (hL : AllTok L ts) (hd : isDataType (curT ts) = true) :
    Post (fun r => (r.2.1 ≠ .BOOLEAN → (∃ ws : List Token, TypeShape (ws.map (·.type)) r.2.1 ∧ AllTok L ws ∧ r.1 = join s%" " (ws.map (·.lit))) ∧
      r.2.2.1 = []) ∧ AllTok L r.2.2.2) (parseTypeName ts) := by
  have hx : L (cur ts) := hL.cur (by intro h; rw [h] at hd; simp [isDataType] at hd)
  unfold parseTypeName
  split
  · exact Post.ok ⟨fun h => absurd rfl h, hL⟩
  split
  · rename_i hc
    split
    · rename_i hp
      refine Post.next_bind ?_
      have h1 : L (cur ts.tail) := hL.tail.cur (by change curT ts.tail = _ at hp; simp [hp])
      refine Post.ok ⟨fun _ => ⟨⟨[cur ts, cur ts.tail], Or.inl ⟨?_, rfl⟩, .cons hx (.cons h1 .nil), ?_⟩, rfl⟩, hL.tail⟩
      · simp only [List.map_cons, List.map_nil]
        congr 1
        congr 1
      · simp [join, curL]
    · exact Post.ok ⟨fun _ => ⟨⟨[cur ts], Or.inr (Or.inl ⟨by simp; exact hc, rfl⟩), .cons hx .nil, rfl⟩, rfl⟩, hL⟩
  split
  · rename_i hc
    refine Post.checkPeek_bind (fun ht => Post.next_bind ?_)
    simp only [List.mem_singleton] at ht
    have h1 : L (cur ts.tail) := hL.tail.cur (by change curT ts.tail = _ at ht; simp [ht])
    refine Post.ok ⟨fun _ => ⟨⟨[cur ts, cur ts.tail], Or.inr (Or.inr (Or.inl ⟨?_, rfl⟩)), .cons hx (.cons h1 .nil), ?_⟩, rfl⟩, hL.tail⟩
    · simp only [List.map_cons, List.map_nil]
      congr 1
      congr 1
    · simp [join, curL]
  · rename_i h1 h2 h3
    exact Post.ok ⟨fun _ => ⟨⟨[cur ts], Or.inr (Or.inr (Or.inr ⟨rfl, hd, by simp [h1, h2, h3]⟩)), .cons hx .nil, rfl⟩, rfl⟩, hL⟩

theorem parseDataType_post {ts : List Token} (hL : AllTok L ts) (hd : isDataType (curT ts) = true) :
    Post (fun r => (r.1.type ≠ .BOOLEAN → ∃ us, DtOk r.1 us) ∧ AllTok L r.2) (parseDataType ts) := by
  unfold parseDataType
  refine (parseTypeName_post hL hd).bind ?_
  rintro ⟨name, ty, ex, ts₁⟩ ⟨h, h4⟩
  simp only at h h4 ⊢
  split
  · refine Post.next_bind ((identsLoop_post _ _ h4.tail).bind ?_)
    rintro ⟨i, ts₂⟩ ⟨⟨as, e, h5, h6⟩, h7⟩
    refine Post.ok ⟨fun hb => ?_, h7⟩
    obtain ⟨⟨ws, h1, h2, h3⟩, rfl⟩ := h hb
    exact ⟨_, ws, as, h1, h2, h3, by simpa using e, h5, h6, rfl⟩
  · refine Post.ok ⟨fun hb => ?_, h4⟩
    obtain ⟨⟨ws, h1, h2, h3⟩, rfl⟩ := h hb
    exact ⟨_, ws, [], h1, h2, h3, rfl, .nil, by simp, rfl⟩

theorem parseTypeName_reads {ws : List Token} {ty : TokType} (h : TypeShape (ws.map (·.type)) ty) {rest : List Token}
    (hr : curT rest ≠ .PRECISION) (hp : NoPanic (ws ++ rest)) :
    ∃ k, parseTypeName (ws ++ rest) = .ok (join s%" " (ws.map (·.lit)), ty, [], k :: rest) ∧ NoPanic (k :: rest) := by
  rcases h with ⟨h, rfl⟩ | ⟨h, rfl⟩ | ⟨h, rfl⟩ | ⟨h, h1, h2⟩
  · obtain ⟨t₁, r, rfl, ht₁, h⟩ := map_type_cons h
    obtain ⟨t₂, r, rfl, ht₂, h⟩ := map_type_cons h
    rw [map_type_nil h] at hp ⊢
    simp only [List.cons_append, List.nil_append] at hp ⊢
    exact ⟨t₂, by simp [parseTypeName, ht₁, ht₂, join, next_cons hp], hp.of_cons⟩
  · obtain ⟨t, r, rfl, ht, h⟩ := map_type_cons h
    rw [map_type_nil h] at hp ⊢
    exact ⟨t, by simp [parseTypeName, ht, join, hr], hp⟩
  · obtain ⟨t₁, r, rfl, ht₁, h⟩ := map_type_cons h
    obtain ⟨t₂, r, rfl, ht₂, h⟩ := map_type_cons h
    rw [map_type_nil h] at hp ⊢
    simp only [List.cons_append, List.nil_append] at hp ⊢
    exact ⟨t₂, by simp [parseTypeName, ht₁, ht₂, join, checkPeek, next_cons hp], hp.of_cons⟩
  · obtain ⟨t, r, rfl, ht, h⟩ := map_type_cons h
    rw [map_type_nil h] at hp ⊢
    simp only [List.mem_cons, List.not_mem_nil, or_false, not_or] at h2
    exact ⟨t, by simp [parseTypeName, h2, join, ht], hp⟩

theorem parseDataType_shape {t : DataType} {ws as : List Token} (h1 : TypeShape (ws.map (·.type)) t.type)
    (h3 : t.name = join s%" " (ws.map (·.lit))) (h4 : t.expr = as.map (fun a => rawIdent a.lit))
    (h6 : ∀ a ∈ as, a.type ∉ [.OPEN_PAREN, .CLOSE_PAREN, .EOF, .ILLEGAL]) {rest : List Token}
    (hr : curT rest ∉ [.PRECISION, .OPEN_PAREN]) (hp : NoPanic (ws ++ argToks as ++ rest)) :
    ∃ k, parseDataType (ws ++ argToks as ++ rest) = .ok (t, k :: rest) ∧ NoPanic (k :: rest) := by
  simp only [List.mem_cons, List.not_mem_nil, or_false, not_or] at hr
  obtain ⟨name, ty, expr⟩ := t
  simp only at h1 h3 h4
  subst h3 h4
  unfold parseDataType argToks at *
  split at hp
  · rename_i ha
    subst ha
    simp only [if_true, List.append_nil] at hp ⊢
    obtain ⟨k, e, hk⟩ := parseTypeName_reads h1 hr.1 hp
    refine ⟨k, ?_, hk⟩
    rw [e]
    simp [hr.2]
  · rename_i ha
    simp only [if_neg ha, List.append_assoc] at hp ⊢
    obtain ⟨k, e, hk⟩ := parseTypeName_reads h1 (rest := openTok :: (as ++ [closeTok]) ++ rest) (by simp) hp
    have e2 : parseIdents ((openTok :: (as ++ [closeTok])) ++ rest) = .ok (as.map (fun a => rawIdent a.lit), closeTok :: rest) := by
      have hk' : NoPanic (openTok :: (as ++ (closeTok :: rest))) := by simpa using hk.of_cons
      unfold parseIdents
      simp only [List.cons_append, List.append_assoc, List.nil_append, List.length_cons]
      rw [identsLoop, if_pos (by simp), next_cons hk']
      simp only [bind_ok]
      exact identsLoop_reads as h6 _ _ (by simp; omega) hk'.of_cons
    refine ⟨closeTok, ?_, ?_⟩
    · rw [e]
      simp only [bind_ok, peekT_cons, List.cons_append, curT_cons, openTok_type, if_true]
      rw [next_cons (by simpa using hk)]
      simp only [bind_ok]
      rw [← List.cons_append, e2]
      simp
    · intro t ht
      exact hk t (by simp only [List.mem_cons, List.mem_append] at ht ⊢; tauto)

theorem parseDataType_reads {t : DataType} {us : List Token} (h : DtOk t us) {rest : List Token}
    (hr : curT rest ∉ [.PRECISION, .OPEN_PAREN]) (hp : NoPanic (us ++ rest)) :
    ∃ k, parseDataType (us ++ rest) = .ok (t, k :: rest) ∧ NoPanic (k :: rest) := by
  obtain ⟨ws, as, h1, h2, h3, h4, h5, h6, rfl⟩ := h
  exact parseDataType_shape h1 h3 h4 h6 hr hp

theorem lex_join_words {s : Str} (hs : Start s) : ∀ (ws : List Token), AllTok L ws →
    lex .mysql (join s%" " (ws.map (·.lit)) ++ s) = ws ++ lex .mysql s := by
  intro ws
  induction ws with
  | nil => intro _; rfl
  | cons t r ih =>
    intro h
    cases r with
    | nil => simp [join, lex_lx (h t (by simp)) hs.apart]
    | cons j r =>
      have ih := ih (fun x hx => h x (by simp [hx]))
      simp only [List.map_cons, join, List.append_assoc, List.cons_append, List.nil_append] at ih ⊢
      rw [lex_lx (h t (by simp)) (Start.apart (start_cons (by decide))), lex_ws .mysql ' ' _ rfl, ih]

theorem lex_dataType {t : DataType} {us : List Token} (h : DtOk t us) {s : Str} (hs : Start s) :
    lex .mysql (t.str ++ s) = us ++ lex .mysql s := by
  obtain ⟨ws, as, h1, h2, h3, h4, h5, h6, rfl⟩ := h
  unfold DataType.str argToks
  rw [h3, h4]
  by_cases ha : as = []
  · subst ha
    simp [lex_join_words hs ws h2]
  · have hw : ∀ w ∈ as.map (fun a => ((rawIdent a.lit, [a]) : Word)), WordOk w := by
      intro w hw
      obtain ⟨a, ha, rfl⟩ := List.mem_map.1 hw
      exact wordOk_tok (h5 a ha) (rawIdent_raw _)
    have e1 : as.map (fun a => rawIdent a.lit) = ids (as.map (fun a => ((rawIdent a.lit, [a]) : Word))) := by simp [ids]
    have e2 : toks (as.map (fun a => ((rawIdent a.lit, [a]) : Word))) = as := by
      clear hw e1 h4 h5 h6 ha
      induction as with
      | nil => rfl
      | cons a r ih => simp [ih]
    rw [if_neg (by simpa using ha), if_neg ha]
    simp only [List.append_assoc, List.cons_append, List.nil_append]
    rw [lex_join_words (start_cons (by decide)) ws h2,
      lex_symbol .mysql '(' .OPEN_PAREN _ (by decide) (by simp), e1, lex_exprStr (start_cons (by decide)) _ hw, e2,
      lex_symbol .mysql ')' .CLOSE_PAREN _ (by decide) (by simp)]
    simp [openTok, closeTok]

/-! ## Columns -/

def defaultTok : Token := ⟨.DEFAULT, s%"DEFAULT"⟩
def notTok : Token := ⟨.NOT, s%"NOT"⟩
def nullTok : Token := ⟨.NULL, s%"NULL"⟩
def onTok : Token := ⟨.ON, s%"ON"⟩
def commentTok : Token := ⟨.COMMENT, s%"COMMENT"⟩
def characterTok : Token := ⟨.CHARACTER, s%"CHARACTER"⟩
def setTok : Token := ⟨.SET, s%"SET"⟩
def collateTok : Token := ⟨.COLLATE, s%"COLLATE"⟩
def aiTok : Token := ⟨.AUTO_INCREMENT, s%"AUTO_INCREMENT"⟩

/-- The tokens of a default value. -/
def dftToks (g : List Word) : List Token := if g = [] then [] else defaultTok :: toks g

/-- The tokens of `NOT NULL` or `NULL`. -/
def nnToks (nn : Bool) : List Token := if nn then [notTok, nullTok] else [nullTok]

/-- The tokens of `AUTO_INCREMENT`. -/
def aiToks (ai : Bool) : List Token := if ai then [aiTok] else []

/-- The default value consists of the words `g`. -/
def DefaultOk (d : Option Default) (g : List Word) : Prop := (d = none ∧ g = []) ∨ (d = some ⟨some (ids g)⟩ ∧ Dft g ∧ g ≠ [])

/-- The character set is printed with the tokens `us`. -/
def CsOk (o : Option Ident) (us : List Token) : Prop :=
  (o = none ∧ us = []) ∨ ∃ t, L t ∧ o = some (rawIdent t.lit) ∧ us = [characterTok, setTok, t]

/-- The collation is printed with the tokens `us`. -/
def CoOk (o : Option Ident) (us : List Token) : Prop :=
  (o = none ∧ us = []) ∨ ∃ t, L t ∧ o = some (rawIdent t.lit) ∧ us = [collateTok, t]

/-- The action is printed with the tokens `us`. -/
def OaOk (o : Str) (us : List Token) : Prop :=
  (o = [] ∧ us = []) ∨ ∃ t₁ t₂, L t₁ ∧ L t₂ ∧ t₁.type ∈ [.UPDATE, .DELETE] ∧ t₂.type ∈ [.CASCADE, .RESTRICT, .CURRENT_TIMESTAMP] ∧
    o = s%"ON" ++ s%" " ++ t₁.lit ++ s%" " ++ t₂.lit ∧ us = [onTok, t₁, t₂]

/-- The comment is printed with the tokens `us`. -/
def CmOk (o : Str) (us : List Token) : Prop := (o = [] ∧ us = []) ∨ ∃ t, L t ∧ o = t.lit ∧ us = [commentTok, t]

/-- The column `c` is printed with the tokens `ts`. -/
def ColOk (c : Column) (ts : List Token) : Prop :=
  NameOk c.name ∧ ∃ ud us uc g uo um, DtOk c.dataType ud ∧ CsOk c.characterSet us ∧ CoOk c.collate uc ∧ DefaultOk c.default g ∧
    OaOk c.onAction uo ∧ CmOk c.comment um ∧
    ts = nameTok c.name :: (ud ++ (us ++ (uc ++ (nnToks c.notNull ++ (dftToks g ++ (aiToks c.autoIncrement ++ (uo ++ um)))))))

/-- The type is not `BOOLEAN`, and `DEFAULT` has a value. -/
def Valued (c : Column) : Prop := c.dataType.type ≠ .BOOLEAN ∧ c.default ≠ some ⟨none⟩

/-- The attributes, as they were read. -/
def AttrsOk (a : Attrs) : Prop :=
  (∃ us, CsOk a.characterSet us) ∧ (∃ us, CoOk a.collate us) ∧ (a.default ≠ some ⟨none⟩ → ∃ g, DefaultOk a.default g) ∧
    ∃ us, OaOk a.onAction us

theorem columnAttrsLoop_post : ∀ (n : Nat) (a : Attrs) (ts : List Token), AllTok L ts → (ts ≠ [] → AttrsOk a) →
    Post (fun r => (r.2 ≠ [] → AttrsOk r.1) ∧ AllTok L r.2) (columnAttrsLoop n a ts) := by
  have ne : ∀ {ts : List Token}, ts.tail ≠ [] → ts ≠ [] := by
    rintro ts h rfl
    exact h rfl
  have hcur : ∀ {ts : List Token}, AllTok L ts → ts ≠ [] → L (cur ts) := by
    intro ts h hne
    cases ts with
    | nil => exact absurd rfl hne
    | cons t r => exact h t (by simp)
  intro n
  induction n with
  | zero => intros; exact trivial
  | succ n ih =>
    intro a ts hL ha
    unfold columnAttrsLoop
    split
    · exact Post.checkPeek_bind (fun _ => Post.next_bind (Post.next_bind (ih _ _ hL.tail.tail (fun h => ha (ne (ne h))))))
    split
    · exact Post.next_bind (ih _ _ hL.tail (fun h => ha (ne h)))
    split
    · rename_i hc
      have hne : ts ≠ [] := by rintro rfl; cases hc
      obtain ⟨h1, h2, h3, h4⟩ := ha hne
      refine Post.next_bind ((defaultLoop_post _ none _ hL.tail).bind ?_)
      rintro ⟨v, ts₁⟩ ⟨h, h₁⟩
      refine ih _ _ h₁ (fun _ => ⟨h1, h2, ?_, h4⟩)
      intro hv
      rcases h with h | ⟨g, hg, hg0, e⟩
      · exact absurd (congrArg some h.2) hv
      · exact ⟨g, Or.inr ⟨congrArg some e, hg, hg0 rfl⟩⟩
    split
    · rename_i hc
      have hne : ts ≠ [] := by rintro rfl; cases hc
      obtain ⟨h1, h2, h3, h4⟩ := ha hne
      refine Post.next_bind (Post.checkCur_bind (fun hu => Post.next_bind (Post.checkCur_bind (fun hv => Post.next_bind ?_))))
      refine ih _ _ hL.tail.tail.tail (fun h => ⟨h1, h2, h3, _, Or.inr ⟨cur ts.tail, cur ts.tail.tail, hcur hL.tail (ne (ne h)),
        hcur hL.tail.tail (ne h), hu, hv, rfl, rfl⟩⟩)
    split
    · rename_i hc
      have hne : ts ≠ [] := by rintro rfl; cases hc
      obtain ⟨h1, h2, h3, h4⟩ := ha hne
      refine Post.next_bind (Post.checkCur_bind (fun _ => Post.next_bind (Post.next_bind ?_)))
      exact ih _ _ hL.tail.tail.tail (fun h => ⟨⟨_, Or.inr ⟨cur ts.tail.tail, hcur hL.tail.tail (ne h), rfl, rfl⟩⟩, h2, h3, h4⟩)
    split
    · rename_i hc
      have hne : ts ≠ [] := by rintro rfl; cases hc
      obtain ⟨h1, h2, h3, h4⟩ := ha hne
      refine Post.next_bind (Post.next_bind ?_)
      exact ih _ _ hL.tail.tail (fun h => ⟨h1, ⟨_, Or.inr ⟨cur ts.tail, hcur hL.tail (ne h), rfl, rfl⟩⟩, h3, h4⟩)
    split
    · exact Post.next_bind (ih _ _ hL.tail (fun h => ha (ne h)))
    · exact Post.ok ⟨ha, hL⟩

/-- The tokens `p` are read by the loop, with the effect `f`. -/
def Eats (p : List Token) (f : Attrs → Attrs) (ok : TokType → Prop) : Prop :=
  ∀ (a : Attrs) (r : List Token) (n : Nat), NoPanic (p ++ r) → ok (curT r) → p.length < n →
    ∃ m, n - p.length ≤ m ∧ columnAttrsLoop n a (p ++ r) = columnAttrsLoop m (f a) r

theorem eats_nil (ok : TokType → Prop) : Eats [] id ok := fun _ _ n _ _ _ => ⟨n, by simp, rfl⟩

theorem eats_cs {o : Option Ident} {us : List Token} (h : CsOk o us) :
    Eats us (fun a => { a with characterSet := o.orElse fun _ => a.characterSet }) (fun _ => True) := by
  rcases h with ⟨rfl, rfl⟩ | ⟨t, _, rfl, rfl⟩
  · exact eats_nil _
  · intro a r n hp _ hn
    obtain ⟨n, rfl⟩ : ∃ m, n = m + 1 := ⟨n - 1, by omega⟩
    refine ⟨n, by simp, ?_⟩
    simp only [List.cons_append, List.nil_append] at hp ⊢
    rw [columnAttrsLoop]
    simp [characterTok, setTok, checkCur] at hp ⊢
    simp [next_cons hp, next_cons hp.of_cons, next_cons hp.of_cons.of_cons]

theorem eats_co {o : Option Ident} {us : List Token} (h : CoOk o us) :
    Eats us (fun a => { a with collate := o.orElse fun _ => a.collate }) (fun _ => True) := by
  rcases h with ⟨rfl, rfl⟩ | ⟨t, _, rfl, rfl⟩
  · exact eats_nil _
  · intro a r n hp _ hn
    obtain ⟨n, rfl⟩ : ∃ m, n = m + 1 := ⟨n - 1, by omega⟩
    refine ⟨n, by simp, ?_⟩
    simp only [List.cons_append, List.nil_append] at hp ⊢
    rw [columnAttrsLoop]
    simp [collateTok] at hp ⊢
    simp [next_cons hp, next_cons hp.of_cons]

theorem eats_nn (nn : Bool) : Eats (nnToks nn) (fun a => { a with notNull := nn }) (fun _ => True) := by
  intro a r n hp _ hn
  obtain ⟨n, rfl⟩ : ∃ m, n = m + 1 := ⟨n - 1, by omega⟩
  cases nn with
  | false =>
    refine ⟨n, by simp [nnToks], ?_⟩
    simp only [nnToks, Bool.false_eq_true, if_false, List.cons_append, List.nil_append] at hp ⊢
    rw [columnAttrsLoop]
    simp [nullTok] at hp ⊢
    simp [next_cons hp]
  | true =>
    refine ⟨n, by simp [nnToks], ?_⟩
    simp only [nnToks, if_true, List.cons_append, List.nil_append] at hp ⊢
    rw [columnAttrsLoop]
    simp [nullTok, notTok, checkPeek, peekT_cons] at hp ⊢
    simp [next_cons hp, next_cons hp.of_cons]

theorem eats_dft {d : Option Default} {g : List Word} (h : DefaultOk d g) :
    Eats (dftToks g) (fun a => { a with default := d.orElse fun _ => a.default })
      (fun t => d ≠ none → t ∈ [.NOT, .ON, .COMMENT, .COMMA, .CLOSE_PAREN]) := by
  rcases h with ⟨rfl, rfl⟩ | ⟨rfl, hg, hg0⟩
  · exact eats_nil _
  · intro a r n hp hr hn
    obtain ⟨n, rfl⟩ : ∃ m, n = m + 1 := ⟨n - 1, by omega⟩
    refine ⟨n, by simp [dftToks, hg0], ?_⟩
    simp only [dftToks, if_neg hg0, List.cons_append] at hp ⊢
    rw [columnAttrsLoop, if_neg (by simp [defaultTok]), if_neg (by simp [defaultTok]), if_pos (by simp [defaultTok]), next_cons hp]
    simp only [bind_ok, parseColumnDefault]
    rw [defaultLoop_reads hg _ none _ (by simp; omega) (fun h => absurd h hg0) (hr (by simp)) hp.of_cons]
    simp

theorem eats_ai (ai : Bool) : Eats (aiToks ai) (fun a => { a with autoIncrement := ai || a.autoIncrement }) (fun _ => True) := by
  cases ai with
  | false => exact eats_nil _
  | true =>
    intro a r n hp _ hn
    obtain ⟨n, rfl⟩ : ∃ m, n = m + 1 := ⟨n - 1, by omega⟩
    refine ⟨n, by simp [aiToks], ?_⟩
    simp only [aiToks, if_true, List.cons_append, List.nil_append] at hp ⊢
    rw [columnAttrsLoop]
    simp [aiTok] at hp ⊢
    simp [next_cons hp]

theorem eats_oa {o : Str} {us : List Token} (h : OaOk o us) :
    Eats us (fun a => { a with onAction := if o = [] then a.onAction else o }) (fun _ => True) := by
  rcases h with ⟨rfl, rfl⟩ | ⟨t₁, t₂, _, _, h1, h2, rfl, rfl⟩
  · exact eats_nil _
  · intro a r n hp _ hn
    obtain ⟨n, rfl⟩ : ∃ m, n = m + 1 := ⟨n - 1, by omega⟩
    refine ⟨n, by simp, ?_⟩
    simp only [List.cons_append, List.nil_append] at hp ⊢
    rw [columnAttrsLoop, if_neg (by simp [onTok]), if_neg (by simp [onTok]), if_neg (by simp [onTok]), if_pos (by simp [onTok]), next_cons hp]
    simp only [bind_ok, checkCur, curT_cons, next_cons hp.of_cons, curL_cons, next_cons hp.of_cons.of_cons]
    simp only [List.mem_cons, List.not_mem_nil, or_false] at h1 h2
    simp [h1, h2]

theorem Eats.then {p q : List Token} {f g : Attrs → Attrs} {ok ok' : TokType → Prop} (hp : Eats p f ok) (hq : Eats q g ok')
    (h : ∀ r, ok' (curT r) → ok (curT (q ++ r))) : Eats (p ++ q) (fun a => g (f a)) ok' := by
  intro a r n hnp hr hn
  rw [List.append_assoc] at hnp
  simp only [List.length_append] at hn
  obtain ⟨m, hm, e⟩ := hp a (q ++ r) n hnp (h r hr) (by omega)
  obtain ⟨m', hm', e'⟩ := hq (f a) r m hnp.of_append hr (by omega)
  exact ⟨m', by simp only [List.length_append]; omega, by rw [List.append_assoc, e, e']⟩

theorem columnAttrsLoop_reads {c : Column} {us uc uo : List Token} {g : List Word} (hs : CsOk c.characterSet us) (hc : CoOk c.collate uc)
    (hd : DefaultOk c.default g) (ho : OaOk c.onAction uo) (hai : c.default ≠ none → c.autoIncrement = false) {rest : List Token} {n : Nat}
    (hr : curT rest ∈ [.COMMENT, .COMMA, .CLOSE_PAREN])
    (hn : (us ++ (uc ++ (nnToks c.notNull ++ (dftToks g ++ (aiToks c.autoIncrement ++ uo))))).length < n)
    (hp : NoPanic (us ++ (uc ++ (nnToks c.notNull ++ (dftToks g ++ (aiToks c.autoIncrement ++ uo)))) ++ rest)) :
    columnAttrsLoop n ⟨none, none, none, false, false, []⟩ (us ++ (uc ++ (nnToks c.notNull ++ (dftToks g ++ (aiToks c.autoIncrement ++ uo)))) ++ rest) =
      .ok (⟨c.characterSet, c.collate, c.default, c.notNull, c.autoIncrement, c.onAction⟩, rest) := by
  have ho' : Eats uo (fun a => { a with onAction := if c.onAction = [] then a.onAction else c.onAction })
      (fun t => t ∈ [.COMMENT, .COMMA, .CLOSE_PAREN]) := fun a r n hnp _ hn => eats_oa ho a r n hnp trivial hn
  have key := (eats_cs hs).then ((eats_co hc).then ((eats_nn c.notNull).then ((eats_dft hd).then ((eats_ai c.autoIncrement).then ho'
    (fun _ _ => trivial)) (by
      intro r hr hd'
      rw [hai hd']
      simp only [aiToks, Bool.false_eq_true, if_false, List.nil_append]
      rcases ho with ⟨_, rfl⟩ | ⟨_, _, _, _, _, _, _, rfl⟩
      · simp only [List.nil_append, List.mem_cons, List.not_mem_nil, or_false] at hr ⊢
        tauto
      · simp [onTok])) (fun _ _ => trivial)) (fun _ _ => trivial)) (fun _ _ => trivial)
  obtain ⟨m, hm, e⟩ := key ⟨none, none, none, false, false, []⟩ rest n hp hr hn
  rw [e]
  obtain ⟨m, rfl⟩ : ∃ k, m = k + 1 := ⟨m - 1, by omega⟩
  simp only [List.mem_cons, List.not_mem_nil, or_false] at hr
  have hstop : ∀ (a : Attrs), columnAttrsLoop (m + 1) a rest = .ok (a, rest) := by
    intro a
    rcases hr with h | h | h <;> simp [columnAttrsLoop, h]
  rw [hstop]
  have : (if c.onAction = [] then [] else c.onAction) = c.onAction := by split <;> simp_all
  simp [this]

theorem parseComment_reads {o : Str} {um : List Token} (h : CmOk o um) {rest : List Token} (hr : curT rest ∈ [.COMMA, .CLOSE_PAREN])
    (hp : NoPanic (um ++ rest)) : parseComment (um ++ rest) = .ok (o, rest) := by
  unfold parseComment
  rcases h with ⟨rfl, rfl⟩ | ⟨t, _, rfl, rfl⟩
  · simp only [List.mem_cons, List.not_mem_nil, or_false] at hr
    rcases hr with h | h <;> simp [h]
  · simp [commentTok] at hp ⊢
    simp [next_cons hp, next_cons hp.of_cons]

theorem parseColumn_reads {tbl : Ident} {c : Column} {ts : List Token} (h : ColOk c ts) (hai : c.default ≠ none → c.autoIncrement = false)
    {rest : List Token} (hr : curT rest ∈ [.COMMA, .CLOSE_PAREN]) (hp : NoPanic (ts ++ rest)) :
    parseColumn tbl (ts ++ rest) = .ok (c, [], rest) := by
  obtain ⟨hname, ud, us, uc, g, uo, um, hdt, hs, hc, hd, ho, hm, rfl⟩ := h
  have hassoc : us ++ (uc ++ (nnToks c.notNull ++ (dftToks g ++ (aiToks c.autoIncrement ++ (uo ++ (um ++ rest)))))) =
      us ++ (uc ++ (nnToks c.notNull ++ (dftToks g ++ (aiToks c.autoIncrement ++ uo)))) ++ (um ++ rest) := by simp
  simp only [List.cons_append, List.append_assoc] at hp ⊢
  rw [hassoc] at hp ⊢
  have hfirst : ∀ r, isDataType (curT (ud ++ r)) = true := by
    intro r
    obtain ⟨ws, as, h1, _, _, _, _, _, rfl⟩ := hdt
    rcases h1 with ⟨h, _⟩ | ⟨h, _⟩ | ⟨h, _⟩ | ⟨h, h1, _⟩ <;>
      (obtain ⟨t, r, rfl, ht, _⟩ := map_type_cons h; simp [ht, isDataType])
    simpa [isDataType] using h1
  have hrest : curT (us ++ (uc ++ (nnToks c.notNull ++ (dftToks g ++ (aiToks c.autoIncrement ++ uo)))) ++ (um ++ rest)) ∉
      [.PRECISION, .OPEN_PAREN] := by
    rcases hs with ⟨_, rfl⟩ | ⟨_, _, _, rfl⟩
    · rcases hc with ⟨_, rfl⟩ | ⟨_, _, _, rfl⟩
      · cases c.notNull <;> simp [nnToks, notTok, nullTok]
      · simp [collateTok]
    · simp [characterTok]
  have hr' : curT (um ++ rest) ∈ [.COMMENT, .COMMA, .CLOSE_PAREN] := by
    simp only [List.mem_cons, List.not_mem_nil, or_false] at hr
    rcases hm with ⟨_, rfl⟩ | ⟨_, _, _, rfl⟩
    · rcases hr with h | h <;> simp [h]
    · simp [commentTok]
  unfold parseColumn
  simp only [checkCur, curT_cons, nameTok_type, List.mem_singleton, if_true, bind_ok, curL_cons, nameTok_lit, next_cons hp, hfirst]
  obtain ⟨k, e, hk⟩ := parseDataType_reads hdt hrest hp.of_cons
  rw [e]
  simp only [bind_ok, next_cons hk]
  rw [columnAttrsLoop_reads hs hc hd ho hai hr' (by simp; omega) hk.of_cons]
  simp only [bind_ok]
  have hcc : parseColumnConstraints tbl (rawIdent c.name.raw) (um ++ rest) = .ok ([], um ++ rest) := by
    simp only [List.mem_cons, List.not_mem_nil, or_false] at hr'
    unfold parseColumnConstraints columnConstraintsLoop
    rcases hr' with h | h | h <;> simp [h]
  rw [hcc]
  simp only [bind_ok, parseComment_reads hm hr hk.of_cons.of_append, ← hname.1, List.foldl_nil]

theorem L.ne {t : Token} (h : L t) : t.lit ≠ [] := Lx.ne_nil h

theorem lex_column {c : Column} {ts : List Token} (h : ColOk c ts) {s : Str} (hs : Start s) :
    lex .mysql (c.str ++ s) = ts ++ lex .mysql s := by
  obtain ⟨hname, ud, us, uc, g, uo, um, hdt, hcs, hco, hd, ho, hm, rfl⟩ := h
  have hblank : ∀ r, lex .mysql (s%" " ++ r) = lex .mysql r := fun r => lex_ws .mysql ' ' r rfl
  have sp : ∀ r, Start (s%" " ++ r) := fun r => start_cons (by decide)
  have tok : ∀ {t : Token} {r : Str}, L t → Start r → lex .mysql (t.lit ++ r) = t :: lex .mysql r := fun h hs => lex_lx h hs.apart
  have k1 : Start ((if c.comment = [] then [] else s%" COMMENT " ++ c.comment) ++ s) ∧
      lex .mysql ((if c.comment = [] then [] else s%" COMMENT " ++ c.comment) ++ s) = um ++ lex .mysql s := by
    rcases hm with ⟨h, rfl⟩ | ⟨t, ht, h, rfl⟩
    · rw [h]
      exact ⟨hs, rfl⟩
    · rw [h, if_neg ht.ne]
      refine ⟨start_app (by decide), ?_⟩
      rw [List.append_assoc, lex_lit (d := .mysql) (by decide) (by decide) (by decide), tok ht hs]
      rfl
  generalize hr1 : ((if c.comment = [] then [] else s%" COMMENT " ++ c.comment) ++ s : Str) = r1 at k1
  have k2 : Start ((if c.onAction = [] then [] else s%" " ++ c.onAction) ++ r1) ∧
      lex .mysql ((if c.onAction = [] then [] else s%" " ++ c.onAction) ++ r1) = uo ++ lex .mysql r1 := by
    rcases ho with ⟨h, rfl⟩ | ⟨t₁, t₂, h1, h2, _, _, h, rfl⟩
    · rw [h]
      exact ⟨k1.1, rfl⟩
    · rw [h, if_neg (by simp)]
      refine ⟨start_app (by decide), ?_⟩
      simp only [List.append_assoc]
      rw [hblank, lex_lit_start (d := .mysql) (by decide) (by decide) (by decide) (sp _), hblank, tok h1 (sp _), hblank, tok h2 k1.1]
      rfl
  generalize hr2 : ((if c.onAction = [] then [] else s%" " ++ c.onAction) ++ r1 : Str) = r2 at k2
  have k3 : Start ((if c.autoIncrement = true then s%" AUTO_INCREMENT" else []) ++ r2) ∧
      lex .mysql ((if c.autoIncrement = true then s%" AUTO_INCREMENT" else []) ++ r2) = aiToks c.autoIncrement ++ lex .mysql r2 := by
    unfold aiToks
    cases c.autoIncrement with
    | false => exact ⟨k2.1, rfl⟩
    | true =>
      simp only [if_true]
      rw [lex_lit_start (d := .mysql) (by decide) (by decide) (by decide) k2.1]
      exact ⟨start_cons (by decide), rfl⟩
  generalize hr3 : ((if c.autoIncrement = true then s%" AUTO_INCREMENT" else []) ++ r2 : Str) = r3 at k3
  have k4 : Start ((if defaultStr c.default = [] then [] else s%" " ++ defaultStr c.default) ++ r3) ∧
      lex .mysql ((if defaultStr c.default = [] then [] else s%" " ++ defaultStr c.default) ++ r3) =
        dftToks g ++ lex .mysql r3 := by
    rcases hd with ⟨hd, rfl⟩ | ⟨hd, hg, hg0⟩
    · rw [hd]
      exact ⟨k3.1, rfl⟩
    · rw [hd, if_neg (by simp [defaultStr])]
      refine ⟨start_cons (by decide), ?_⟩
      simp only [defaultStr, dftToks, if_neg hg0, List.append_assoc]
      rw [hblank, lex_lit (d := .mysql) (by decide) (by decide) (by decide), lex_exprStr k3.1 g hg.ok]
      simp only [List.cons_append]
      rfl
  generalize hr4 : ((if defaultStr c.default = [] then [] else s%" " ++ defaultStr c.default) ++ r3 : Str) = r4 at k4
  have k5 : Start ((if c.notNull = true then s%" NOT NULL" else s%" NULL") ++ r4) ∧
      lex .mysql ((if c.notNull = true then s%" NOT NULL" else s%" NULL") ++ r4) = nnToks c.notNull ++ lex .mysql r4 := by
    unfold nnToks
    cases c.notNull with
    | false =>
      simp only [Bool.false_eq_true, if_false]
      rw [lex_lit_start (d := .mysql) (by decide) (by decide) (by decide) k4.1]
      exact ⟨start_cons (by decide), rfl⟩
    | true =>
      simp only [if_true]
      rw [lex_lit_start (d := .mysql) (by decide) (by decide) (by decide) k4.1]
      exact ⟨start_cons (by decide), rfl⟩
  generalize hr5 : ((if c.notNull = true then s%" NOT NULL" else s%" NULL") ++ r4 : Str) = r5 at k5
  have k6 : Start ((if identStr c.collate = [] then [] else s%" COLLATE " ++ identStr c.collate) ++ r5) ∧
      lex .mysql ((if identStr c.collate = [] then [] else s%" COLLATE " ++ identStr c.collate) ++ r5) = uc ++ lex .mysql r5 := by
    rcases hco with ⟨h, rfl⟩ | ⟨t, ht, h, rfl⟩
    · rw [h]
      exact ⟨k5.1, rfl⟩
    · have e : identStr c.collate = t.lit := by rw [h]; exact rawIdent_raw _
      rw [e, if_neg ht.ne]
      refine ⟨start_app (by decide), ?_⟩
      rw [List.append_assoc, lex_lit (d := .mysql) (by decide) (by decide) (by decide), tok ht k5.1]
      rfl
  generalize hr6 : ((if identStr c.collate = [] then [] else s%" COLLATE " ++ identStr c.collate) ++ r5 : Str) = r6 at k6
  have k7 : Start ((if identStr c.characterSet = [] then [] else s%" CHARACTER SET " ++ identStr c.characterSet) ++ r6) ∧
      lex .mysql ((if identStr c.characterSet = [] then [] else s%" CHARACTER SET " ++ identStr c.characterSet) ++ r6) =
        us ++ lex .mysql r6 := by
    rcases hcs with ⟨h, rfl⟩ | ⟨t, ht, h, rfl⟩
    · rw [h]
      exact ⟨k6.1, rfl⟩
    · have e : identStr c.characterSet = t.lit := by rw [h]; exact rawIdent_raw _
      rw [e, if_neg ht.ne]
      refine ⟨start_app (by decide), ?_⟩
      rw [List.append_assoc, lex_lit (d := .mysql) (by decide) (by decide) (by decide), tok ht k6.1]
      rfl
  unfold Column.str
  simp only [Ident.str, List.append_assoc]
  rw [hr1, hr2, hr3, hr4, hr5, hr6, lex_name hname (sp _), hblank, lex_dataType hdt k7.1, k7.2, k6.2, k5.2, k4.2, k3.2, k2.2, k1.2]
  simp only [List.cons_append, List.append_assoc]

end Ddl.My
