import Verif.Lemmas.SpPrint
import Verif.Lemmas.SpSat
import Verif.Lemmas.Join
import Verif.Spec.RoundTripSp

/-! # Spanner: columns and constraints, printed and read again -/

namespace Ddl.Sp
open Spec
set_option autoImplicit false

/-! ## Names -/

/-- The identifier is the one read from the token of its text. -/
def NameOk (i : Ident) : Prop := i = rawIdent i.raw ∧ L ⟨.IDENT, i.raw⟩

/-- The token of a name. -/
def nameTok (i : Ident) : Token := ⟨.IDENT, i.raw⟩

@[simp] theorem nameTok_type (i : Ident) : (nameTok i).type = .IDENT := rfl
@[simp] theorem nameTok_lit (i : Ident) : (nameTok i).lit = i.raw := rfl

theorem nameOk_cur {ts : List Token} (hL : AllTok L ts) (hc : curT ts = .IDENT) : NameOk (rawIdent (curL ts)) := by
  refine ⟨by simp, ?_⟩
  simpa using hL.ident hc (by decide)

theorem lex_name {i : Ident} (h : NameOk i) {s : Str} (hs : Start s) :
    lex .spanner (i.raw ++ s) = nameTok i :: lex .spanner s := lex_lx (t := nameTok i) h.2 hs.apart

theorem start_app {c : Char} {r b : Str} (h : Soft c) : Start ((c :: r) ++ b) := start_cons h

/-- The tokens of an order. -/
def ordToks : Option Bool → List Token
  | none => []
  | some true => [⟨.DESC, s%"DESC"⟩]
  | some false => [⟨.ASC, s%"ASC"⟩]

/-- The tokens of a column list, without the brackets. -/
def colToks : List ColumnIdent → List Token
  | [] => []
  | [i] => nameTok i.ident :: ordToks i.order
  | i :: j :: r => nameTok i.ident :: (ordToks i.order ++ commaTok :: colToks (j :: r))

theorem lex_columnIdent {i : ColumnIdent} (h : NameOk i.ident) {s : Str} (hs : Start s) :
    lex .spanner (i.str ++ s) = nameTok i.ident :: (ordToks i.order ++ lex .spanner s) := by
  obtain ⟨i, o⟩ := i
  simp only at h
  unfold ColumnIdent.str
  simp only [Ident.str, List.append_assoc]
  rcases o with _ | _ | _
  · simpa [ordToks] using lex_name h hs
  · simp only [ordToks]
    rw [lex_name h (start_app (by decide)), lex_lit_start (d := .spanner) (by decide) (by decide) (by decide) hs]
    rfl
  · simp only [ordToks]
    rw [lex_name h (start_app (by decide)), lex_lit_start (d := .spanner) (by decide) (by decide) (by decide) hs]
    rfl

theorem lex_columnsStr {s : Str} (hs : Start s) : ∀ (l : List ColumnIdent), (∀ i ∈ l, NameOk i.ident) →
    lex .spanner (columnsStr l ++ s) = colToks l ++ lex .spanner s := by
  intro l
  unfold columnsStr
  induction l with
  | nil => intro _; rfl
  | cons i r ih =>
    intro h
    cases r with
    | nil => simp [join, colToks, lex_columnIdent (h i (by simp)) hs]
    | cons j r =>
      have ih := ih (fun x hx => h x (by simp [hx]))
      simp only [List.map_cons, join, List.append_assoc, colToks, List.cons_append, List.nil_append] at ih ⊢
      rw [lex_columnIdent (h i (by simp)) (start_cons (by decide)), lex_symbol .spanner ',' .COMMA _ (by decide) (by simp),
        lex_ws .spanner ' ' _ rfl, ih]
      rfl

theorem parseOrder_reads {t : Token} (o : Option Bool) {rest : List Token} (hr : curT rest ∈ [.COMMA, .CLOSE_PAREN])
    (hp : NoPanic (t :: (ordToks o ++ rest))) :
    ∃ k, parseOrder (t :: (ordToks o ++ rest)) = .ok (o, k :: rest) ∧ NoPanic (k :: rest) := by
  simp only [List.mem_cons, List.not_mem_nil, or_false] at hr
  rcases o with _ | _ | _
  · refine ⟨t, ?_, by simpa [ordToks] using hp⟩
    simp only [ordToks, List.nil_append, parseOrder, peekT_cons]
    rcases hr with h | h <;> simp [h]
  · simp only [ordToks, List.cons_append, List.nil_append] at hp ⊢
    exact ⟨_, by simp [parseOrder, peekT_cons, next_cons hp], hp.of_cons⟩
  · simp only [ordToks, List.cons_append, List.nil_append] at hp ⊢
    exact ⟨_, by simp [parseOrder, peekT_cons, next_cons hp], hp.of_cons⟩

theorem columnIdentsLoop_reads : ∀ (l : List ColumnIdent), (∀ i ∈ l, NameOk i.ident) → ∀ (n : Nat) (rest : List Token),
    (colToks l).length < n → NoPanic (colToks l ++ closeTok :: rest) →
    columnIdentsLoop n (colToks l ++ closeTok :: rest) = .ok (l, rest) := by
  intro l
  induction l with
  | nil =>
    intro _ n rest hn hp
    obtain ⟨n, rfl⟩ : ∃ m, n = m + 1 := ⟨n - 1, by omega⟩
    simp only [colToks, List.nil_append] at hp ⊢
    simp [columnIdentsLoop, next_cons hp]
  | cons i r ih =>
    intro h n rest hn hp
    obtain ⟨n, rfl⟩ : ∃ m, n = m + 1 := ⟨n - 1, by omega⟩
    have hi : rawIdent i.ident.raw = i.ident := (h i (by simp)).1.symm
    cases r with
    | nil =>
      simp only [colToks, List.cons_append, List.append_assoc, List.nil_append, List.length_cons] at hp hn ⊢
      obtain ⟨k, e, hk⟩ := parseOrder_reads i.order (by simp) hp
      have := ih (by simp) n rest (by simp [colToks]; omega) hk.of_cons
      simp only [colToks, List.nil_append] at this
      simp [columnIdentsLoop, e, next_cons hk, this, hi]
    | cons j r =>
      simp only [colToks, List.cons_append, List.append_assoc, List.length_cons, List.length_append] at hp hn ⊢
      obtain ⟨n, rfl⟩ : ∃ m, n = m + 1 := ⟨n - 1, by omega⟩
      obtain ⟨k, e, hk⟩ := parseOrder_reads i.order (by simp) hp
      have := ih (fun x hx => h x (by simp [hx])) n rest (by omega) hk.of_cons.of_cons
      rw [columnIdentsLoop, if_neg (by simp), if_pos (by simp), e]
      simp only [bind_ok, next_cons hk]
      rw [columnIdentsLoop, if_pos (by simp), next_cons hk.of_cons]
      simp [this, hi]

/-- A bracketed column list. -/
theorem parseColumnIdents_reads {l : List ColumnIdent} (h : ∀ i ∈ l, NameOk i.ident) {rest : List Token}
    (hp : NoPanic (openTok :: (colToks l ++ closeTok :: rest))) :
    parseColumnIdents (openTok :: (colToks l ++ closeTok :: rest)) = .ok (l, rest) := by
  unfold parseColumnIdents
  rw [List.length_cons, columnIdentsLoop, if_pos (by simp), next_cons hp]
  simp only [bind_ok]
  exact columnIdentsLoop_reads l h _ _ (by simp; omega) hp.of_cons

theorem parseOrder_post {ts : List Token} (hL : AllTok L ts) : Post (fun r => AllTok L r.2) (parseOrder ts) := by
  unfold parseOrder
  split
  · exact Post.next_bind (Post.ok hL.tail)
  split
  · exact Post.next_bind (Post.ok hL.tail)
  · exact Post.ok hL

theorem columnIdentsLoop_post : ∀ (n : Nat) (ts : List Token), AllTok L ts →
    Post (fun r => (∀ i ∈ r.1, NameOk i.ident) ∧ AllTok L r.2) (columnIdentsLoop n ts) := by
  intro n
  induction n with
  | zero => intro ts _; exact trivial
  | succ n ih =>
    intro ts hL
    unfold columnIdentsLoop
    split
    · exact Post.next_bind (ih _ hL.tail)
    split
    · rename_i hc
      refine (parseOrder_post hL).bind ?_
      rintro ⟨o, ts₀⟩ h₀
      refine Post.next_bind ((ih _ (AllTok.tail h₀)).bind ?_)
      rintro ⟨i₁, ts₁⟩ ⟨h₁, h₂⟩
      refine Post.ok ⟨?_, h₂⟩
      intro i hi
      rcases List.mem_cons.1 hi with rfl | hi
      · exact nameOk_cur hL hc
      · exact h₁ i hi
    split
    · exact Post.next_bind (Post.ok ⟨by simp, hL.tail⟩)
    · exact trivial

theorem parseColumnIdents_post {ts : List Token} (hL : AllTok L ts) :
    Post (fun r => (∀ i ∈ r.1, NameOk i.ident) ∧ AllTok L r.2) (parseColumnIdents ts) := columnIdentsLoop_post _ _ hL

/-! ## Data types -/

/-- The tokens of the parameters of a type. -/
def argToks (as : List Token) : List Token := if as = [] then [] else openTok :: (as ++ [closeTok])

/-- The data type `t` is written with the tokens `ts`. -/
def DtOk (t : DataType) (ts : List Token) : Prop :=
  ∃ w as, L w ∧ isDataType w.type = true ∧ w.type = t.type ∧ t.name = w.lit ∧
    t.expr = as.map (fun a => rawIdent a.lit) ∧ AllTok L as ∧
    (∀ a ∈ as, a.type ∉ [.OPEN_PAREN, .CLOSE_PAREN, .EOF, .ILLEGAL]) ∧ ts = w :: argToks as

theorem identsLoop_post : ∀ (n : Nat) (ts : List Token), AllTok L ts →
    Post (fun r => (∃ as, r.1 = as.map (fun a => rawIdent a.lit) ∧ AllTok L as ∧
      ∀ a ∈ as, a.type ∉ [.OPEN_PAREN, .CLOSE_PAREN, .EOF, .ILLEGAL]) ∧ AllTok L r.2) (identsLoop n ts) := by
  intro n
  induction n with
  | zero => intro ts _; exact trivial
  | succ n ih =>
    intro ts hL
    unfold identsLoop
    split
    · exact Post.next_bind (ih _ hL.tail)
    split
    · exact Post.ok ⟨⟨[], rfl, .nil, by simp⟩, hL⟩
    split
    · exact trivial
    · rename_i h1 h2 h3
      simp only [not_or] at h3
      refine Post.next_bind ((ih _ hL.tail).bind ?_)
      rintro ⟨i₁, ts₁⟩ ⟨⟨as, e, h₁, h₂⟩, h₃⟩
      simp only at e
      refine Post.ok ⟨⟨cur ts :: as, by simp [e]; rfl, ?_, ?_⟩, h₃⟩
      · intro t ht
        rcases List.mem_cons.1 ht with rfl | ht
        · exact hL.cur h3.1
        · exact h₁ t ht
      · intro t ht
        rcases List.mem_cons.1 ht with rfl | ht
        · have : curT ts ∉ [.OPEN_PAREN, .CLOSE_PAREN, .EOF, .ILLEGAL] := by simp [h1, h2, h3]
          exact this
        · exact h₂ t ht

theorem identsLoop_reads : ∀ (as : List Token), (∀ a ∈ as, a.type ∉ [.OPEN_PAREN, .CLOSE_PAREN, .EOF, .ILLEGAL]) →
    ∀ (n : Nat) (rest : List Token), as.length < n → NoPanic (as ++ closeTok :: rest) →
    identsLoop n (as ++ closeTok :: rest) = .ok (as.map (fun a => rawIdent a.lit), closeTok :: rest) := by
  intro as
  induction as with
  | nil =>
    intro _ n rest hn hp
    obtain ⟨n, rfl⟩ : ∃ m, n = m + 1 := ⟨n - 1, by omega⟩
    simp [identsLoop]
  | cons a r ih =>
    intro h n rest hn hp
    obtain ⟨n, rfl⟩ : ∃ m, n = m + 1 := ⟨n - 1, by omega⟩
    have ha := h a (by simp)
    simp only [List.mem_cons, List.not_mem_nil, or_false, not_or] at ha
    simp only [List.cons_append, List.length_cons] at hn hp ⊢
    rw [identsLoop, if_neg (by simp [ha]), if_neg (by simp [ha]), if_neg (by simp [ha]), next_cons hp]
    simp only [bind_ok]
    rw [ih (fun x hx => h x (by simp [hx])) n rest (by omega) hp.of_cons]
    simp

theorem parseDataType_post {ts : List Token} (hL : AllTok L ts) (hd : isDataType (curT ts) = true) :
    Post (fun r => (∃ us, DtOk r.1 us) ∧ AllTok L r.2) (parseDataType ts) := by
  have hx : L (cur ts) := hL.cur (by intro h; rw [h] at hd; simp [isDataType] at hd)
  unfold parseDataType
  simp only
  split
  · refine Post.next_bind ((identsLoop_post _ _ hL.tail).bind ?_)
    rintro ⟨i, ts₂⟩ ⟨⟨as, e, h5, h6⟩, h7⟩
    exact Post.ok ⟨⟨_, cur ts, as, hx, hd, rfl, rfl, e, h5, h6, rfl⟩, h7⟩
  · exact Post.ok ⟨⟨_, cur ts, [], hx, hd, rfl, rfl, rfl, .nil, by simp, rfl⟩, hL⟩

theorem parseDataType_reads {t : DataType} {us : List Token} (h : DtOk t us) {rest : List Token}
    (hr : curT rest ≠ .OPEN_PAREN) (hp : NoPanic (us ++ rest)) :
    ∃ k, parseDataType (us ++ rest) = .ok (t, k :: rest) ∧ NoPanic (k :: rest) := by
  obtain ⟨w, as, h1, h2, h3, h4, h5, h6, h7, rfl⟩ := h
  obtain ⟨name, ty, expr⟩ := t
  simp only at h3 h4 h5
  subst h3 h4 h5
  unfold parseDataType argToks at *
  split at hp
  · rename_i ha
    subst ha
    simp only [if_true, List.cons_append, List.nil_append] at hp ⊢
    refine ⟨w, ?_, hp⟩
    simp [hr, peekT_cons]
  · rename_i ha
    simp only [if_neg ha, List.cons_append, List.append_assoc, List.nil_append] at hp ⊢
    have e2 : parseIdents (openTok :: (as ++ closeTok :: rest)) = .ok (as.map (fun a => rawIdent a.lit), closeTok :: rest) := by
      unfold parseIdents
      simp only [List.length_cons]
      rw [identsLoop, if_pos (by simp), next_cons hp.of_cons]
      simp only [bind_ok]
      exact identsLoop_reads as h7 _ _ (by simp; omega) hp.of_cons.of_cons
    refine ⟨closeTok, ?_, hp.of_cons.of_cons.of_append⟩
    simp [peekT_cons, next_cons hp, e2]

theorem lex_dataType {t : DataType} {us : List Token} (h : DtOk t us) {s : Str} (hs : Start s) :
    lex .spanner (t.str ++ s) = us ++ lex .spanner s := by
  obtain ⟨w, as, h1, h2, h3, h3', h4, h5, h6, rfl⟩ := h
  unfold DataType.str argToks
  rw [h3', h4]
  by_cases ha : as = []
  · subst ha
    simp [lex_lx h1 hs.apart]
  · have hw : ∀ w ∈ as.map (fun a => ((rawIdent a.lit, [a]) : Word)), WordOk w := by
      intro w hw
      obtain ⟨a, ha, rfl⟩ := List.mem_map.1 hw
      exact wordOk_tok (h5 a ha) (rawIdent_raw _)
    have e1 : as.map (fun a => rawIdent a.lit) = ids (as.map (fun a => ((rawIdent a.lit, [a]) : Word))) := by simp [ids]
    have e2 : toks (as.map (fun a => ((rawIdent a.lit, [a]) : Word))) = as := by
      clear hw e1 h4 h5 h6 ha
      induction as with
      | nil => rfl
      | cons a r ih => simp [ih]
    rw [if_neg (by simpa using ha), if_neg ha]
    simp only [List.append_assoc, List.cons_append, List.nil_append]
    rw [lex_lx h1 (Start.apart (start_cons (by decide))),
      lex_symbol .spanner '(' .OPEN_PAREN _ (by decide) (by simp), e1, lex_exprStr (start_cons (by decide)) _ hw, e2,
      lex_symbol .spanner ')' .CLOSE_PAREN _ (by decide) (by simp)]
    simp [openTok, closeTok]

/-! ## Columns -/

def defaultTok : Token := ⟨.DEFAULT, s%"DEFAULT"⟩
def notTok : Token := ⟨.NOT, s%"NOT"⟩
def nullTok : Token := ⟨.NULL, s%"NULL"⟩
def optionsTok : Token := ⟨.OPTIONS, s%"OPTIONS"⟩

/-- The tokens of a default value. -/
def dftToks (g : List Word) : List Token := if g = [] then [] else defaultTok :: toks g

/-- The tokens of `NOT NULL`. -/
def nnToks (nn : Bool) : List Token := if nn then [notTok, nullTok] else []

/-- The default value consists of the words `g`. -/
def DefaultOk (d : Option Default) (g : List Word) : Prop := (d = none ∧ g = []) ∨ (d = some ⟨some (ids g)⟩ ∧ Dft g ∧ g ≠ [])

/-- The options of a column are printed with the tokens `us`. -/
def OptOk (o : Option Expr) (us : List Token) : Prop :=
  (o = none ∧ us = []) ∨ ∃ g, Grp g ∧ o = some (rawIdent s%"(" :: ids g) ∧ us = optionsTok :: openTok :: toks g

/-- The column `c` is printed with the tokens `ts`. -/
def ColOk (c : Column) (ts : List Token) : Prop :=
  NameOk c.name ∧ ∃ ud g uo, DtOk c.dataType ud ∧ DefaultOk c.default g ∧ OptOk c.options uo ∧
    ts = nameTok c.name :: (ud ++ (nnToks c.notNull ++ (dftToks g ++ uo)))

theorem columnAttrsLoop_post : ∀ (n : Nat) (d : Option Default) (nn : Bool) (ts : List Token), AllTok L ts →
    (d ≠ some ⟨none⟩ → ∃ g, DefaultOk d g) →
    Post (fun r => (r.1 ≠ some ⟨none⟩ → ∃ g, DefaultOk r.1 g) ∧ AllTok L r.2.2) (columnAttrsLoop n d nn ts) := by
  intro n
  induction n with
  | zero => intros; exact trivial
  | succ n ih =>
    intro d nn ts hL ha
    unfold columnAttrsLoop
    split
    · exact Post.checkPeek_bind (fun _ => Post.next_bind (Post.next_bind (ih _ _ _ hL.tail.tail ha)))
    split
    · exact Post.next_bind (ih _ _ _ hL.tail ha)
    split
    · refine Post.next_bind ((defaultLoop_post _ none _ hL.tail).bind ?_)
      rintro ⟨v, ts₁⟩ ⟨h, h₁⟩
      refine ih _ _ _ h₁ (fun hv => ?_)
      rcases h with h | ⟨g, hg, hg0, e⟩
      · exact absurd (congrArg some h.2) hv
      · exact ⟨g, Or.inr ⟨congrArg some e, hg, hg0 rfl⟩⟩
    · exact Post.ok ⟨ha, hL⟩

theorem parseColumnOptions_post {ts : List Token} (hL : AllTok L ts) :
    Post (fun r => (∃ us, OptOk r.1 us) ∧ AllTok L r.2) (parseColumnOptions ts) := by
  unfold parseColumnOptions
  split
  · refine Post.next_bind ((parseExpr_post hL.tail).bind ?_)
    rintro ⟨i, ts₁⟩ ⟨⟨g, hg, e⟩, h₁⟩
    simp only at e
    exact Post.ok ⟨⟨_, Or.inr ⟨g, hg, by simp [e], rfl⟩⟩, h₁⟩
  · exact Post.ok ⟨⟨[], Or.inl ⟨rfl, rfl⟩⟩, hL⟩

theorem columnAttrsLoop_reads {nn : Bool} {d : Option Default} {g : List Word} (hd : DefaultOk d g) {rest : List Token} {n : Nat}
    (hr : curT rest ∈ [.OPTIONS, .COMMA, .CLOSE_PAREN]) (hr' : d ≠ none → curT rest ∈ [.COMMA, .CLOSE_PAREN])
    (hn : (nnToks nn ++ dftToks g).length < n) (hp : NoPanic (nnToks nn ++ (dftToks g ++ rest))) :
    columnAttrsLoop n none false (nnToks nn ++ (dftToks g ++ rest)) = .ok (d, nn, rest) := by
  simp only [List.mem_cons, List.not_mem_nil, or_false] at hr hr'
  have hstop : ∀ m d nn, columnAttrsLoop (m + 1) d nn rest = .ok (d, nn, rest) := by
    intro m d nn
    rcases hr with h | h | h <;> simp [columnAttrsLoop, h]
  have key : ∀ n nn, (dftToks g).length < n → NoPanic (dftToks g ++ rest) → columnAttrsLoop n none nn (dftToks g ++ rest) = .ok (d, nn, rest) := by
    intro n nn hn hp
    obtain ⟨n, rfl⟩ : ∃ m, n = m + 1 := ⟨n - 1, by omega⟩
    rcases hd with ⟨rfl, rfl⟩ | ⟨rfl, hg, hg0⟩
    · exact hstop _ _ _
    · simp only [dftToks, if_neg hg0, List.cons_append, List.length_cons] at hn hp ⊢
      rw [columnAttrsLoop, if_neg (by simp [defaultTok]), if_neg (by simp [defaultTok]), if_pos (by simp [defaultTok]), next_cons hp]
      simp only [bind_ok, parseColumnDefault]
      rw [defaultLoop_reads hg _ none _ (by simp; omega) (fun h => absurd h hg0) (by
        rcases hr' (by simp) with h | h <;> simp [h]) hp.of_cons]
      obtain ⟨m, rfl⟩ : ∃ m, n = m + 1 := ⟨n - 1, by omega⟩
      simp [hstop]
  cases nn with
  | false => exact key n false (by simpa [nnToks] using hn) (by simpa [nnToks] using hp)
  | true =>
    obtain ⟨n, rfl⟩ : ∃ m, n = m + 1 := ⟨n - 1, by omega⟩
    simp only [nnToks, if_true, List.cons_append, List.nil_append, List.length_cons] at hp hn ⊢
    rw [columnAttrsLoop]
    simp [nullTok, notTok, checkPeek, peekT_cons] at hp ⊢
    simp only [next_cons hp, next_cons hp.of_cons, bind_ok]
    exact key n true (by omega) hp.of_cons.of_cons

theorem parseColumnOptions_reads {o : Option Expr} {uo : List Token} (h : OptOk o uo) {rest : List Token} (hr : curT rest ∈ [.COMMA, .CLOSE_PAREN])
    (hp : NoPanic (uo ++ rest)) : parseColumnOptions (uo ++ rest) = .ok (o, rest) := by
  unfold parseColumnOptions
  rcases h with ⟨rfl, rfl⟩ | ⟨g, hg, rfl, rfl⟩
  · simp only [List.mem_cons, List.not_mem_nil, or_false] at hr
    rcases hr with h | h <;> simp [h]
  · simp only [List.cons_append] at hp ⊢
    simp [optionsTok] at hp ⊢
    simp [next_cons hp, parseExpr_reads hg hp.of_cons]

theorem parseColumn_reads {tbl : Ident} {c : Column} {ts : List Token} (h : ColOk c ts) (hR : c.Rereadable)
    {rest : List Token} (hr : curT rest ∈ [.COMMA, .CLOSE_PAREN]) (hp : NoPanic (ts ++ rest)) :
    parseColumn tbl (ts ++ rest) = .ok (c, [], rest) := by
  obtain ⟨hname, ud, g, uo, hdt, hd, ho, rfl⟩ := h
  simp only [List.cons_append, List.append_assoc] at hp ⊢
  have hfirst : ∀ r, isDataType (curT (ud ++ r)) = true := by
    intro r
    obtain ⟨w, as, _, h1, _, _, _, _, _, rfl⟩ := hdt
    simpa using h1
  have hr' : curT (uo ++ rest) ∈ [.OPTIONS, .COMMA, .CLOSE_PAREN] := by
    simp only [List.mem_cons, List.not_mem_nil, or_false] at hr
    rcases ho with ⟨_, rfl⟩ | ⟨_, _, _, rfl⟩
    · rcases hr with h | h <;> simp [h]
    · simp [optionsTok]
  have hr2 : c.default ≠ none → curT (uo ++ rest) ∈ [.COMMA, .CLOSE_PAREN] := by
    intro hne
    obtain ⟨d, e⟩ := Option.ne_none_iff_exists'.1 hne
    rcases ho with ⟨_, rfl⟩ | ⟨_, _, h, rfl⟩
    · exact hr
    · rw [(hR d e).2] at h; cases h
  have hrest : curT (nnToks c.notNull ++ (dftToks g ++ (uo ++ rest))) ≠ .OPEN_PAREN := by
    cases c.notNull with
    | true => simp [nnToks, notTok]
    | false =>
      simp only [nnToks, Bool.false_eq_true, if_false, List.nil_append, dftToks]
      split
      · simp only [List.mem_cons, List.not_mem_nil, or_false] at hr'
        rcases hr' with h | h | h <;> simp [h]
      · simp [defaultTok]
  unfold parseColumn
  simp only [checkCur, curT_cons, nameTok_type, List.mem_singleton, if_true, bind_ok, curL_cons, nameTok_lit, next_cons hp, hfirst]
  obtain ⟨k, e, hk⟩ := parseDataType_reads hdt hrest hp.of_cons
  rw [e]
  simp only [bind_ok, next_cons hk]
  rw [columnAttrsLoop_reads hd hr' hr2 (by simp; omega) hk.of_cons]
  simp only [bind_ok]
  have hcc : parseColumnConstraints tbl (rawIdent c.name.raw) (uo ++ rest) = .ok ([], uo ++ rest) := by
    simp only [List.mem_cons, List.not_mem_nil, or_false] at hr'
    unfold parseColumnConstraints columnConstraintsLoop
    rcases hr' with h | h | h <;> simp [h]
  rw [hcc]
  simp only [bind_ok, appendAll, parseColumnOptions_reads ho hr hk.of_cons.of_append.of_append, ← hname.1]

theorem lex_column {c : Column} {ts : List Token} (h : ColOk c ts) {s : Str} (hs : Start s) :
    lex .spanner (c.str ++ s) = ts ++ lex .spanner s := by
  obtain ⟨hname, ud, g, uo, hdt, hd, ho, rfl⟩ := h
  have hblank : ∀ r, lex .spanner (s%" " ++ r) = lex .spanner r := fun r => lex_ws .spanner ' ' r rfl
  have sp : ∀ r, Start (s%" " ++ r) := fun r => start_cons (by decide)
  have k3 : Start ((if optExprStr c.options = [] then [] else s%" OPTIONS " ++ optExprStr c.options) ++ s) ∧
      lex .spanner ((if optExprStr c.options = [] then [] else s%" OPTIONS " ++ optExprStr c.options) ++ s) = uo ++ lex .spanner s := by
    rcases ho with ⟨h, rfl⟩ | ⟨g, hg, h, rfl⟩
    · rw [h]
      exact ⟨hs, rfl⟩
    · have hw : ∀ w ∈ ((rawIdent s%"(", [openTok]) : Word) :: g, WordOk w := by
        intro w hw
        rcases List.mem_cons.1 hw with rfl | hw
        · exact openWord_ok
        · exact hg.ok w hw
      have e : optExprStr c.options = exprStr (ids (((rawIdent s%"(", [openTok]) : Word) :: g)) := by rw [h]; rfl
      rw [e, if_neg (by simp [exprStr, Ident.str])]
      refine ⟨start_app (by decide), ?_⟩
      rw [List.append_assoc, lex_lit (d := .spanner) (by decide) (by decide) (by decide), lex_exprStr hs _ hw]
      rfl
  generalize hr3 : ((if optExprStr c.options = [] then [] else s%" OPTIONS " ++ optExprStr c.options) ++ s : Str) = r3 at k3
  have k4 : Start ((if defaultStr c.default = [] then [] else s%" " ++ defaultStr c.default) ++ r3) ∧
      lex .spanner ((if defaultStr c.default = [] then [] else s%" " ++ defaultStr c.default) ++ r3) =
        dftToks g ++ lex .spanner r3 := by
    rcases hd with ⟨hd, rfl⟩ | ⟨hd, hg, hg0⟩
    · rw [hd]
      exact ⟨k3.1, rfl⟩
    · rw [hd, if_neg (by simp [defaultStr])]
      refine ⟨start_cons (by decide), ?_⟩
      simp only [defaultStr, dftToks, if_neg hg0, List.append_assoc]
      rw [hblank, lex_lit (d := .spanner) (by decide) (by decide) (by decide), lex_exprStr k3.1 g hg.ok]
      simp only [List.cons_append]
      rfl
  generalize hr4 : ((if defaultStr c.default = [] then [] else s%" " ++ defaultStr c.default) ++ r3 : Str) = r4 at k4
  have k5 : Start ((if c.notNull = true then s%" NOT NULL" else []) ++ r4) ∧
      lex .spanner ((if c.notNull = true then s%" NOT NULL" else []) ++ r4) = nnToks c.notNull ++ lex .spanner r4 := by
    unfold nnToks
    cases c.notNull with
    | false => exact ⟨k4.1, rfl⟩
    | true =>
      simp only [if_true]
      rw [lex_lit_start (d := .spanner) (by decide) (by decide) (by decide) k4.1]
      exact ⟨start_cons (by decide), rfl⟩
  unfold Column.str
  simp only [Ident.str, List.append_assoc]
  rw [hr3, hr4, lex_name hname (sp _), hblank, lex_dataType hdt k5.1, k5.2, k4.2, k3.2]
  simp only [List.cons_append, List.append_assoc]

end Ddl.Sp
