import Verif.Lemmas.PgPrint
import Verif.Lemmas.PgSat
import Verif.Lemmas.Join

/-! # PostgreSQL: columns and constraints, printed and read again -/

namespace Ddl.Pg
open Spec
set_option autoImplicit false

/-! ## Names -/

/-- The identifier is the one read from the token of its text. -/
def NameOk (i : Ident) : Prop := i = rawIdent i.raw ∧ L ⟨.IDENT, i.raw⟩

/-- The token of a name. -/
def nameTok (i : Ident) : Token := ⟨.IDENT, i.raw⟩

@[simp] theorem nameTok_type (i : Ident) : (nameTok i).type = .IDENT := rfl
@[simp] theorem nameTok_lit (i : Ident) : (nameTok i).lit = i.raw := rfl

theorem nameOk_cur {ts : List Token} (hL : AllTok L ts) (hc : curT ts = .IDENT) : NameOk (rawIdent (curL ts)) := by
  refine ⟨by simp, ?_⟩
  simpa using hL.ident hc (by decide)

theorem lex_name {i : Ident} (h : NameOk i) {s : Str} (hs : Start s) :
    lex .postgres (i.raw ++ s) = nameTok i :: lex .postgres s := lex_lx (t := nameTok i) h.2 hs.apart

/-- The tokens of a column list, without the brackets. -/
def colToks : List Ident → List Token
  | [] => []
  | [i] => [nameTok i]
  | i :: j :: r => nameTok i :: commaTok :: colToks (j :: r)

theorem lex_columnsStr {s : Str} (hs : Start s) : ∀ (l : List Ident), (∀ i ∈ l, NameOk i) →
    lex .postgres (columnsStr l ++ s) = colToks l ++ lex .postgres s := by
  intro l
  unfold columnsStr
  induction l with
  | nil => intro _; rfl
  | cons i r ih =>
    intro h
    cases r with
    | nil => simp [join, colToks, Ident.str, lex_name (h i (by simp)) hs]
    | cons j r =>
      have ih := ih (fun x hx => h x (by simp [hx]))
      simp only [List.map_cons, join, Ident.str, List.append_assoc, colToks, List.cons_append, List.nil_append] at ih ⊢
      rw [lex_name (h i (by simp)) (start_cons (by decide)), lex_symbol .postgres ',' .COMMA _ (by decide) (by simp),
        lex_ws .postgres ' ' _ rfl, ih]
      rfl

theorem columnIdentsLoop_reads : ∀ (l : List Ident), (∀ i ∈ l, NameOk i) → ∀ (n : Nat) (rest : List Token),
    (colToks l).length < n → NoPanic (colToks l ++ closeTok :: rest) →
    columnIdentsLoop n (colToks l ++ closeTok :: rest) = .ok (l, rest) := by
  intro l
  induction l with
  | nil =>
    intro _ n rest hn hp
    obtain ⟨n, rfl⟩ : ∃ m, n = m + 1 := ⟨n - 1, by omega⟩
    simp only [colToks, List.nil_append] at hp ⊢
    simp [columnIdentsLoop, next_cons hp]
  | cons i r ih =>
    intro h n rest hn hp
    obtain ⟨n, rfl⟩ : ∃ m, n = m + 1 := ⟨n - 1, by omega⟩
    have hi : rawIdent i.raw = i := (h i (by simp)).1.symm
    cases r with
    | nil =>
      simp only [colToks, List.cons_append, List.nil_append] at hp hn ⊢
      have := ih (by simp) n rest (by simpa [colToks] using hn) hp.of_cons
      simp only [colToks, List.nil_append] at this
      simp [columnIdentsLoop, next_cons hp, this, hi]
    | cons j r =>
      simp only [colToks, List.cons_append, List.length_cons] at hp hn ⊢
      obtain ⟨n, rfl⟩ : ∃ m, n = m + 1 := ⟨n - 1, by omega⟩
      have := ih (fun x hx => h x (by simp [hx])) n rest (by omega) hp.of_cons.of_cons
      simp [columnIdentsLoop, next_cons hp, next_cons hp.of_cons, this, hi]

/-- A bracketed column list. -/
theorem parseColumnIdents_reads {l : List Ident} (h : ∀ i ∈ l, NameOk i) {rest : List Token}
    (hp : NoPanic (openTok :: (colToks l ++ closeTok :: rest))) :
    parseColumnIdents (openTok :: (colToks l ++ closeTok :: rest)) = .ok (l, rest) := by
  unfold parseColumnIdents
  rw [List.length_cons, columnIdentsLoop, if_pos (by simp), next_cons hp]
  simp only [bind_ok]
  exact columnIdentsLoop_reads l h _ _ (by simp; omega) hp.of_cons

theorem columnIdentsLoop_post : ∀ (n : Nat) (ts : List Token), AllTok L ts →
    Post (fun r => (∀ i ∈ r.1, NameOk i) ∧ AllTok L r.2) (columnIdentsLoop n ts) := by
  intro n
  induction n with
  | zero => intro ts _; exact trivial
  | succ n ih =>
    intro ts hL
    unfold columnIdentsLoop
    split
    · exact Post.next_bind (ih _ hL.tail)
    split
    · rename_i hc
      refine Post.next_bind ((ih _ hL.tail).bind ?_)
      rintro ⟨i₁, ts₁⟩ ⟨h₁, h₂⟩
      refine Post.ok ⟨?_, h₂⟩
      intro i hi
      rcases List.mem_cons.1 hi with rfl | hi
      · exact nameOk_cur hL hc
      · exact h₁ i hi
    split
    · exact Post.next_bind (Post.ok ⟨by simp, hL.tail⟩)
    · exact trivial

theorem parseColumnIdents_post {ts : List Token} (hL : AllTok L ts) :
    Post (fun r => (∀ i ∈ r.1, NameOk i) ∧ AllTok L r.2) (parseColumnIdents ts) := columnIdentsLoop_post _ _ hL

/-! ## Data types -/

/-- The words of a type name and the type they stand for. -/
def TypeShape (ws : List TokType) (ty : TokType) : Prop :=
  (ws = [.TIMESTAMPTZ] ∧ ty = .TIMESTAMP_WITH_TIME_ZONE) ∨
  (ws = [.TIMESTAMP, .WITH, .TIME, .ZONE] ∧ ty = .TIMESTAMP_WITH_TIME_ZONE) ∨
  (ws = [.TIMESTAMP] ∧ ty = .TIMESTAMP) ∨
  (ws = [.DOUBLE, .PRECISION] ∧ ty = .DOUBLE_PRECISION) ∨
  (ws = [.CHARACTER, .VARYING] ∧ ty = .CHARACTER_VARYING) ∨
  (ws = [ty] ∧ isDataType ty = true ∧ ty ∉ [.TIMESTAMPTZ, .TIMESTAMP, .DOUBLE, .CHARACTER])

/-- The tokens of the parameters of a type. -/
def argToks (as : List Token) : List Token := if as = [] then [] else openTok :: (as ++ [closeTok])

/-- The data type `t` is written with the tokens `ts`. -/
def DtOk (t : DataType) (ts : List Token) : Prop :=
  ∃ ws as, TypeShape (ws.map (·.type)) t.type ∧ AllTok L ws ∧ t.name = join s%" " (ws.map (·.lit)) ∧
    t.expr = as.map (fun a => rawIdent a.lit) ∧ AllTok L as ∧
    (∀ a ∈ as, a.type ∉ [.OPEN_PAREN, .CLOSE_PAREN, .EOF, .ILLEGAL]) ∧ ts = ws ++ argToks as

theorem identsLoop_post : ∀ (n : Nat) (ts : List Token), AllTok L ts →
    Post (fun r => (∃ as, r.1 = as.map (fun a => rawIdent a.lit) ∧ AllTok L as ∧
      ∀ a ∈ as, a.type ∉ [.OPEN_PAREN, .CLOSE_PAREN, .EOF, .ILLEGAL]) ∧ AllTok L r.2) (identsLoop n ts) := by
  intro n
  induction n with
  | zero => intro ts _; exact trivial
  | succ n ih =>
    intro ts hL
    unfold identsLoop
    split
    · exact Post.next_bind (ih _ hL.tail)
    split
    · exact Post.ok ⟨⟨[], rfl, .nil, by simp⟩, hL⟩
    split
    · exact trivial
    · rename_i h1 h2 h3
      simp only [not_or] at h3
      refine Post.next_bind ((ih _ hL.tail).bind ?_)
      rintro ⟨i₁, ts₁⟩ ⟨⟨as, e, h₁, h₂⟩, h₃⟩
      simp only at e
      refine Post.ok ⟨⟨cur ts :: as, by simp [e]; rfl, ?_, ?_⟩, h₃⟩
      · intro t ht
        rcases List.mem_cons.1 ht with rfl | ht
        · exact hL.cur h3.1
        · exact h₁ t ht
      · intro t ht
        rcases List.mem_cons.1 ht with rfl | ht
        · have : curT ts ∉ [.OPEN_PAREN, .CLOSE_PAREN, .EOF, .ILLEGAL] := by simp [h1, h2, h3]
          exact this
        · exact h₂ t ht

theorem identsLoop_reads : ∀ (as : List Token), (∀ a ∈ as, a.type ∉ [.OPEN_PAREN, .CLOSE_PAREN, .EOF, .ILLEGAL]) →
    ∀ (n : Nat) (rest : List Token), as.length < n → NoPanic (as ++ closeTok :: rest) →
    identsLoop n (as ++ closeTok :: rest) = .ok (as.map (fun a => rawIdent a.lit), closeTok :: rest) := by
  intro as
  induction as with
  | nil =>
    intro _ n rest hn hp
    obtain ⟨n, rfl⟩ : ∃ m, n = m + 1 := ⟨n - 1, by omega⟩
    simp [identsLoop]
  | cons a r ih =>
    intro h n rest hn hp
    obtain ⟨n, rfl⟩ : ∃ m, n = m + 1 := ⟨n - 1, by omega⟩
    have ha := h a (by simp)
    simp only [List.mem_cons, List.not_mem_nil, or_false, not_or] at ha
    simp only [List.cons_append, List.length_cons] at hn hp ⊢
    rw [identsLoop, if_neg (by simp [ha]), if_neg (by simp [ha]), if_neg (by simp [ha]), next_cons hp]
    simp only [bind_ok]
    rw [ih (fun x hx => h x (by simp [hx])) n rest (by omega) hp.of_cons]
    simp

theorem parseTypeName_post {ts : List Token} (hL : AllTok L ts) (hd : isDataType (curT ts) = true) :
    Post (fun r => (∃ ws : List Token, TypeShape (ws.map (·.type)) r.2.1 ∧ AllTok L ws ∧ r.1 = join s%" " (ws.map (·.lit))) ∧
      AllTok L r.2.2) (parseTypeName ts) := by
  have hx : L (cur ts) := hL.cur (by intro h; rw [h] at hd; simp [isDataType] at hd)
  unfold parseTypeName
  split
  · rename_i hc
    exact Post.ok ⟨⟨[cur ts], Or.inl ⟨by simp; exact hc, rfl⟩, .cons hx .nil, rfl⟩, hL⟩
  split
  · rename_i hc
    split
    · rename_i hp
      have h1 : L (cur ts.tail) := hL.tail.cur (by change curT ts.tail = _ at hp; simp [hp])
      refine Post.next_bind (Post.checkPeek_bind (fun ht => Post.next_bind (Post.checkPeek_bind (fun hz => Post.next_bind ?_))))
      simp only [List.mem_singleton] at ht hz
      have h2 : L (cur ts.tail.tail) := hL.tail.tail.cur (by change curT ts.tail.tail = _ at ht; simp [ht])
      have h3 : L (cur ts.tail.tail.tail) := hL.tail.tail.tail.cur (by change curT ts.tail.tail.tail = _ at hz; simp [hz])
      refine Post.ok ⟨⟨[cur ts, cur ts.tail, cur ts.tail.tail, cur ts.tail.tail.tail], Or.inr (Or.inl ⟨?_, rfl⟩),
        .cons hx (.cons h1 (.cons h2 (.cons h3 .nil))), ?_⟩, hL.tail.tail.tail⟩
      · simp only [List.map_cons, List.map_nil]
        congr 1
        congr 1
        congr 1
        congr 1
      · simp [join, curL]
    · exact Post.ok ⟨⟨[cur ts], Or.inr (Or.inr (Or.inl ⟨by simp; exact hc, rfl⟩)), .cons hx .nil, rfl⟩, hL⟩
  split
  · rename_i hc
    refine Post.checkPeek_bind (fun ht => Post.next_bind ?_)
    simp only [List.mem_singleton] at ht
    have h1 : L (cur ts.tail) := hL.tail.cur (by change curT ts.tail = _ at ht; simp [ht])
    refine Post.ok ⟨⟨[cur ts, cur ts.tail], Or.inr (Or.inr (Or.inr (Or.inl ⟨?_, rfl⟩))), .cons hx (.cons h1 .nil), ?_⟩, hL.tail⟩
    · simp only [List.map_cons, List.map_nil]
      congr 1
      congr 1
    · simp [join, curL]
  split
  · rename_i hc
    refine Post.checkPeek_bind (fun ht => Post.next_bind ?_)
    simp only [List.mem_singleton] at ht
    have h1 : L (cur ts.tail) := hL.tail.cur (by change curT ts.tail = _ at ht; simp [ht])
    refine Post.ok ⟨⟨[cur ts, cur ts.tail], Or.inr (Or.inr (Or.inr (Or.inr (Or.inl ⟨?_, rfl⟩)))), .cons hx (.cons h1 .nil), ?_⟩, hL.tail⟩
    · simp only [List.map_cons, List.map_nil]
      congr 1
      congr 1
    · simp [join, curL]
  · rename_i h1 h2 h3 h4
    exact Post.ok ⟨⟨[cur ts], Or.inr (Or.inr (Or.inr (Or.inr (Or.inr ⟨rfl, hd, by simp [h1, h2, h3, h4]⟩)))), .cons hx .nil, rfl⟩, hL⟩

theorem parseDataType_post {ts : List Token} (hL : AllTok L ts) (hd : isDataType (curT ts) = true) :
    Post (fun r => (∃ us, DtOk r.1 us) ∧ AllTok L r.2) (parseDataType ts) := by
  unfold parseDataType
  refine (parseTypeName_post hL hd).bind ?_
  rintro ⟨name, ty, ts₁⟩ ⟨⟨ws, h1, h2, h3⟩, h4⟩
  simp only at h1 h3 h4 ⊢
  split
  · refine Post.next_bind ((identsLoop_post _ _ h4.tail).bind ?_)
    rintro ⟨i, ts₂⟩ ⟨⟨as, e, h5, h6⟩, h7⟩
    exact Post.ok ⟨⟨_, ws, as, h1, h2, h3, e, h5, h6, rfl⟩, h7⟩
  · exact Post.ok ⟨⟨_, ws, [], h1, h2, h3, rfl, .nil, by simp, rfl⟩, h4⟩

theorem parseTypeName_reads {ws : List Token} {ty : TokType} (h : TypeShape (ws.map (·.type)) ty) {rest : List Token}
    (hr : curT rest ≠ .WITH) (hp : NoPanic (ws ++ rest)) :
    ∃ k, parseTypeName (ws ++ rest) = .ok (join s%" " (ws.map (·.lit)), ty, k :: rest) ∧ NoPanic (k :: rest) := by
  rcases h with ⟨h, rfl⟩ | ⟨h, rfl⟩ | ⟨h, rfl⟩ | ⟨h, rfl⟩ | ⟨h, rfl⟩ | ⟨h, h1, h2⟩
  · obtain ⟨t, r, rfl, ht, h⟩ := map_type_cons h
    rw [map_type_nil h] at hp ⊢
    exact ⟨t, by simp [parseTypeName, ht, join], hp⟩
  · obtain ⟨t₁, r, rfl, ht₁, h⟩ := map_type_cons h
    obtain ⟨t₂, r, rfl, ht₂, h⟩ := map_type_cons h
    obtain ⟨t₃, r, rfl, ht₃, h⟩ := map_type_cons h
    obtain ⟨t₄, r, rfl, ht₄, h⟩ := map_type_cons h
    rw [map_type_nil h] at hp ⊢
    simp only [List.cons_append, List.nil_append] at hp ⊢
    exact ⟨t₄, by simp [parseTypeName, ht₁, ht₂, ht₃, ht₄, join, checkPeek, next_cons hp, next_cons hp.of_cons,
      next_cons hp.of_cons.of_cons], hp.of_cons.of_cons.of_cons⟩
  · obtain ⟨t, r, rfl, ht, h⟩ := map_type_cons h
    rw [map_type_nil h] at hp ⊢
    exact ⟨t, by simp [parseTypeName, ht, join, hr], hp⟩
  · obtain ⟨t₁, r, rfl, ht₁, h⟩ := map_type_cons h
    obtain ⟨t₂, r, rfl, ht₂, h⟩ := map_type_cons h
    rw [map_type_nil h] at hp ⊢
    simp only [List.cons_append, List.nil_append] at hp ⊢
    exact ⟨t₂, by simp [parseTypeName, ht₁, ht₂, join, checkPeek, next_cons hp], hp.of_cons⟩
  · obtain ⟨t₁, r, rfl, ht₁, h⟩ := map_type_cons h
    obtain ⟨t₂, r, rfl, ht₂, h⟩ := map_type_cons h
    rw [map_type_nil h] at hp ⊢
    simp only [List.cons_append, List.nil_append] at hp ⊢
    exact ⟨t₂, by simp [parseTypeName, ht₁, ht₂, join, checkPeek, next_cons hp], hp.of_cons⟩
  · obtain ⟨t, r, rfl, ht, h⟩ := map_type_cons h
    rw [map_type_nil h] at hp ⊢
    simp only [List.mem_cons, List.not_mem_nil, or_false, not_or] at h2
    exact ⟨t, by simp [parseTypeName, h2, join, ht], hp⟩

theorem parseDataType_shape {t : DataType} {ws as : List Token} (h1 : TypeShape (ws.map (·.type)) t.type)
    (h3 : t.name = join s%" " (ws.map (·.lit))) (h4 : t.expr = as.map (fun a => rawIdent a.lit))
    (h6 : ∀ a ∈ as, a.type ∉ [.OPEN_PAREN, .CLOSE_PAREN, .EOF, .ILLEGAL]) {rest : List Token}
    (hr : curT rest ∉ [.WITH, .OPEN_PAREN]) (hp : NoPanic (ws ++ argToks as ++ rest)) :
    ∃ k, parseDataType (ws ++ argToks as ++ rest) = .ok (t, k :: rest) ∧ NoPanic (k :: rest) := by
  simp only [List.mem_cons, List.not_mem_nil, or_false, not_or] at hr
  obtain ⟨name, ty, expr⟩ := t
  simp only at h1 h3 h4
  subst h3 h4
  unfold parseDataType argToks at *
  split at hp
  · rename_i ha
    subst ha
    simp only [if_true, List.append_nil] at hp ⊢
    obtain ⟨k, e, hk⟩ := parseTypeName_reads h1 hr.1 hp
    refine ⟨k, ?_, hk⟩
    rw [e]
    simp [hr.2]
  · rename_i ha
    simp only [if_neg ha, List.append_assoc] at hp ⊢
    obtain ⟨k, e, hk⟩ := parseTypeName_reads h1 (rest := openTok :: (as ++ [closeTok]) ++ rest) (by simp) hp
    have e2 : parseIdents ((openTok :: (as ++ [closeTok])) ++ rest) = .ok (as.map (fun a => rawIdent a.lit), closeTok :: rest) := by
      have hk' : NoPanic (openTok :: (as ++ (closeTok :: rest))) := by simpa using hk.of_cons
      unfold parseIdents
      simp only [List.cons_append, List.append_assoc, List.nil_append, List.length_cons]
      rw [identsLoop, if_pos (by simp), next_cons hk']
      simp only [bind_ok]
      exact identsLoop_reads as h6 _ _ (by simp; omega) hk'.of_cons
    refine ⟨closeTok, ?_, ?_⟩
    · rw [e]
      simp only [bind_ok, peekT_cons, List.cons_append, curT_cons, openTok_type, if_true]
      rw [next_cons (by simpa using hk)]
      simp only [bind_ok]
      rw [← List.cons_append, e2]
      simp
    · intro t ht
      exact hk t (by simp only [List.mem_cons, List.mem_append] at ht ⊢; tauto)

theorem parseDataType_reads {t : DataType} {us : List Token} (h : DtOk t us) {rest : List Token}
    (hr : curT rest ∉ [.WITH, .OPEN_PAREN]) (hp : NoPanic (us ++ rest)) :
    ∃ k, parseDataType (us ++ rest) = .ok (t, k :: rest) ∧ NoPanic (k :: rest) := by
  obtain ⟨ws, as, h1, h2, h3, h4, h5, h6, rfl⟩ := h
  exact parseDataType_shape h1 h3 h4 h6 hr hp

theorem lex_join_words {s : Str} (hs : Start s) : ∀ (ws : List Token), AllTok L ws →
    lex .postgres (join s%" " (ws.map (·.lit)) ++ s) = ws ++ lex .postgres s := by
  intro ws
  induction ws with
  | nil => intro _; rfl
  | cons t r ih =>
    intro h
    cases r with
    | nil => simp [join, lex_lx (h t (by simp)) hs.apart]
    | cons j r =>
      have ih := ih (fun x hx => h x (by simp [hx]))
      simp only [List.map_cons, join, List.append_assoc, List.cons_append, List.nil_append] at ih ⊢
      rw [lex_lx (h t (by simp)) (Start.apart (start_cons (by decide))), lex_ws .postgres ' ' _ rfl, ih]

theorem lex_dataType {t : DataType} {us : List Token} (h : DtOk t us) {s : Str} (hs : Start s) :
    lex .postgres (t.str ++ s) = us ++ lex .postgres s := by
  obtain ⟨ws, as, h1, h2, h3, h4, h5, h6, rfl⟩ := h
  unfold DataType.str argToks
  rw [h3, h4]
  by_cases ha : as = []
  · subst ha
    simp [lex_join_words hs ws h2]
  · have hw : ∀ w ∈ as.map (fun a => ((rawIdent a.lit, [a]) : Word)), WordOk w := by
      intro w hw
      obtain ⟨a, ha, rfl⟩ := List.mem_map.1 hw
      exact wordOk_tok (h5 a ha) (rawIdent_raw _)
    have e1 : as.map (fun a => rawIdent a.lit) = ids (as.map (fun a => ((rawIdent a.lit, [a]) : Word))) := by simp [ids]
    have e2 : toks (as.map (fun a => ((rawIdent a.lit, [a]) : Word))) = as := by
      clear hw e1 h4 h5 h6 ha
      induction as with
      | nil => rfl
      | cons a r ih => simp [ih]
    rw [if_neg (by simpa using ha), if_neg ha]
    simp only [List.append_assoc, List.cons_append, List.nil_append]
    rw [lex_join_words (start_cons (by decide)) ws h2,
      lex_symbol .postgres '(' .OPEN_PAREN _ (by decide) (by simp), e1, lex_exprStr (start_cons (by decide)) _ hw, e2,
      lex_symbol .postgres ')' .CLOSE_PAREN _ (by decide) (by simp)]
    simp [openTok, closeTok]

/-! ## Columns -/

def defaultTok : Token := ⟨.DEFAULT, s%"DEFAULT"⟩
def notTok : Token := ⟨.NOT, s%"NOT"⟩
def nullTok : Token := ⟨.NULL, s%"NULL"⟩

/-- The tokens of a default value. -/
def dftToks (g : List Word) : List Token := if g = [] then [] else defaultTok :: toks g

/-- The tokens of `NOT NULL`. -/
def nnToks (nn : Bool) : List Token := if nn then [notTok, nullTok] else []

/-- The default value consists of the words `g`. -/
def DefaultOk (d : Option Default) (g : List Word) : Prop := (d = none ∧ g = []) ∨ (d = some ⟨some (ids g)⟩ ∧ Dft true g)

/-- The column `c` is printed with the tokens `ts`. -/
def ColOk (c : Column) (ts : List Token) : Prop :=
  NameOk c.name ∧ ∃ us g, DtOk c.dataType us ∧ DefaultOk c.default g ∧
    ts = nameTok c.name :: (us ++ (dftToks g ++ nnToks c.notNull))

theorem columnAttrsLoop_post : ∀ (n : Nat) (d : Option Default) (nn : Bool) (ts : List Token), AllTok L ts →
    (d ≠ some ⟨none⟩ → ∃ g, DefaultOk d g) →
    Post (fun r => (r.1 ≠ some ⟨none⟩ → ∃ g, DefaultOk r.1 g) ∧ AllTok L r.2.2) (columnAttrsLoop n d nn ts) := by
  intro n
  induction n with
  | zero => intro d nn ts _ _; exact trivial
  | succ n ih =>
    intro d nn ts hL hd
    unfold columnAttrsLoop
    split
    · exact Post.checkPeek_bind (fun _ => Post.next_bind (Post.next_bind (ih _ _ _ hL.tail.tail hd)))
    split
    · exact Post.next_bind (ih _ _ _ hL.tail hd)
    split
    · refine Post.next_bind ((defaultLoop_post _ none _ hL.tail).bind ?_)
      rintro ⟨v, ts₁⟩ ⟨h, h₁⟩
      refine ih _ _ _ h₁ ?_
      intro hv
      rcases h with h | ⟨g, hg, e⟩
      · exact absurd (congrArg some h.2) hv
      · exact ⟨g, Or.inr ⟨congrArg some e, hg⟩⟩
    · exact Post.ok ⟨hd, hL⟩

theorem columnAttrsLoop_reads {d : Option Default} {g : List Word} (hd : DefaultOk d g) {nn : Bool} {rest : List Token} {n : Nat}
    (hn : (dftToks g).length + (nnToks nn).length < n) (hr : curT rest ∈ [.COMMA, .CLOSE_PAREN])
    (hp : NoPanic (dftToks g ++ (nnToks nn ++ rest))) :
    columnAttrsLoop n none false (dftToks g ++ (nnToks nn ++ rest)) = .ok (d, nn, rest) := by
  simp only [List.mem_cons, List.not_mem_nil, or_false] at hr
  have hstop : ∀ (n : Nat) (d : Option Default) (nn : Bool), 0 < n → columnAttrsLoop n d nn rest = .ok (d, nn, rest) := by
    intro n d nn hn
    obtain ⟨n, rfl⟩ : ∃ m, n = m + 1 := ⟨n - 1, by omega⟩
    rcases hr with h | h <;> simp [columnAttrsLoop, h]
  have hnn : ∀ (n : Nat) (d : Option Default), (nnToks nn).length < n → NoPanic (nnToks nn ++ rest) →
      columnAttrsLoop n d false (nnToks nn ++ rest) = .ok (d, nn, rest) := by
    intro n d hn hp
    cases nn with
    | false => exact hstop n d false (by omega)
    | true =>
      obtain ⟨n, rfl⟩ : ∃ m, n = m + 1 := ⟨n - 1, by omega⟩
      simp only [nnToks, if_true, List.cons_append, List.nil_append, List.length_cons, List.length_nil] at hn hp ⊢
      simp [columnAttrsLoop, notTok, nullTok] at hp ⊢
      simp [checkPeek, next_cons hp, next_cons hp.of_cons, hstop n d true (by omega)]
  rcases hd with ⟨rfl, rfl⟩ | ⟨rfl, hg⟩
  · simp only [dftToks, if_true, List.nil_append, List.length_nil] at hn hp ⊢
    exact hnn n none (by omega) hp
  · have hg0 : g ≠ [] := by intro h; subst h; cases hg
    obtain ⟨n, rfl⟩ : ∃ m, n = m + 1 := ⟨n - 1, by omega⟩
    simp only [dftToks, if_neg hg0, List.cons_append, List.length_cons] at hn hp ⊢
    have hcur : curT (nnToks nn ++ rest) ∈ [.NOT, .COMMA, .CLOSE_PAREN] := by
      cases nn with
      | false => rcases hr with h | h <;> simp [nnToks, h]
      | true => simp [nnToks, notTok]
    rw [columnAttrsLoop, if_neg (by simp [defaultTok]), if_neg (by simp [defaultTok]), if_pos (by simp [defaultTok]), next_cons hp]
    simp only [bind_ok, parseColumnDefault]
    rw [defaultLoop_reads hg _ none _ (by simp; omega) (by simp) hcur hp.of_cons]
    simp only [bind_ok, Option.getD_none, List.nil_append]
    exact hnn n _ (by omega) hp.of_cons.of_append

theorem parseColumn_reads {tbl : Ident} {c : Column} {ts : List Token} (h : ColOk c ts) {rest : List Token}
    (hr : curT rest ∈ [.COMMA, .CLOSE_PAREN]) (hp : NoPanic (ts ++ rest)) :
    parseColumn tbl (ts ++ rest) = .ok (c, [], rest) := by
  obtain ⟨hname, us, g, hdt, hd, rfl⟩ := h
  simp only [List.cons_append, List.append_assoc] at hp ⊢
  have hfirst : isDataType (curT (us ++ (dftToks g ++ (nnToks c.notNull ++ rest)))) = true := by
    obtain ⟨ws, as, h1, _, _, _, _, _, rfl⟩ := hdt
    rcases h1 with ⟨h, _⟩ | ⟨h, _⟩ | ⟨h, _⟩ | ⟨h, _⟩ | ⟨h, _⟩ | ⟨h, h1, _⟩ <;>
      (obtain ⟨t, r, rfl, ht, _⟩ := map_type_cons h; simp [ht, isDataType])
    simpa [isDataType] using h1
  have hrest : curT (dftToks g ++ (nnToks c.notNull ++ rest)) ∉ [.WITH, .OPEN_PAREN] := by
    simp only [List.mem_cons, List.not_mem_nil, or_false] at hr
    unfold dftToks nnToks
    split
    · split
      · simp [notTok]
      · rcases hr with h | h <;> simp [h]
    · simp [defaultTok]
  unfold parseColumn
  simp only [checkCur, curT_cons, nameTok_type, List.mem_singleton, if_true, bind_ok, curL_cons, nameTok_lit, next_cons hp, hfirst]
  obtain ⟨k, e, hk⟩ := parseDataType_reads hdt hrest hp.of_cons
  rw [e]
  simp only [bind_ok, next_cons hk]
  rw [columnAttrsLoop_reads hd (by simp; omega) hr hk.of_cons]
  simp only [bind_ok]
  have hc : parseColumnConstraints tbl (rawIdent c.name.raw) rest = .ok ([], rest) := by
    simp only [List.mem_cons, List.not_mem_nil, or_false] at hr
    unfold parseColumnConstraints columnConstraintsLoop
    rcases hr with h | h <;> simp [h]
  rw [hc]
  simp only [bind_ok, ← hname.1, List.foldl_nil]

theorem lex_column {c : Column} {ts : List Token} (h : ColOk c ts) {s : Str} (hs : Start s) :
    lex .postgres (c.str ++ s) = ts ++ lex .postgres s := by
  obtain ⟨hname, us, g, hdt, hd, rfl⟩ := h
  unfold Column.str
  simp only [Ident.str, List.append_assoc, List.cons_append, List.nil_append]
  have hnn : lex .postgres ((if c.notNull = true then s%" NOT NULL" else []) ++ s) = nnToks c.notNull ++ lex .postgres s := by
    unfold nnToks
    cases c.notNull with
    | false => rfl
    | true =>
      simp only [if_true]
      rw [lex_lit_start (d := .postgres) (by decide) (by decide) (by decide) hs]; rfl
  have hnn' : Start ((if c.notNull = true then s%" NOT NULL" else []) ++ s) := by
    split
    · exact start_cons (by decide)
    · exact hs
  rw [lex_name hname (start_cons (by decide)), lex_ws .postgres ' ' _ rfl]
  congr 1
  rcases hd with ⟨hd, rfl⟩ | ⟨hd, hg⟩
  · rw [hd]
    simp only [defaultStr, if_true, List.nil_append]
    rw [lex_dataType hdt hnn', hnn]
    rfl
  · have hg0 : g ≠ [] := by intro h; subst h; cases hg
    rw [hd, if_neg (by simp [defaultStr])]
    simp only [defaultStr, dftToks, if_neg hg0]
    rw [List.cons_append, lex_dataType hdt (start_cons (by decide)), lex_ws .postgres ' ' _ rfl, List.append_assoc,
      lex_lit (d := .postgres) (by decide) (by decide) (by decide), lex_exprStr hnn' g hg.ok, hnn]
    simp only [List.cons_append]
    rfl

end Ddl.Pg
