import Verif.Lemmas.Grammar
import Verif.Lemmas.Lexeme
import Verif.Lemmas.ShowRows
import Mathlib.Data.List.Chain

/-! # Spanner: the parser on the tokens of what `ShowCreateAllTables` prints -/

namespace Ddl.Sp.Show
open Spec
set_option autoImplicit false

theorem noPanic_cons_iff {t : Token} {ts : List Token} : NoPanic (t :: ts) ↔ t.type ≠ .PANIC ∧ NoPanic ts := by
  simp [NoPanic]

theorem noPanic_append_iff {a b : List Token} : NoPanic (a ++ b) ↔ NoPanic a ∧ NoPanic b := by
  simp only [NoPanic, List.mem_append]
  exact ⟨fun h => ⟨fun t ht => h t (Or.inl ht), fun t ht => h t (Or.inr ht)⟩, fun h t ht => ht.elim (h.1 t) (h.2 t)⟩

/-! ## Tokens -/

/-- The token of a name. -/
def nm (s : Str) : Token := ⟨.IDENT, s⟩
def opn : Token := ⟨.OPEN_PAREN, s%"("⟩
def cls : Token := ⟨.CLOSE_PAREN, s%")"⟩
def com : Token := ⟨.COMMA, s%","⟩
def semi : Token := ⟨.SEMICOLON, s%";"⟩
def eqs : Token := ⟨.EQUAL, s%"="⟩

/-- Lists of tokens with commas between them. -/
def sepBy : List (List Token) → List Token
  | [] => []
  | [a] => a
  | a :: b :: r => a ++ com :: sepBy (b :: r)

def optToks (o : Str × Text) : List Token := nm o.1 :: eqs :: o.2.tokens

def colToks (c : Col) : List Token :=
  nm c.name :: ⟨c.type.2, c.type.1⟩ :: ((match c.size with | some n => [opn, nm n, cls] | none => []) ++
    ((match c.default with | some e => ⟨.DEFAULT, s%"DEFAULT"⟩ :: opn :: (e.tokens ++ [cls]) | none => []) ++
      ((if c.notNull then [⟨.NOT, s%"NOT"⟩, ⟨.NULL, s%"NULL"⟩] else []) ++
        (if c.options = [] then [] else ⟨.OPTIONS, s%"OPTIONS"⟩ :: opn :: (sepBy (c.options.map optToks) ++ [cls])))))

/-! ## Words -/

theorem IsPlain.ident {s : Str} (h : IsPlain s) : rawIdent s = plain s := newRawIdent_word fun c hc => (h.2.1 c hc).1

theorem IsPlain.isName {s : Str} (h : IsPlain s) : IsName .spanner s := Or.inl ⟨h.1, fun c hc => (h.2.1 c hc).1, h.2.2⟩

theorem splitC_absent {c : Char} : ∀ {s : Str}, c ∉ s → splitC c s = [s]
  | [], _ => rfl
  | x :: s, h => by
    simp only [List.mem_cons, not_or] at h
    rw [splitC, if_neg (fun e => h.1 e.symm), splitC_absent h.2]

theorem IsPlain.objectName {s : Str} (h : IsPlain s) : newObjectName .spanner s = ⟨none, plain s⟩ := by
  have hi : newRawIdent .spanner s = plain s := h.ident
  unfold newObjectName
  rw [hi]
  have : splitC '.' (plain s).name = [s] := splitC_absent fun e => (h.2.1 _ e).2 rfl
  simp only [this]

theorem wordOf_nm {s : Str} (h : IsPlain s) : wordOf (nm s) = plain s := h.ident

theorem wordOf_opn : wordOf opn = plain s%"(" := by decide
theorem wordOf_cls : wordOf cls = plain s%")" := by decide
theorem wordOf_com : wordOf com = plain s%"," := by decide
theorem wordOf_eqs : wordOf eqs = plain s%"=" := by decide

theorem wordOf_reserved {t : Token} (h : isReservedValue t.type = true) : rawIdent t.type.str = wordOf t := by
  obtain ⟨ty, l⟩ := t
  simp only [isReservedValue, List.mem_cons, List.not_mem_nil, or_false, decide_eq_true_eq] at h
  rcases h with rfl | rfl | rfl <;> rfl

theorem wordOf_other {t : Token} (h : isReservedValue t.type = false) : rawIdent t.lit = wordOf t := by
  obtain ⟨ty, l⟩ := t
  simp only [isReservedValue, List.mem_cons, List.not_mem_nil, or_false, decide_eq_false_iff_not, not_or] at h
  unfold wordOf
  split
  · rename_i e; exact absurd e h.1
  · rename_i e; exact absurd e h.2.1
  · rename_i e; exact absurd e h.2.2
  · rfl

theorem commaSep_map : ∀ l : List (List Token), commaSep (l.map fun x => x.map wordOf) = (sepBy l).map wordOf
  | [] => rfl
  | [a] => rfl
  | a :: b :: r => by
    have := commaSep_map (b :: r)
    simp only [List.map_cons] at this
    simp [commaSep, sepBy, this, wordOf_com]

/-! ## Expressions -/

/-- No two comparison signs stand side by side. -/
abbrev NoPair (ts : List Token) : Prop := ts.IsChain fun a b => ¬ (IsCmp a ∧ IsCmp b)

theorem Balanced.append {a b : List Token} (ha : Balanced a) (hb : Balanced b) : Balanced (a ++ b) := by
  induction ha with
  | nil => exact hb
  | cons t r ht _ ih => exact .cons t _ ht ih
  | group x y hx _ _ ih =>
    have := Balanced.group x (y ++ b) hx ih
    simpa using this

theorem exprLoop_balanced {b : List Token} (h : Balanced b) : (∀ t ∈ b, t.type ≠ .EOF) → NoPair b → ∀ (n : Nat) (rest : List Token),
    b.length < n → NoPanic (b ++ cls :: rest) →
    exprLoop n (b ++ cls :: rest) = .ok (b.map wordOf ++ [plain s%")"], rest) := by
  induction h with
  | nil =>
    intro _ _ n rest hn hp
    obtain ⟨n, rfl⟩ := Nat.exists_eq_add_of_lt hn
    have hp : NoPanic (cls :: rest) := hp
    simp only [List.length_nil, Nat.zero_add, List.nil_append, exprLoop]
    rw [if_neg (by simp [cls]), if_pos (by simp [cls]), next_cons hp]
    rfl
  | cons t r ht _ ih =>
    intro he hc n rest hn hp
    obtain ⟨n, rfl⟩ : ∃ m, n = m + 1 := ⟨n - 1, by simp at hn; omega⟩
    have hc' : NoPair r := List.IsChain.tail hc
    have hp' : NoPanic (r ++ cls :: rest) := hp.tail
    have ih := ih (fun t h => he t (List.mem_cons_of_mem _ h)) hc' n rest (by simp at hn; omega) hp'
    have hp : NoPanic (t :: (r ++ cls :: rest)) := hp
    have h1 : t.type ≠ .OPEN_PAREN := fun e => ht (by simp [e])
    have h2 : t.type ≠ .CLOSE_PAREN := fun e => ht (by simp [e])
    have h3 : t.type ≠ .EOF := he t (by simp)
    rw [List.cons_append, exprLoop]
    simp only [curT_cons, curL_cons, peekT_cons]
    simp only [h1, h2, if_false]
    by_cases hcmp : t.type = .EQUAL ∨ t.type = .GREATER ∨ t.type = .LESS
    · have hpeek : ¬ (curT (r ++ cls :: rest) = .EQUAL ∨ curT (r ++ cls :: rest) = .GREATER ∨ curT (r ++ cls :: rest) = .LESS) := by
        cases r with
        | nil => simp [cls]
        | cons u r =>
          have := (List.isChain_cons_cons.1 hc).1
          intro hu
          refine this ⟨by simpa [IsCmp] using hcmp, by simpa [IsCmp] using hu⟩
      simp only [hcmp, hpeek, if_true, if_false, bind_ok]
      rw [next_cons hp]
      simp only [bind_ok]
      rw [ih]
      simp only [bind_ok, List.map_cons, List.cons_append]
      rw [wordOf_other (by rcases hcmp with e | e | e <;> rw [e] <;> rfl)]
    · simp only [hcmp, h3, if_false]
      rw [next_cons hp]
      simp only [bind_ok]
      rw [ih]
      simp only [bind_ok, List.map_cons, List.cons_append]
      congr 3
      by_cases hr : isReservedValue t.type = true
      · simp only [hr, if_true]
        exact wordOf_reserved hr
      · simp only [hr]
        exact wordOf_other (by simpa using hr)
  | group x y _ _ ihx ihy =>
    intro he hc n rest hn hp
    obtain ⟨n, rfl⟩ : ∃ m, n = m + 1 := ⟨n - 1, by simp at hn; omega⟩
    change NoPanic (opn :: (x ++ cls :: y) ++ cls :: rest) at hp
    rw [List.cons_append] at hp
    have hp' : NoPanic (x ++ cls :: (y ++ cls :: rest)) := by simpa using hp.tail
    have hcx : NoPair (x ++ cls :: y) := List.IsChain.tail hc
    have hx := ihx (fun t h => he t (by simp [h])) (List.IsChain.left_of_append hcx) n (y ++ cls :: rest)
      (by simp at hn; omega) hp'
    have hy := ihy (fun t h => he t (by simp [h])) (List.IsChain.tail (List.IsChain.right_of_append hcx)) n rest
      (by simp at hn; omega) hp'.of_append.tail
    change exprLoop (n + 1) (opn :: (x ++ cls :: y) ++ cls :: rest) = _
    rw [List.cons_append, exprLoop, if_pos (by rfl), next_cons hp]
    simp only [bind_ok]
    rw [show x ++ cls :: y ++ cls :: rest = x ++ cls :: (y ++ cls :: rest) by simp, hx]
    simp only [bind_ok]
    rw [hy]
    simp only [bind_ok, curL_cons]
    congr 2
    change rawIdent s%"(" :: _ = (opn :: (x ++ cls :: y)).map wordOf ++ _
    simp [wordOf_opn, wordOf_cls]
    rfl

theorem parseExpr_balanced {b rest : List Token} (h : Balanced b) (he : ∀ t ∈ b, t.type ≠ .EOF) (hc : NoPair b)
    (hp : NoPanic (opn :: (b ++ cls :: rest))) : parseExpr (opn :: (b ++ cls :: rest)) = .ok (bracketed (b.map wordOf), rest) := by
  rw [parseExpr, checkCur, if_pos (by simp [opn]), bind_ok, next_cons hp]
  simp only [bind_ok]
  rw [exprLoop_balanced h he hc _ rest (by simp; omega) hp.tail]
  rfl

/-! ## Columns -/

theorem noPair_options : ∀ (l : List (Str × Text)), (∀ o ∈ l, o.2.Ok ∧ ∀ t ∈ o.2.tokens.head?, ¬ IsCmp t) →
    NoPair (sepBy (l.map optToks)) ∧ Balanced (sepBy (l.map optToks)) ∧ ∀ t ∈ sepBy (l.map optToks), t.type ≠ .EOF := by
  have one : ∀ o : Str × Text, (o.2.Ok ∧ ∀ t ∈ o.2.tokens.head?, ¬ IsCmp t) →
      NoPair (optToks o) ∧ Balanced (optToks o) ∧ ∀ t ∈ optToks o, t.type ≠ .EOF := by
    intro o ⟨ho, hh⟩
    refine ⟨?_, ?_, ?_⟩
    · refine List.isChain_cons_cons.2 ⟨fun h => absurd h.1 (by simp [IsCmp, nm]), ?_⟩
      cases e : o.2.tokens with
      | nil => exact List.isChain_singleton _
      | cons t r =>
        refine List.isChain_cons_cons.2 ⟨fun h => hh t (by simp [e]) h.2, ?_⟩
        rw [← e]; exact ho.noPair
    · exact .cons _ _ (by simp [nm]) (.cons _ _ (by simp [eqs]) ho.balanced)
    · intro t ht
      simp only [optToks, List.mem_cons] at ht
      rcases ht with rfl | rfl | ht
      · simp [nm]
      · simp [eqs]
      · exact ho.noEof t ht
  intro l
  induction l with
  | nil => exact fun _ => ⟨List.isChain_nil, .nil, by simp [sepBy]⟩
  | cons o l ih =>
    intro h
    have h1 := one o (h o (by simp))
    cases l with
    | nil => simpa [sepBy] using h1
    | cons p l =>
      have h2 := ih fun o ho => h o (List.mem_cons_of_mem _ ho)
      simp only [List.map_cons, sepBy] at h2 ⊢
      refine ⟨?_, ?_, ?_⟩
      · refine List.IsChain.append h1.1 ?_ ?_
        · refine List.IsChain.cons h2.1 ?_
          intro y hy hh
          exact absurd hh.1 (by simp [IsCmp, com])
        · intro x hx y hy hh
          simp only [List.head?_cons, Option.mem_def, Option.some.injEq] at hy
          subst hy
          exact absurd hh.2 (by simp [IsCmp, com])
      · exact h1.2.1.append (.cons _ _ (by simp [com]) h2.2.1)
      · intro t ht
        rcases List.mem_append.1 ht with ht | ht
        · exact h1.2.2 t ht
        · rcases List.mem_cons.1 ht with rfl | ht
          · simp [com]
          · exact h2.2.2 t ht

/-- What stands behind a column. -/
def AtEnd (ts : List Token) : Prop := curT ts = .COMMA ∨ curT ts = .CLOSE_PAREN

def sizeToks (c : Col) : List Token := match c.size with | some n => [opn, nm n, cls] | none => []
def dfltToks (c : Col) : List Token :=
  match c.default with | some e => ⟨.DEFAULT, s%"DEFAULT"⟩ :: opn :: (e.tokens ++ [cls]) | none => []
def nnToks (c : Col) : List Token := if c.notNull then [⟨.NOT, s%"NOT"⟩, ⟨.NULL, s%"NULL"⟩] else []
def optsToks (c : Col) : List Token :=
  if c.options = [] then [] else ⟨.OPTIONS, s%"OPTIONS"⟩ :: opn :: (sepBy (c.options.map optToks) ++ [cls])

theorem colToks_eq (c : Col) : colToks c =
    nm c.name :: ⟨c.type.2, c.type.1⟩ :: (sizeToks c ++ (dfltToks c ++ (nnToks c ++ optsToks c))) := rfl

theorem parseDataType_shown {c : Col} {rest : List Token} (hs : ∀ n ∈ c.size, IsPlain n) (hr : curT rest ≠ .OPEN_PAREN)
    (hp : NoPanic (⟨c.type.2, c.type.1⟩ :: (sizeToks c ++ rest))) :
    ∃ t, parseDataType (⟨c.type.2, c.type.1⟩ :: (sizeToks c ++ rest)) =
      .ok (⟨c.type.1, c.type.2, (c.size.map plain).toList⟩, t :: rest) ∧ t.type ≠ .PANIC := by
  unfold parseDataType
  cases hc : c.size with
  | none =>
    simp only [sizeToks, hc, List.nil_append] at hp ⊢
    refine ⟨⟨c.type.2, c.type.1⟩, ?_, hp _ (by simp)⟩
    simp only [peekT_cons, hr, if_false]
    rfl
  | some n =>
    simp only [sizeToks, hc, List.cons_append, List.nil_append] at hp ⊢
    refine ⟨cls, ?_, by simp [cls]⟩
    have hn := hs n (by simp [hc])
    simp only [peekT_cons, curT_cons, show opn.type = .OPEN_PAREN from rfl, if_true]
    rw [next_cons hp, bind_ok, parseIdents, List.length_cons]
    have e1 : curT (opn :: nm n :: cls :: rest) = .OPEN_PAREN := rfl
    have e2 : curT (nm n :: cls :: rest) = .IDENT := rfl
    have e3 : curT (cls :: rest) = .CLOSE_PAREN := rfl
    rw [identsLoop, if_pos e1, next_cons hp.tail, bind_ok, List.length_cons, identsLoop, if_neg (by rw [e2]; decide),
      if_neg (by rw [e2]; decide), if_neg (by rw [e2]; decide)]
    simp only [List.length_cons]
    rw [next_cons hp.tail.tail, bind_ok, identsLoop, if_neg (by rw [e3]; decide), if_pos e3]
    simp only [bind_ok]
    have : rawIdent (curL (nm n :: cls :: rest)) = plain n := hn.ident
    rw [this]
    rfl

theorem columnAttrs_shown {c : Col} {rest : List Token} (hd : ∀ e ∈ c.default, e.Ok)
    (hr : AtEnd rest ∨ curT rest = .OPTIONS ∧ (c.default = none ∨ c.notNull = true))
    (hp : NoPanic (dfltToks c ++ (nnToks c ++ rest))) (n : Nat)
    (hn : (dfltToks c).length + (nnToks c).length < n) :
    columnAttrsLoop n none false (dfltToks c ++ (nnToks c ++ rest)) =
      .ok (c.default.map fun e => ⟨some (bracketed (e.tokens.map wordOf))⟩, c.notNull, rest) := by
  have hr1 : curT rest ≠ .NOT ∧ curT rest ≠ .NULL ∧ curT rest ≠ .DEFAULT := by
    rcases hr with (h | h) | ⟨h, _⟩ <;> rw [h] <;> decide
  have step : ∀ (m : Nat) (d : Option Default), (nnToks c).length < m →
      columnAttrsLoop m d false (nnToks c ++ rest) = .ok (d, c.notNull, rest) := by
    intro m d hm
    cases hc : c.notNull with
    | false =>
      obtain ⟨m, rfl⟩ : ∃ k, m = k + 1 := ⟨m - 1, by omega⟩
      simp only [nnToks, hc, Bool.false_eq_true, if_false, List.nil_append, columnAttrsLoop, hr1.1, hr1.2.1, hr1.2.2]
    | true =>
      have hl : (nnToks c).length = 2 := by simp [nnToks, hc]
      obtain ⟨m, rfl⟩ : ∃ k, m = k + 2 := ⟨m - 2, by omega⟩
      have hp' : NoPanic (nnToks c ++ rest) := hp.of_append
      simp only [nnToks, hc, if_true, List.cons_append, List.nil_append] at hp' ⊢
      rw [columnAttrsLoop, if_pos (by rfl), checkPeek, if_pos (by simp), bind_ok, next_cons hp', bind_ok, next_cons hp'.tail, bind_ok]
      simp only [columnAttrsLoop, hr1.1, hr1.2.1, hr1.2.2, if_false]
  cases hc : c.default with
  | none =>
    simp only [dfltToks, hc, List.nil_append, List.length_nil, Nat.zero_add] at hn ⊢
    exact step _ none hn
  | some e =>
    have he := hd e (by simp [hc])
    simp only [dfltToks, hc, List.cons_append, List.append_assoc, List.nil_append, List.length_cons] at hp hn ⊢
    obtain ⟨n, rfl⟩ : ∃ k, n = k + 1 := ⟨n - 1, by omega⟩
    rw [columnAttrsLoop, if_neg (by simp), if_neg (by simp), if_pos (by rfl), next_cons hp, bind_ok, parseColumnDefault]
    simp only [List.length_cons]
    rw [defaultLoop, if_neg (by simp [opn]), if_pos (by rfl), parseExpr_balanced he.balanced he.noEof he.noPair hp.tail]
    simp only [bind_ok]
    have hstop : curT (nnToks c ++ rest) = .NOT ∨ curT (nnToks c ++ rest) = .COMMA ∨ curT (nnToks c ++ rest) = .CLOSE_PAREN := by
      cases hnn : c.notNull with
      | true => left; simp [nnToks, hnn]
      | false =>
        simp only [nnToks, hnn, Bool.false_eq_true, if_false, List.nil_append]
        rcases hr with h | ⟨_, h⟩
        · exact Or.inr h
        · rw [hc, hnn] at h; simp at h
    rw [defaultLoop, if_neg (by rcases hstop with h | h | h <;> rw [h] <;> decide),
      if_neg (by rcases hstop with h | h | h <;> rw [h] <;> decide), if_pos hstop]
    simp only [bind_ok]
    rw [step _ _ (by omega)]
    rfl

theorem parseColumnOptions_shown {c : Col} {rest : List Token} (hn : ∀ o ∈ c.options, IsPlain o.1)
    (ho : ∀ o ∈ c.options, o.2.Ok ∧ ∀ t ∈ o.2.tokens.head?, ¬ IsCmp t) (hr : AtEnd rest) (hp : NoPanic (optsToks c ++ rest)) :
    parseColumnOptions (optsToks c ++ rest) = .ok (c.column.options, rest) := by
  unfold parseColumnOptions
  by_cases h : c.options = []
  · simp only [optsToks, h, if_true, List.nil_append, Col.column]
    rw [if_neg (by rcases hr with h | h <;> rw [h] <;> decide)]
  · simp only [optsToks, h, if_false, List.cons_append, List.append_assoc, List.nil_append, Col.column] at hp ⊢
    obtain ⟨h1, h2, h3⟩ := noPair_options c.options ho
    rw [if_pos (by rfl), next_cons hp, bind_ok, parseExpr_balanced h2 h3 h1 hp.tail]
    simp only [bind_ok]
    congr 3
    congr 1
    rw [← commaSep_map, List.map_map]
    congr 1
    refine List.map_congr_left fun o h => ?_
    simp [optToks, wordOf_nm (hn o h), wordOf_eqs]

theorem parseColumn_shown {tbl : Ident} {c : Col} (hc : c.Plain) {rest : List Token} (hr : AtEnd rest)
    (hp : NoPanic (colToks c ++ rest)) : parseColumn tbl (colToks c ++ rest) = .ok (c.column, [], rest) := by
  rw [colToks_eq] at hp ⊢
  simp only [List.cons_append, List.append_assoc] at hp ⊢
  have hopt : curT (optsToks c ++ rest) = .OPTIONS ∨ AtEnd (optsToks c ++ rest) := by
    by_cases h : c.options = []
    · simp only [optsToks, h, if_true, List.nil_append]; exact Or.inr hr
    · simp only [optsToks, h, if_false]; exact Or.inl rfl
  have hno : curT (dfltToks c ++ (nnToks c ++ (optsToks c ++ rest))) ≠ .OPEN_PAREN := by
    cases hd : c.default with
    | some e => simp [dfltToks, hd]
    | none =>
      simp only [dfltToks, hd, List.nil_append]
      cases hn : c.notNull with
      | true => simp [nnToks, hn]
      | false =>
        simp only [nnToks, hn, Bool.false_eq_true, if_false, List.nil_append]
        rcases hopt with h | h | h <;> rw [h] <;> decide
  obtain ⟨t, h1, ht⟩ := parseDataType_shown hc.size hno hp.tail
  have hp3 : NoPanic (dfltToks c ++ (nnToks c ++ (optsToks c ++ rest))) := hp.tail.tail.of_append
  have h2 := columnAttrs_shown hc.default (rest := optsToks c ++ rest) (by
    rcases hopt with h | h
    · right
      refine ⟨h, ?_⟩
      rcases hc.optionsBehind with h' | h' | h'
      · exact Or.inl h'
      · simp only [optsToks, h', if_true, List.nil_append] at h
        rcases hr with h'' | h'' <;> rw [h''] at h <;> cases h
      · exact Or.inr h'
    · exact Or.inl h) hp3
  have hty : isDataType c.type.2 = true := by
    have := hc.type
    revert this
    generalize c.type = x
    simp only [typeNames, List.mem_cons, List.not_mem_nil, or_false]
    rintro (rfl | rfl | rfl | rfl | rfl | rfl | rfl) <;> rfl
  have hcur : rawIdent (curL (nm c.name :: ⟨c.type.2, c.type.1⟩ :: (sizeToks c ++ (dfltToks c ++ (nnToks c ++ (optsToks c ++ rest)))))) =
      plain c.name := hc.name.ident
  have hp4 : NoPanic (t :: (dfltToks c ++ (nnToks c ++ (optsToks c ++ rest)))) := noPanic_cons_iff.2 ⟨ht, hp3⟩
  rw [parseColumn, checkCur, if_pos (by simp [nm]), bind_ok, next_cons hp, bind_ok]
  simp only [hcur]
  have hcons : parseColumnConstraints tbl (plain c.name) (optsToks c ++ rest) = .ok ([], optsToks c ++ rest) := by
    have : curT (optsToks c ++ rest) = .OPTIONS ∨ curT (optsToks c ++ rest) = .IDENT ∨ curT (optsToks c ++ rest) = .COMMA ∨
        curT (optsToks c ++ rest) = .CLOSE_PAREN := by
      rcases hopt with h | h | h <;> rw [h] <;> decide
    rw [parseColumnConstraints, columnConstraintsLoop, if_neg (by rcases hopt with h | h | h <;> rw [h] <;> decide),
      if_neg (by rcases hopt with h | h | h <;> rw [h] <;> decide), if_pos this]
  rw [if_pos (by rw [curT_cons]; exact hty), h1]
  simp only [bind_ok]
  rw [next_cons hp4, bind_ok, h2 _ (by simp only [List.length_append]; omega)]
  simp only [bind_ok]
  rw [hcons]
  simp only [bind_ok, appendAll]
  rw [parseColumnOptions_shown hc.optionName hc.option hr hp3.of_append.of_append]
  rfl

/-! ## Tables -/

theorem tableLoop_shown {tbl : Ident} : ∀ (l : List Col) (n : Nat) (cols : List Column) (rest : List Token), (∀ c ∈ l, c.Plain) →
    2 * l.length < n → NoPanic (sepBy (l.map colToks) ++ cls :: rest) →
    tableLoop tbl n cols [] (sepBy (l.map colToks) ++ cls :: rest) = .ok (cols ++ l.map Col.column, [], rest) := by
  intro l
  induction l with
  | nil =>
    intro n cols rest _ hn hp
    obtain ⟨n, rfl⟩ : ∃ m, n = m + 1 := ⟨n - 1, by simp at hn; omega⟩
    change NoPanic (cls :: rest) at hp
    change tableLoop tbl (n + 1) cols [] (cls :: rest) = _
    rw [tableLoop, if_neg (by simp [cls]), if_neg (by simp [cls, isConstraint]), if_neg (by simp [cls]), if_pos (by rfl),
      next_cons hp, bind_ok]
    simp
  | cons c l ih =>
    intro n cols rest hl hn hp
    obtain ⟨n, rfl⟩ : ∃ m, n = m + 2 := ⟨n - 2, by simp at hn; omega⟩
    have hc := hl c (by simp)
    cases l with
    | nil =>
      change NoPanic (colToks c ++ cls :: rest) at hp
      change tableLoop tbl (n + 2) cols [] (colToks c ++ cls :: rest) = _
      rw [tableLoop, if_pos (by rfl), parseColumn_shown hc (Or.inr rfl) hp]
      simp only [bind_ok, appendAll]
      rw [tableLoop, if_neg (by simp [cls]), if_neg (by simp [cls, isConstraint]), if_neg (by simp [cls]), if_pos (by rfl),
        next_cons hp.of_append, bind_ok]
      rfl
    | cons d l =>
      simp only [List.map_cons, sepBy, List.append_assoc, List.cons_append] at hp ⊢
      rw [tableLoop, if_pos (by rfl), parseColumn_shown hc (Or.inl rfl) hp]
      simp only [bind_ok, appendAll]
      rw [tableLoop, if_neg (by simp [com]), if_neg (by simp [com, isConstraint]), if_pos (by rfl), next_cons hp.of_append, bind_ok]
      have := ih n (cols ++ [c.column]) rest (fun c h => hl c (List.mem_cons_of_mem _ h)) (by simp at hn ⊢; omega)
        (by simpa [sepBy] using hp.of_append.tail)
      simp only [List.map_cons] at this
      rw [this]
      simp

def keyToks (key : List (Str × Bool)) : List Token :=
  ⟨.PRIMARY, s%"PRIMARY"⟩ :: ⟨.KEY, s%"KEY"⟩ :: opn :: (sepBy (key.map fun k => [nm k.1]) ++ [cls])

def policyToks : Option (Str × Str) → List Token
  | none => []
  | some p => [com, ⟨.ROW, s%"ROW"⟩, ⟨.DELETION, s%"DELETION"⟩, ⟨.POLICY, s%"POLICY"⟩, opn, ⟨.OLDER_THAN, s%"OLDER_THAN"⟩, opn,
      nm p.1, com, ⟨.INTERVAL, s%"INTERVAL"⟩, nm p.2, ⟨.DAY, s%"DAY"⟩, cls, cls]

/-- The key without orders. -/
def flat (key : List (Str × Bool)) : List (Str × Bool) := key.map fun k => (k.1, false)

theorem keyToks_ok : ∀ l : List Str, NoPair (sepBy (l.map fun k => [nm k])) ∧ Balanced (sepBy (l.map fun k => [nm k])) ∧
    ∀ t ∈ sepBy (l.map fun k => [nm k]), t.type ≠ .EOF
  | [] => ⟨List.isChain_nil, .nil, by simp [sepBy]⟩
  | [a] => ⟨List.isChain_singleton _, .cons _ _ (by simp [nm]) .nil, by simp [sepBy, nm]⟩
  | a :: b :: r => by
    obtain ⟨h1, h2, h3⟩ := keyToks_ok (b :: r)
    simp only [List.map_cons, sepBy, List.cons_append, List.nil_append] at h1 h2 h3 ⊢
    refine ⟨List.IsChain.cons (List.IsChain.cons h1 ?_) ?_, .cons _ _ (by simp [nm]) (.cons _ _ (by simp [com]) h2), ?_⟩
    · intro y _ h; exact absurd h.1 (by simp [IsCmp, com])
    · intro y _ h; exact absurd h.1 (by simp [IsCmp, nm])
    · intro t ht
      rcases List.mem_cons.1 ht with rfl | ht
      · simp [nm]
      · rcases List.mem_cons.1 ht with rfl | ht
        · simp [com]
        · exact h3 t ht

theorem keyWords {key : List (Str × Bool)} (hk : ∀ k ∈ key, IsPlain k.1) :
    (sepBy (key.map fun k => [nm k.1])).map wordOf =
      commaSep ((flat key).map fun k => plain k.1 :: if k.2 then [plain s%"DESC"] else []) := by
  rw [← commaSep_map, List.map_map, flat, List.map_map]
  congr 1
  refine List.map_congr_left fun k h => ?_
  simp [wordOf_nm (hk k h)]

theorem optionsLoop_shown {key : List (Str × Bool)} (hk : ∀ k ∈ key, IsPlain k.1) {pol : Option (Str × Str)}
    (hpol : ∀ p ∈ pol, IsPlain p.1 ∧ IsPlain p.2) {rest : List Token} (hp : NoPanic (keyToks key ++ (policyToks pol ++ semi :: rest)))
    (n : Nat) (hn : 4 ≤ n) :
    optionsLoop n [] none (keyToks key ++ (policyToks pol ++ semi :: rest)) =
      .ok ([keyOption (flat key)], pol.map policyOption, semi :: rest) := by
  obtain ⟨n, rfl⟩ : ∃ m, n = m + 4 := ⟨n - 4, by omega⟩
  obtain ⟨h1, h2, h3⟩ := keyToks_ok (key.map Prod.fst)
  simp only [List.map_map, Function.comp_def] at h1 h2 h3
  simp only [keyToks, List.cons_append, List.append_assoc, List.nil_append] at hp ⊢
  rw [optionsLoop, if_pos (by rfl), expect, next_cons hp, bind_ok, checkCur, if_pos (by simp), bind_ok]
  simp only [bind_ok]
  rw [next_cons hp.tail, bind_ok, parseExpr_balanced h2 h3 h1 hp.tail.tail, keyWords hk]
  simp only [bind_ok, List.nil_append]
  have hp' : NoPanic (policyToks pol ++ semi :: rest) := hp.tail.tail.tail.of_append.tail
  cases pol with
  | none =>
    change optionsLoop (n + 3) _ _ (semi :: rest) = _
    rw [optionsLoop, if_neg (by simp [semi]), if_neg (by simp [semi]), if_neg (by simp [semi]), if_neg (by simp [semi]),
      if_pos (by left; rfl)]
    rfl
  | some p =>
    obtain ⟨q1, q2⟩ := hpol p rfl
    simp only [policyToks, List.cons_append, List.nil_append] at hp' ⊢
    rw [optionsLoop, if_neg (by simp [com]), if_neg (by simp [com]), if_neg (by simp [com]), if_pos (by rfl), next_cons hp', bind_ok]
    rw [optionsLoop, if_neg (by simp), if_neg (by simp), if_pos (by rfl)]
    have hx : parseRowDeletionPolicy (⟨.ROW, s%"ROW"⟩ :: ⟨.DELETION, s%"DELETION"⟩ :: ⟨.POLICY, s%"POLICY"⟩ :: opn ::
        ⟨.OLDER_THAN, s%"OLDER_THAN"⟩ :: opn :: nm p.1 :: com :: ⟨.INTERVAL, s%"INTERVAL"⟩ :: nm p.2 :: ⟨.DAY, s%"DAY"⟩ :: cls :: cls ::
        semi :: rest) = .ok (policyOption p, cls :: semi :: rest) := by
      have e : ∀ (T : TokType) (t u : Token) (ts : List Token), NoPanic (t :: u :: ts) → u.type = T →
          expect T (t :: u :: ts) = .ok (u.lit, u :: ts) := by
        intro T t u ts h hu
        rw [expect, next_cons h, bind_ok, checkCur, if_pos (by simp [hu]), bind_ok]
        rfl
      have hq := hp'.tail
      rw [parseRowDeletionPolicy, e .DELETION _ _ _ hq rfl]
      simp only [bind_ok]
      rw [e .POLICY _ _ _ hq.tail rfl]
      simp only [bind_ok]
      rw [e .OPEN_PAREN _ _ _ hq.tail.tail rfl]
      simp only [bind_ok]
      rw [e .OLDER_THAN _ _ _ hq.tail.tail.tail rfl]
      simp only [bind_ok]
      rw [e .OPEN_PAREN _ _ _ hq.tail.tail.tail.tail rfl]
      simp only [bind_ok]
      rw [e .IDENT _ _ _ hq.tail.tail.tail.tail.tail rfl]
      simp only [bind_ok]
      rw [e .COMMA _ _ _ hq.tail.tail.tail.tail.tail.tail rfl]
      simp only [bind_ok]
      rw [e .INTERVAL _ _ _ hq.tail.tail.tail.tail.tail.tail.tail rfl]
      simp only [bind_ok]
      rw [e .IDENT _ _ _ hq.tail.tail.tail.tail.tail.tail.tail.tail rfl]
      simp only [bind_ok]
      rw [e .DAY _ _ _ hq.tail.tail.tail.tail.tail.tail.tail.tail.tail rfl]
      simp only [bind_ok]
      rw [e .CLOSE_PAREN _ _ _ hq.tail.tail.tail.tail.tail.tail.tail.tail.tail.tail rfl]
      simp only [bind_ok]
      rw [e .CLOSE_PAREN _ _ _ hq.tail.tail.tail.tail.tail.tail.tail.tail.tail.tail.tail rfl]
      simp only [bind_ok, nm, q1.ident, q2.ident]
      rfl
    rw [hx]
    simp only [bind_ok]
    rw [next_cons hp'.tail.tail.tail.tail.tail.tail.tail.tail.tail.tail.tail.tail.tail, bind_ok]
    rw [optionsLoop, if_neg (by simp [semi]), if_neg (by simp [semi]), if_neg (by simp [semi]), if_neg (by simp [semi]),
      if_pos (by left; rfl)]
    rfl

def tblToks (t : Tbl) : List Token :=
  ⟨.CREATE, s%"CREATE"⟩ :: ⟨.TABLE, s%"TABLE"⟩ :: nm t.name :: opn ::
    (sepBy (t.columns.map colToks) ++ cls :: (keyToks t.key ++ policyToks t.policy))

/-- The table without what `ShowCreateAllTables` leaves out. -/
def _root_.Ddl.Sp.Show.Tbl.seen (t : Tbl) : CreateTable :=
  ⟨[], false, ⟨none, plain t.name⟩, t.columns.map Col.column, [], [keyOption (flat t.key)], t.policy.map policyOption⟩

theorem length_sepBy : ∀ l : List Col, 2 * l.length ≤ (sepBy (l.map colToks)).length
  | [] => by simp
  | [c] => by simp [sepBy, colToks]
  | c :: d :: l => by
    have := length_sepBy (d :: l)
    simp only [List.map_cons, sepBy, List.length_append, List.length_cons, colToks] at this ⊢
    omega

theorem parseCreate_table {t : Tbl} (ht : t.Plain) {rest : List Token} (hp : NoPanic (tblToks t ++ semi :: rest)) :
    parseCreate (tblToks t ++ semi :: rest) = .ok (.createTable t.seen, semi :: rest) := by
  have e : tblToks t ++ semi :: rest = ⟨.CREATE, s%"CREATE"⟩ :: ⟨.TABLE, s%"TABLE"⟩ :: nm t.name :: opn ::
      (sepBy (t.columns.map colToks) ++ cls :: (keyToks t.key ++ (policyToks t.policy ++ semi :: rest))) := by
    simp [tblToks]
  rw [e] at hp ⊢
  have hp4 := hp.tail.tail.tail.tail
  rw [parseCreate, next_cons hp, bind_ok, if_pos (by rfl), parseCreateTable, parseIfNotExists, if_neg (by simp [nm])]
  simp only [bind_ok]
  rw [next_cons hp.tail, bind_ok, checkCur, if_pos (by simp [nm]), bind_ok, next_cons hp.tail.tail, bind_ok, checkCur,
    if_pos (by simp [opn]), bind_ok, next_cons hp.tail.tail.tail, bind_ok]
  rw [tableLoop_shown t.columns _ [] _ ht.columns (by
    have := length_sepBy t.columns
    simp only [List.length_append]; omega) hp4]
  simp only [bind_ok]
  rw [optionsLoop_shown ht.key.2 ht.policy hp4.of_append.tail _ (by
    simp only [keyToks, List.length_append, List.length_cons]; omega)]
  simp only [bind_ok, curL_cons, nm, ht.name.objectName]
  rfl

/-! ## Indexes -/

def idxToks (t : Tbl) (i : Idx) (cols : List Str) : List Token :=
  ⟨.CREATE, s%"CREATE"⟩ :: ((if i.unique then [⟨.UNIQUE, s%"UNIQUE"⟩] else []) ++ ⟨.INDEX, s%"INDEX"⟩ :: nm i.name ::
    ⟨.ON, s%"ON"⟩ :: nm t.name :: opn :: (sepBy (cols.map fun c => [nm c]) ++ [cls]))

/-- The index with these columns. -/
def seenIndex (t : Tbl) (i : Idx) (cols : List Str) : CreateIndex :=
  ⟨[], i.unique, false, ⟨none, plain i.name⟩, ⟨none, plain t.name⟩, [], cols.map fun c => ⟨plain c, none⟩⟩

theorem columnIdents_shown {rest : List Token} : ∀ (cols : List Str) (n : Nat), (∀ c ∈ cols, IsPlain c) → 2 * cols.length < n →
    NoPanic (sepBy (cols.map fun c => [nm c]) ++ cls :: rest) →
    columnIdentsLoop n (sepBy (cols.map fun c => [nm c]) ++ cls :: rest) = .ok (cols.map fun c => ⟨plain c, none⟩, rest)
  | [], n, _, hn, hp => by
    obtain ⟨n, rfl⟩ : ∃ m, n = m + 1 := ⟨n - 1, by simp at hn; omega⟩
    change NoPanic (cls :: rest) at hp
    change columnIdentsLoop (n + 1) (cls :: rest) = _
    rw [columnIdentsLoop, if_neg (by simp [cls]), if_neg (by simp [cls]), if_pos (by rfl), next_cons hp, bind_ok]
    rfl
  | [c], n, hc, hn, hp => by
    obtain ⟨n, rfl⟩ : ∃ m, n = m + 2 := ⟨n - 2, by simp at hn; omega⟩
    change NoPanic (nm c :: cls :: rest) at hp
    change columnIdentsLoop (n + 2) (nm c :: cls :: rest) = _
    rw [columnIdentsLoop, if_neg (by simp [nm]), if_pos (by rfl), parseOrder, if_neg (by simp [cls]), if_neg (by simp [cls])]
    simp only [bind_ok]
    rw [next_cons hp, bind_ok, columnIdentsLoop, if_neg (by simp [cls]), if_neg (by simp [cls]), if_pos (by rfl),
      next_cons hp.tail, bind_ok]
    simp only [bind_ok, curL_cons, nm, (hc c (by simp)).ident]
    rfl
  | c :: d :: r, n, hc, hn, hp => by
    obtain ⟨n, rfl⟩ : ∃ m, n = m + 2 := ⟨n - 2, by simp at hn; omega⟩
    have ih := columnIdents_shown (rest := rest) (d :: r) n (fun c h => hc c (List.mem_cons_of_mem _ h)) (by simp at hn ⊢; omega)
    simp only [List.map_cons, sepBy, List.cons_append, List.nil_append] at hp ih ⊢
    rw [columnIdentsLoop, if_neg (by simp [nm]), if_pos (by rfl), parseOrder, if_neg (by simp [com]), if_neg (by simp [com])]
    simp only [bind_ok]
    rw [next_cons hp, bind_ok, columnIdentsLoop, if_pos (by right; rfl), next_cons hp.tail, bind_ok, ih hp.tail.tail]
    simp only [bind_ok, curL_cons, nm, (hc c (by simp)).ident]

theorem length_sepBy_names : ∀ l : List Str, l.length ≤ (sepBy (l.map fun c => [nm c])).length ∧
    2 * l.length ≤ (sepBy (l.map fun c => [nm c])).length + 1
  | [] => by simp
  | [c] => by simp [sepBy]
  | c :: d :: l => by
    have := length_sepBy_names (d :: l)
    simp only [List.map_cons, sepBy, List.length_append, List.length_cons, List.length_nil] at this ⊢
    omega

theorem parseCreate_index {t : Tbl} (ht : IsPlain t.name) {i : Idx} (hi : IsPlain i.name) {cols : List Str}
    (hc : ∀ c ∈ cols, IsPlain c) {rest : List Token} (hp : NoPanic (idxToks t i cols ++ semi :: rest)) :
    parseCreate (idxToks t i cols ++ semi :: rest) = .ok (.createIndex (seenIndex t i cols), semi :: rest) := by
  have tail : ∀ (u : Bool), NoPanic (⟨.INDEX, s%"INDEX"⟩ :: nm i.name :: ⟨.ON, s%"ON"⟩ :: nm t.name :: opn ::
      (sepBy (cols.map fun c => [nm c]) ++ cls :: semi :: rest)) → (do
      let (ine, ts) ← parseIfNotExists (⟨.INDEX, s%"INDEX"⟩ :: nm i.name :: ⟨.ON, s%"ON"⟩ :: nm t.name :: opn ::
        (sepBy (cols.map fun c => [nm c]) ++ cls :: semi :: rest))
      let ts ← next ts
      checkCur [.IDENT] ts
      let name := newObjectName .spanner (curL ts)
      let ts ← next ts
      checkCur [.ON] ts
      let ts ← next ts
      checkCur [.IDENT] ts
      let tbl := newObjectName .spanner (curL ts)
      let ts ← next ts
      let (us, ts) ← parseUsing ts
      checkCur [.OPEN_PAREN] ts
      let (ids, ts) ← parseColumnIdents ts
      .ok ((⟨[], u, ine, name, tbl, us, ids⟩ : CreateIndex), ts)) =
      .ok (⟨[], u, false, ⟨none, plain i.name⟩, ⟨none, plain t.name⟩, [], cols.map fun c => ⟨plain c, none⟩⟩, semi :: rest) := by
    intro u hp
    rw [parseIfNotExists, if_neg (by simp [nm])]
    simp only [bind_ok]
    rw [next_cons hp, bind_ok, checkCur, if_pos (by simp [nm]), bind_ok, next_cons hp.tail, bind_ok, checkCur, if_pos (by simp), bind_ok,
      next_cons hp.tail.tail, bind_ok, checkCur, if_pos (by simp [nm]), bind_ok, next_cons hp.tail.tail.tail, bind_ok, parseUsing,
      if_neg (by simp [opn])]
    simp only [bind_ok]
    rw [checkCur, if_pos (by simp [opn]), bind_ok, parseColumnIdents, columnIdentsLoop, if_pos (by left; rfl),
      next_cons hp.tail.tail.tail.tail, bind_ok, columnIdents_shown cols _ hc (by
        have := (length_sepBy_names cols).2
        simp only [List.length_cons, List.length_append]; omega) hp.tail.tail.tail.tail.tail]
    simp only [bind_ok, curL_cons, nm, hi.objectName, ht.objectName]
  cases hu : i.unique with
  | false =>
    have e : idxToks t i cols ++ semi :: rest = ⟨.CREATE, s%"CREATE"⟩ :: ⟨.INDEX, s%"INDEX"⟩ :: nm i.name ::
        ⟨.ON, s%"ON"⟩ :: nm t.name :: opn :: (sepBy (cols.map fun c => [nm c]) ++ cls :: semi :: rest) := by simp [idxToks, hu]
    rw [e] at hp ⊢
    have := tail false hp.tail
    rw [parseCreate, next_cons hp, bind_ok, if_neg (by simp), if_pos (by left; rfl), parseCreateIndex, parseUnique, if_neg (by simp)]
    simp only [bind_ok]
    rw [this, bind_ok, seenIndex, hu]
  | true =>
    have e : idxToks t i cols ++ semi :: rest = ⟨.CREATE, s%"CREATE"⟩ :: ⟨.UNIQUE, s%"UNIQUE"⟩ :: ⟨.INDEX, s%"INDEX"⟩ :: nm i.name ::
        ⟨.ON, s%"ON"⟩ :: nm t.name :: opn :: (sepBy (cols.map fun c => [nm c]) ++ cls :: semi :: rest) := by simp [idxToks, hu]
    rw [e] at hp ⊢
    have := tail true hp.tail.tail
    rw [parseCreate, next_cons hp, bind_ok, if_neg (by simp), if_pos (by right; rfl), parseCreateIndex, parseUnique, if_pos (by rfl),
      next_cons hp.tail]
    simp only [bind_ok]
    rw [this, bind_ok, seenIndex, hu]

/-! ## The whole text -/

/-- What `ShowCreateAllTables` shows of a database, read again; `ic` gives the columns shown for the indexes of a table. -/
def seen (ic : Tbl → List Str) (db : Db) : List SStmt :=
  db.flatMap fun t => .createTable t.seen :: t.indexes.map fun i => .createIndex (seenIndex t i (ic t))

def tblAllToks (ic : Tbl → List Str) (t : Tbl) : List Token :=
  tblToks t ++ semi :: t.indexes.flatMap fun i => idxToks t i (ic t) ++ [semi]

theorem parseLoop_indexes {t : Tbl} (ht : IsPlain t.name) {cols : List Str} (hc : ∀ c ∈ cols, IsPlain c) {rest : List Token} {l : List SStmt} :
    ∀ (is : List Idx) (n : Nat), (∀ i ∈ is, IsPlain i.name) → NoPanic (is.flatMap (fun i => idxToks t i cols ++ [semi]) ++ rest) →
    parseLoop parseCreate n rest = .ok l →
    parseLoop parseCreate (n + is.length) (is.flatMap (fun i => idxToks t i cols ++ [semi]) ++ rest) =
      .ok (is.map (fun i => .createIndex (seenIndex t i cols)) ++ l)
  | [], n, _, _, h => h
  | i :: is, n, hi, hp, h => by
    simp only [List.flatMap_cons, List.append_assoc, List.cons_append, List.nil_append] at hp ⊢
    have ih := parseLoop_indexes ht hc is n (fun i h => hi i (List.mem_cons_of_mem _ h)) hp.of_append.tail h
    rw [List.length_cons, ← Nat.add_assoc, parseLoop, if_pos (by rfl), parseCreate_index ht (hi i (by simp)) hc hp]
    simp only [bind_ok]
    rw [next_cons hp.of_append, bind_ok, ih]
    rfl

theorem parseLoop_tables {ic : Tbl → List Str} : ∀ (db : Db) (n : Nat), (∀ t ∈ db, t.Plain ∧ ∀ c ∈ ic t, IsPlain c) →
    NoPanic (db.flatMap (tblAllToks ic)) → (seen ic db).length < n →
    parseLoop parseCreate n (db.flatMap (tblAllToks ic)) = .ok (seen ic db)
  | [], n, _, _, hn => by
    obtain ⟨n, rfl⟩ : ∃ m, n = m + 1 := ⟨n - 1, by omega⟩
    rfl
  | t :: db, n, hd, hp, hn => by
    obtain ⟨ht, hc⟩ := hd t (by simp)
    have hn' : t.indexes.length + 1 + (seen ic db).length < n := by
      simp only [seen, List.flatMap_cons, List.length_append, List.length_cons, List.length_map] at hn ⊢
      omega
    obtain ⟨n, rfl⟩ : ∃ m, n = m + t.indexes.length + 1 := ⟨n - t.indexes.length - 1, by omega⟩
    simp only [List.flatMap_cons, tblAllToks, List.append_assoc, List.cons_append] at hp ⊢
    have ih := parseLoop_tables db n (fun t h => hd t (List.mem_cons_of_mem _ h)) hp.of_append.tail.of_append (by omega)
    have hi := parseLoop_indexes ht.name hc t.indexes n (fun i h => (ht.index i h).1) hp.of_append.tail ih
    rw [parseLoop, if_pos (by rfl), parseCreate_table ht hp]
    simp only [bind_ok]
    rw [next_cons hp.of_append, bind_ok, hi]
    rfl

theorem length_seen {ic : Tbl → List Str} : ∀ db : Db, (seen ic db).length ≤ (db.flatMap (tblAllToks ic)).length
  | [] => by simp [seen]
  | t :: db => by
    have := length_seen (ic := ic) db
    have h2 : ∀ is : List Idx, is.length ≤ (is.flatMap fun i => idxToks t i (ic t) ++ [semi]).length := by
      intro is
      induction is with
      | nil => simp
      | cons i is ih => simp only [List.flatMap_cons, List.length_append, List.length_cons] at ih ⊢; omega
    have := h2 t.indexes
    simp only [seen, List.flatMap_cons, List.length_append, List.length_cons, List.length_map, tblAllToks] at *
    omega

theorem parseTokens_shown {ic : Tbl → List Str} {db : Db} (hd : ∀ t ∈ db, t.Plain ∧ ∀ c ∈ ic t, IsPlain c)
    (hp : NoPanic (db.flatMap (tblAllToks ic))) : parseTokens parseCreate (db.flatMap (tblAllToks ic)) = .ok (seen ic db) := by
  rw [parseTokens, hp.start, bind_ok]
  exact parseLoop_tables db _ hd hp (Nat.lt_succ_of_le (length_seen db))

end Ddl.Sp.Show
