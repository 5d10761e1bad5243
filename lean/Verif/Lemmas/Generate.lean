import Verif.Spec.Generate
import Verif.Lemmas.Gen
import Verif.Lemmas.Follow

/-! # A generated text has the tokens of the statements written by hand -/

namespace Ddl
open Spec Gen
set_option autoImplicit false

variable {d : Dialect} {f : Flavor}

theorem complete_handColumn (hq : nameQuote f ∈ quotes d) {c : Column} (hn : Quotable (nameQuote f) c.name)
    (ht : Complete d c.typeConstraint) : Writes d false (handColumn (nameQuote f) c) (columnToks d (nameQuote f) c) := by
  have := writes_name hq hn (writes_sp ht)
  simpa [handColumn, quoted, quote_eq, columnToks] using this

theorem writes_keyList (hq : nameQuote f ∈ quotes d) {l : List Str} (h : ∀ k ∈ l, Quotable (nameQuote f) k) :
    Writes d false (keyList (nameQuote f) l) (keyToks (nameQuote f) l) := by
  have := writes_key hq h (s := []) (ts := []) .nil
  simpa [keyList, keyColumns_eq] using this

/-- Texts joined by commas. -/
theorem writes_join {s : Str} {ts : List Token} (hs : ∀ c, s.head? = some c → Soft c) (h : Writes d false s ts) :
    ∀ {l : List Str} {m : List (List Token)}, List.Forall₂ (Writes d false) l m →
      Writes d false (join s%", " l ++ s) (commaSep m ++ ts)
  | _, _, .nil => by simpa [join, commaSep] using h
  | _, _, .cons h1 .nil => by
    simpa [join, commaSep_single] using h1.append h (noMerge_head hs)
  | _, _, .cons h1 (.cons h2 hr) => by
    have ih := writes_join hs h (.cons h2 hr)
    have := h1.append (writes_symbol (c := ',') (t := .COMMA) (by decide) (by decide) (writes_sp ih)) (noMerge_cons (by decide))
    simpa [join, commaSep_cons] using this

theorem forall_map {α : Type} {g : α → Str} {k : α → List Token} {l : List α} (h : ∀ x ∈ l, Writes d false (g x) (k x)) :
    List.Forall₂ (Writes d false) (l.map g) (l.map k) := by
  induction l with
  | nil => exact .nil
  | cons a r ih => exact .cons (h a (by simp)) (ih fun x hx => h x (by simp [hx]))

theorem forall_key (hq : nameQuote f ∈ quotes d) {l : List Str} (h : ∀ k ∈ l, Quotable (nameQuote f) k) :
    List.Forall₂ (Writes d false) (handKey (nameQuote f) l) (keyItems (nameQuote f) l) := by
  unfold handKey keyItems
  split
  · exact .nil
  · exact .cons (writes_keyList hq h) .nil

theorem forall_append {a b : List Str} {x y : List (List Token)} (h : List.Forall₂ (Writes d false) a x)
    (h' : List.Forall₂ (Writes d false) b y) : List.Forall₂ (Writes d false) (a ++ b) (x ++ y) := by
  induction h with
  | nil => exact h'
  | cons h1 _ ih => exact .cons h1 ih

/-- The tokens of a statement written by hand: those of the generated one without the semicolon. -/
theorem writes_hand (hq : nameQuote f ∈ quotes d) {s : Gen.Stmt} (hn : Named s) (ht : StmtOk d f s) :
    ∃ ts, Writes d false (handWritten f s) ts ∧ genToks d f s = ts ++ [sym ';' .SEMICOLON] := by
  cases s with
  | index i => exact ⟨_, ht.create, rfl⟩
  | table t =>
    have hn : t.createTable ≠ [] := hn
    have ht : TableOk d f t := ht
    have hcols := forall_map (d := d) (g := handColumn (nameQuote f)) fun c hc => complete_handColumn hq (ht.names c hc) (ht.types c hc)
    have hcons := forall_map (d := d) (g := fun c : Clause => c.text) (k := fun c => lex d c.text) fun c hc => ht.cons c hc
    have hopts := forall_map (d := d) (g := fun c : Clause => c.text) (k := fun c => lex d c.text) fun c hc => ht.opts c hc
    have hkey := forall_key hq ht.key
    have whole : ∀ {mi mb : List (List Token)}, List.Forall₂ (Writes d false) (handInside f t) mi →
        List.Forall₂ (Writes d false) (handBehind f t) mb → Writes d false (handWritten f (.table t))
          (lex d t.createTable ++ [sym '(' .OPEN_PAREN] ++ commaSep mi ++ [sym ')' .CLOSE_PAREN] ++ commaSep mb) := by
      intro mi mb h1 h2
      have hb := writes_join (s := []) (by simp) .nil h2
      have hc := writes_symbol (c := ')') (t := .CLOSE_PAREN) (by decide) (by decide) (writes_sp hb)
      have hi := writes_join (s := _) (by intro c hc; cases hc; decide) hc h1
      have := writes_complete ht.create (by intro c hc; cases hc; decide)
        (writes_sp (writes_symbol (c := '(') (t := .OPEN_PAREN) (by decide) (by decide) hi))
      simpa [handWritten] using this
    cases f with
    | spanner =>
      refine ⟨_, whole (forall_append (forall_append hcols .nil) hcons) (forall_append (by simpa using hkey) hopts), ?_⟩
      simp [genToks, tableToks, hn]
    | _ =>
      refine ⟨_, whole (forall_append (forall_append hcols (by simpa using hkey)) hcons) (forall_append .nil hopts), ?_⟩
      simp [genToks, tableToks, hn]

theorem writes_handFile (hq : nameQuote f ∈ quotes d) {l : List Gen.Stmt} (hn : ∀ s ∈ l, Named s) (ht : ∀ s ∈ l, StmtOk d f s) :
    Writes d false (handFile f l) (l.map (genToks d f)).flatten := by
  induction l with
  | nil => exact .nil
  | cons s r ih =>
    obtain ⟨ts, hw, he⟩ := writes_hand hq (hn s (by simp)) (ht s (by simp))
    have ih := ih (fun x hx => hn x (by simp [hx])) (fun x hx => ht x (by simp [hx]))
    have := hw.append (writes_symbol (c := ';') (t := .SEMICOLON) (by decide) (by decide) ih) (noMerge_cons (by decide))
    simpa [handFile, he] using this

/-- The generated text has the tokens of the statements written by hand. -/
theorem lex_generated {short : Str → Str} (hsh : ∀ x, OneLine (short x)) (hq : nameQuote f ∈ quotes d) {g : DDL}
    (hi : ∀ c ∈ g.indent, Blank c) (hh : ∀ c ∈ g.header, OneLine c) (hn : ∀ s ∈ g.stmts, Named s) (hs : ∀ s ∈ g.stmts, StmtOk d f s) :
    lex d (fprint short f g) = lex d (handFile f g.stmts) := by
  rw [lex_of_writes (writes_handFile hq hn hs)]
  exact lex_of_writes (writes_before (blankRun_comments (by simp) hh) (writes_stmts hsh hi hq hs))

end Ddl
