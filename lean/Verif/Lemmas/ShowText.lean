import Verif.Lemmas.ShowParse

/-! # Spanner: the tokens of what `ShowCreateAllTables` prints -/

namespace Ddl.Sp.Show
open Spec
set_option autoImplicit false

/-- The text starts with a character that glues to nothing. -/
def SoftStart (r : Str) : Prop := ∃ c s, r = c :: s ∧ Soft c

theorem SoftStart.start {r : Str} (h : SoftStart r) : Start r := by
  obtain ⟨c, s, rfl, hc⟩ := h
  exact start_cons hc

theorem softStart_cons {c : Char} {s : Str} (h : Soft c) : SoftStart (c :: s) := ⟨c, s, rfl, h⟩

theorem softStart_append {a b : Str} (ha : a = [] ∨ SoftStart a) (hb : SoftStart b) : SoftStart (a ++ b) := by
  rcases ha with rfl | ⟨c, s, rfl, h⟩
  · exact hb
  · exact ⟨c, s ++ b, rfl, h⟩

theorem lex_name {s r : Str} (h : IsPlain s) (hr : SoftStart r) : lex .spanner (s ++ r) = nm s :: lex .spanner r :=
  lex_lx (isName_lx h.isName) hr.start.apart

theorem lex_expr {e : Text} (h : e.Ok) {r : Str} (hr : SoftStart r) : lex .spanner (e.text ++ r) = e.tokens ++ lex .spanner r := by
  obtain ⟨c, s, rfl, hc⟩ := hr
  exact lex_append h.writes (noMerge_cons hc)

theorem lex_type {p : Str × TokType} (h : p ∈ typeNames) {r : Str} (hr : SoftStart r) :
    lex .spanner (p.1 ++ r) = ⟨p.2, p.1⟩ :: lex .spanner r := by
  have hx : Lx .spanner ⟨p.2, p.1⟩ := by
    revert h p
    simp only [typeNames, List.mem_cons, List.not_mem_nil, or_false]
    rintro p (rfl | rfl | rfl | rfl | rfl | rfl | rfl) <;>
      exact Or.inl ⟨by decide, by decide, Or.inl (by decide)⟩
  exact lex_lx (t := ⟨p.2, p.1⟩) hx hr.start.apart

/-- Fixed text that ends with a blank, a bracket or the like. -/
theorem lex_fixed {a : Str} {w : List Token} (h0 : lex .spanner a = w) (h1 : ∀ t ∈ w, t.type ≠ .PANIC) (h2 : hasDashes a = false)
    (h3 : ∀ c ∈ a.getLast?, Soft c) (r : Str) : lex .spanner (a ++ r) = w ++ lex .spanner r := by
  rw [lex_lit (by rw [h0]; exact h1) h2 h3, h0]

/-- Fixed text in front of a blank, a bracket or the like. -/
theorem lex_fixed_start {a : Str} {w : List Token} (h0 : lex .spanner a = w) (h1 : ∀ t ∈ w, t.type ≠ .PANIC) (h2 : hasDashes a = false)
    (h3 : a.getLast? ≠ some '|') {r : Str} (hr : SoftStart r) : lex .spanner (a ++ r) = w ++ lex .spanner r := by
  rw [lex_lit_start (by rw [h0]; exact h1) h2 h3 hr.start, h0]

/-- Closes the goals of a chain of lexing steps. -/
macro "lexed" : tactic => `(tactic| all_goals first
  | exact ⟨_, _, rfl, by decide⟩
  | with_reducible rfl
  | (simp only [List.append_assoc, List.cons_append, List.nil_append, List.append_nil]; done)
  | (simp only [List.append_assoc, List.cons_append, List.nil_append, List.append_nil]; with_reducible rfl))

theorem lex_close (r : Str) : lex .spanner (s%")" ++ r) = cls :: lex .spanner r :=
  lex_fixed (w := [cls]) (by decide +kernel) (by decide) (by decide) (by decide) r

theorem lex_blank {a : Str} (h0 : lex .spanner a = []) (h2 : hasDashes a = false) (h3 : ∀ c ∈ a.getLast?, Soft c) (r : Str) :
    lex .spanner (a ++ r) = lex .spanner r := lex_fixed (w := []) h0 (by simp) h2 h3 r

theorem soft_close : Soft ')' := by decide

/-- The text of names with commas. -/
theorem lex_names {r : Str} : ∀ l : List Str, (∀ c ∈ l, IsPlain c) → SoftStart r →
    lex .spanner (join s%", " l ++ r) = sepBy (l.map fun c => [nm c]) ++ lex .spanner r
  | [], _, _ => rfl
  | [a], h, hr => by
    simp only [join, List.map_cons, List.map_nil, sepBy]
    exact lex_name (h a (by simp)) hr
  | a :: b :: l, h, hr => by
    have ih := lex_names (b :: l) (fun c hc => h c (List.mem_cons_of_mem _ hc)) hr
    simp only [join, List.map_cons, sepBy, List.append_assoc] at ih ⊢
    rw [lex_name (h a (by simp)) ?_,
      lex_fixed (w := [com]) (by decide +kernel) (by decide) (by decide) (by decide), ih]
    lexed

/-! ## Columns -/

def dfltText (c : Col) : Str := match c.default with | some e => s%" DEFAULT (" ++ e.text ++ s%")" | none => []
def nnText (c : Col) : Str := if c.notNull then s%" NOT NULL" else []
def optsText (c : Col) : Str :=
  if c.options = [] then [] else s%" OPTIONS (" ++ join s%", " (c.options.map fun o => o.1 ++ s%" = " ++ o.2.text) ++ s%")"

def colText (c : Col) : Str := c.name ++ s%" " ++ c.typeText ++ dfltText c ++ nnText c ++ optsText c

theorem soft_dflt (c : Col) : dfltText c = [] ∨ SoftStart (dfltText c) := by
  unfold dfltText
  cases c.default with
  | none => exact Or.inl rfl
  | some e => exact Or.inr ⟨' ', _, rfl, by decide⟩

theorem soft_nn (c : Col) : nnText c = [] ∨ SoftStart (nnText c) := by
  unfold nnText
  split
  · exact Or.inr ⟨' ', _, rfl, by decide⟩
  · exact Or.inl rfl

theorem soft_opts (c : Col) : optsText c = [] ∨ SoftStart (optsText c) := by
  unfold optsText
  split
  · exact Or.inl rfl
  · exact Or.inr ⟨' ', _, rfl, by decide⟩

theorem lex_options {r : Str} : ∀ l : List (Str × Text), (∀ o ∈ l, IsPlain o.1 ∧ o.2.Ok) → SoftStart r →
    lex .spanner (join s%", " (l.map fun o => o.1 ++ s%" = " ++ o.2.text) ++ r) = sepBy (l.map optToks) ++ lex .spanner r
  | [], _, _ => rfl
  | [o], h, hr => by
    obtain ⟨h1, h2⟩ := h o (by simp)
    simp only [join, List.map_cons, List.map_nil, sepBy, List.append_assoc, optToks]
    rw [lex_name h1 ?_, lex_fixed (w := [eqs]) (by decide +kernel) (by decide) (by decide) (by decide),
      lex_expr h2 hr]
    lexed
  | o :: p :: l, h, hr => by
    obtain ⟨h1, h2⟩ := h o (by simp)
    have ih := lex_options (p :: l) (fun c hc => h c (List.mem_cons_of_mem _ hc)) hr
    simp only [join, List.map_cons, sepBy, List.append_assoc, optToks] at ih ⊢
    rw [lex_name h1 ?_, lex_fixed (w := [eqs]) (by decide +kernel) (by decide) (by decide) (by decide),
      lex_expr h2 ?_, lex_fixed (w := [com]) (by decide +kernel) (by decide) (by decide) (by decide), ih]
    lexed

theorem lex_col {c : Col} (hc : c.Plain) {r : Str} (hr : SoftStart r) : lex .spanner (colText c ++ r) = colToks c ++ lex .spanner r := by
  have hO : lex .spanner (optsText c ++ r) = optsToks c ++ lex .spanner r := by
    by_cases h : c.options = []
    · simp [optsText, optsToks, h]
    · simp only [optsText, optsToks, h, if_false]
      rw [List.append_assoc, List.append_assoc]
      rw [lex_fixed (w := [⟨.OPTIONS, s%"OPTIONS"⟩, opn]) (by decide +kernel) (by decide) (by decide) (by decide),
        lex_options c.options (fun o ho => ⟨hc.optionName o ho, (hc.option o ho).1⟩) ?_, lex_close]
      lexed
  have sO : SoftStart (optsText c ++ r) := softStart_append (soft_opts c) hr
  have hN : lex .spanner (nnText c ++ (optsText c ++ r)) = nnToks c ++ (optsToks c ++ lex .spanner r) := by
    cases h : c.notNull with
    | false => simp [nnText, nnToks, h, hO]
    | true =>
      simp only [nnText, nnToks, h, if_true]
      rw [lex_fixed_start (w := [⟨.NOT, s%"NOT"⟩, ⟨.NULL, s%"NULL"⟩]) (by decide +kernel) (by decide) (by decide) (by decide) sO, hO]
  have sN : SoftStart (nnText c ++ (optsText c ++ r)) := softStart_append (soft_nn c) sO
  have hD : lex .spanner (dfltText c ++ (nnText c ++ (optsText c ++ r))) = dfltToks c ++ (nnToks c ++ (optsToks c ++ lex .spanner r)) := by
    cases h : c.default with
    | none => simp [dfltText, dfltToks, h, hN]
    | some e =>
      simp only [dfltText, dfltToks, h, List.append_assoc]
      rw [lex_fixed (w := [⟨.DEFAULT, s%"DEFAULT"⟩, opn]) (by decide +kernel) (by decide) (by decide) (by decide),
        lex_expr (hc.default e (by simp [h])) ?_, lex_close, hN]
      lexed
  have sD : SoftStart (dfltText c ++ (nnText c ++ (optsText c ++ r))) := softStart_append (soft_dflt c) sN
  have hT : lex .spanner (c.typeText ++ (dfltText c ++ (nnText c ++ (optsText c ++ r)))) =
      ⟨c.type.2, c.type.1⟩ :: (sizeToks c ++ (dfltToks c ++ (nnToks c ++ (optsToks c ++ lex .spanner r)))) := by
    cases h : c.size with
    | none =>
      simp only [Col.typeText, h, List.append_nil, sizeToks, List.nil_append]
      rw [lex_type hc.type sD, hD]
    | some n =>
      simp only [Col.typeText, h, List.append_assoc, sizeToks]
      have l1 := lex_type hc.type (r := s%"(" ++ (n ++ (s%")" ++ (dfltText c ++ (nnText c ++ (optsText c ++ r))))))
        ⟨'(', _, rfl, by decide⟩
      have l2 := lex_fixed (a := s%"(") (w := [opn]) (by decide +kernel) (by decide) (by decide) (by decide)
        (n ++ (s%")" ++ (dfltText c ++ (nnText c ++ (optsText c ++ r)))))
      have l3 := lex_name (hc.size n (by simp [h])) (r := s%")" ++ (dfltText c ++ (nnText c ++ (optsText c ++ r))))
        ⟨')', _, rfl, by decide⟩
      rw [l3, lex_close, hD] at l2
      rw [l2] at l1
      exact l1
  rw [colToks_eq, colText]
  simp only [List.append_assoc]
  rw [lex_name hc.name ?_]
  have := lex_blank (a := s%" ") (by decide +kernel) (by decide) (by decide)
    (c.typeText ++ (dfltText c ++ (nnText c ++ (optsText c ++ r))))
  rw [hT] at this
  · rw [this]; lexed
  · lexed

/-! ## The printed text -/

theorem columnStr_eq {t : Tbl} (hn : (t.columns.map (·.name)).Nodup) {c : Col} (hc : c ∈ t.columns) (k : Nat) :
    columnStr ⟨t.name, c.name, c.default.map (·.text), if c.notNull then s%"NO" else s%"YES", c.typeText, k⟩ ++
      optionsStr t.optionRows ⟨t.name, c.name, c.default.map (·.text), if c.notNull then s%"NO" else s%"YES", c.typeText, k⟩ =
      colText c := by
  have h1 := columnOptions_eq (n := t.name) hn hc
  unfold optionsStr
  simp only [Tbl.optionRows, h1]
  unfold columnStr colText optsText dfltText nnText
  have h2 : (c.options.map fun o => (⟨t.name, c.name, o.1, o.2.text⟩ : OptionRow)) = [] ↔ c.options = [] := List.map_eq_nil_iff
  simp only [h2, List.map_map, Function.comp_def, optionStr]
  congr 1
  congr 1
  · congr 1
    cases c.default <;> rfl
  · cases c.notNull <;> simp

/-- The columns with their commas and line breaks. -/
def colsText : List Col → Str
  | [] => []
  | [c] => s%"    " ++ colText c ++ s%"\n"
  | c :: d :: r => s%"    " ++ colText c ++ s%",\n" ++ colsText (d :: r)

theorem columnLines_eq {t : Tbl} (hn : (t.columns.map (·.name)).Nodup) : ∀ (l : List Col) (k : Nat), (∀ c ∈ l, c ∈ t.columns) →
    columnLines t.optionRows ((l.zipIdx k).map fun p =>
      ⟨t.name, p.1.name, p.1.default.map (·.text), if p.1.notNull then s%"NO" else s%"YES", p.1.typeText, p.2⟩) = colsText l
  | [], _, _ => rfl
  | [c], k, h => by
    have := columnStr_eq hn (h c (by simp)) k
    simp only [List.zipIdx_cons, List.zipIdx_nil, List.map_cons, List.map_nil, columnLines, colsText, List.append_assoc]
    rw [← List.append_assoc (columnStr _), this]
  | c :: d :: l, k, h => by
    have ih := columnLines_eq hn (d :: l) (k + 1) fun c hc => h c (List.mem_cons_of_mem _ hc)
    have := columnStr_eq hn (h c (by simp)) k
    simp only [List.zipIdx_cons, List.map_cons, columnLines, colsText, List.append_assoc] at ih ⊢
    rw [ih, ← List.append_assoc (columnStr _), this]

theorem lex_cols {r : Str} : ∀ l : List Col, (∀ c ∈ l, c.Plain) →
    lex .spanner (colsText l ++ r) = sepBy (l.map colToks) ++ lex .spanner r
  | [], _ => rfl
  | [c], h => by
    simp only [colsText, List.append_assoc, List.map_cons, List.map_nil, sepBy]
    rw [lex_blank (by decide +kernel) (by decide) (by decide), lex_col (h c (by simp)) ?_,
      lex_blank (by decide +kernel) (by decide) (by decide)]
    lexed
  | c :: d :: l, h => by
    have ih := lex_cols (r := r) (d :: l) fun c hc => h c (List.mem_cons_of_mem _ hc)
    simp only [colsText, List.append_assoc, List.map_cons, sepBy] at ih ⊢
    rw [lex_blank (by decide +kernel) (by decide) (by decide), lex_col (h c (by simp)) ?_,
      lex_fixed (w := [com]) (by decide +kernel) (by decide) (by decide) (by decide), ih]
    lexed

/-- The text of a table. -/
def tblText (t : Tbl) : Str :=
  s%"CREATE TABLE " ++ t.name ++ s%" (\n" ++ colsText t.columns ++ s%")" ++ keyStr (t.key.map Prod.fst) ++
    policyStr (t.policy.map policyText).toList ++ s%";\n"

/-- The text of an index. -/
def idxText (t : Tbl) (i : Idx) (cols : List Str) : Str :=
  s%"CREATE " ++ (if i.unique then s%"UNIQUE " else []) ++ s%"INDEX " ++ i.name ++ s%" ON " ++ t.name ++ s%" (" ++ join s%", " cols ++
    s%");\n"

def idxsText (t : Tbl) (cols : List Str) : List Idx → Str
  | [] => []
  | i :: r => idxText t i cols ++ idxsText t cols r

def dbText (ic : Tbl → List Str) : Db → Str
  | [] => []
  | t :: r => tblText t ++ idxsText t (ic t) t.indexes ++ (if r = [] then [] else s%"\n") ++ dbText ic r

theorem lex_policy {p : Str × Str} (h : IsPlain p.1 ∧ IsPlain p.2) (r : Str) :
    lex .spanner (s%",\nROW DELETION POLICY (" ++ policyText p ++ s%")" ++ r) = policyToks (some p) ++ lex .spanner r := by
  unfold policyText policyToks
  simp only [List.append_assoc]
  rw [lex_fixed (w := [com, ⟨.ROW, s%"ROW"⟩, ⟨.DELETION, s%"DELETION"⟩, ⟨.POLICY, s%"POLICY"⟩, opn]) (by decide +kernel) (by decide)
    (by decide) (by decide),
    lex_fixed (w := [⟨.OLDER_THAN, s%"OLDER_THAN"⟩, opn]) (by decide +kernel) (by decide) (by decide) (by decide),
    lex_name h.1 ?_,
    lex_fixed (w := [com, ⟨.INTERVAL, s%"INTERVAL"⟩]) (by decide +kernel) (by decide) (by decide) (by decide),
    lex_name h.2 ?_,
    lex_fixed (w := [⟨.DAY, s%"DAY"⟩, cls]) (by decide +kernel) (by decide) (by decide) (by decide), lex_close]
  lexed

theorem lex_tbl {t : Tbl} (ht : t.Plain) (r : Str) : lex .spanner (tblText t ++ r) = tblToks t ++ semi :: lex .spanner r := by
  unfold tblText tblToks
  simp only [List.append_assoc]
  have hS : lex .spanner (s%";\n" ++ r) = semi :: lex .spanner r :=
    lex_fixed (w := [semi]) (by decide +kernel) (by decide) (by decide) (by decide) r
  have hP : lex .spanner (policyStr (t.policy.map policyText).toList ++ (s%";\n" ++ r)) =
      policyToks t.policy ++ semi :: lex .spanner r := by
    cases h : t.policy with
    | none => exact hS
    | some p =>
      have := lex_policy (ht.policy p (by simp [h])) (s%";\n" ++ r)
      rw [hS] at this
      rw [← this]
      simp [policyStr]
  have hK : lex .spanner (keyStr (t.key.map Prod.fst) ++ (policyStr (t.policy.map policyText).toList ++ (s%";\n" ++ r))) =
      keyToks t.key ++ (policyToks t.policy ++ semi :: lex .spanner r) := by
    have hk : t.key.map Prod.fst ≠ [] := by simpa using ht.key.1
    simp only [keyStr, hk, if_false, List.append_assoc]
    rw [lex_fixed (w := [⟨.PRIMARY, s%"PRIMARY"⟩, ⟨.KEY, s%"KEY"⟩, opn]) (by decide +kernel) (by decide) (by decide) (by decide),
      lex_names (t.key.map Prod.fst) (by
        intro c hc
        obtain ⟨k, hk, rfl⟩ := List.mem_map.1 hc
        exact ht.key.2 k hk) ?_, lex_close, hP]
    · simp [keyToks, List.map_map, Function.comp_def]
    · lexed
  rw [lex_fixed (w := [⟨.CREATE, s%"CREATE"⟩, ⟨.TABLE, s%"TABLE"⟩]) (by decide +kernel) (by decide) (by decide) (by decide),
    lex_name ht.name ?_,
    lex_fixed (w := [opn]) (by decide +kernel) (by decide) (by decide) (by decide), lex_cols t.columns ht.columns, lex_close, hK]
  lexed

theorem lex_idx {t : Tbl} (ht : IsPlain t.name) {i : Idx} (hi : IsPlain i.name) {cols : List Str} (hc : ∀ c ∈ cols, IsPlain c) (r : Str) :
    lex .spanner (idxText t i cols ++ r) = idxToks t i cols ++ semi :: lex .spanner r := by
  unfold idxText idxToks
  simp only [List.append_assoc]
  have hI : lex .spanner (s%"INDEX " ++ (i.name ++ (s%" ON " ++ (t.name ++ (s%" (" ++ (join s%", " cols ++ (s%");\n" ++ r))))))) =
      ⟨.INDEX, s%"INDEX"⟩ :: nm i.name :: ⟨.ON, s%"ON"⟩ :: nm t.name :: opn :: (sepBy (cols.map fun c => [nm c]) ++ cls :: semi ::
        lex .spanner r) := by
    rw [lex_fixed (w := [⟨.INDEX, s%"INDEX"⟩]) (by decide +kernel) (by decide) (by decide) (by decide),
      lex_name hi ?_, lex_fixed (w := [⟨.ON, s%"ON"⟩]) (by decide +kernel) (by decide) (by decide) (by decide),
      lex_name ht ?_, lex_fixed (w := [opn]) (by decide +kernel) (by decide) (by decide) (by decide),
      lex_names cols hc ?_, lex_fixed (w := [cls, semi]) (by decide +kernel) (by decide) (by decide) (by decide)]
    lexed
  rw [lex_fixed (w := [⟨.CREATE, s%"CREATE"⟩]) (by decide +kernel) (by decide) (by decide) (by decide)]
  cases i.unique with
  | false =>
    simp only [Bool.false_eq_true, if_false, List.nil_append, hI]
    lexed
  | true =>
    simp only [if_true]
    rw [lex_fixed (w := [⟨.UNIQUE, s%"UNIQUE"⟩]) (by decide +kernel) (by decide) (by decide) (by decide), hI]
    lexed

theorem lex_idxs {t : Tbl} (ht : IsPlain t.name) {cols : List Str} (hc : ∀ c ∈ cols, IsPlain c) (r : Str) : ∀ is : List Idx,
    (∀ i ∈ is, IsPlain i.name) →
    lex .spanner (idxsText t cols is ++ r) = is.flatMap (fun i => idxToks t i cols ++ [semi]) ++ lex .spanner r
  | [], _ => rfl
  | i :: is, h => by
    simp only [idxsText, List.append_assoc, List.flatMap_cons]
    rw [lex_idx ht (h i (by simp)) hc, lex_idxs ht hc r is fun i hi => h i (List.mem_cons_of_mem _ hi)]
    lexed

theorem lex_db {ic : Tbl → List Str} : ∀ db : Db, (∀ t ∈ db, t.Plain ∧ ∀ c ∈ ic t, IsPlain c) →
    lex .spanner (dbText ic db) = db.flatMap (tblAllToks ic)
  | [], _ => rfl
  | t :: db, h => by
    obtain ⟨ht, hc⟩ := h t (by simp)
    have ih := lex_db (ic := ic) db fun t ht => h t (List.mem_cons_of_mem _ ht)
    simp only [dbText, List.append_assoc, List.flatMap_cons, tblAllToks]
    rw [lex_tbl ht, lex_idxs ht.name hc _ t.indexes fun i hi => (ht.index i hi).1]
    have : lex .spanner ((if db = [] then [] else s%"\n") ++ dbText ic db) = db.flatMap (tblAllToks ic) := by
      split
      · exact ih
      · rw [lex_blank (by decide +kernel) (by decide) (by decide)]; exact ih
    rw [this]
    lexed

/-! ## No panics -/

theorem writes_noPanic {fin : Bool} {s : Str} {ts : List Token} (h : Writes .spanner fin s ts) : NoPanic ts := by
  have key : ∀ p ∈ keywords .spanner, p.2 ≠ .PANIC := by decide
  have sym : ∀ p ∈ symbols, p.2 ≠ .PANIC := by decide
  induction h with
  | nil => simp [NoPanic]
  | blank _ _ _ _ _ ih => exact ih
  | comment _ _ _ _ _ _ ih => exact ih
  | word w t s ts _ _ ht _ _ ih =>
    refine noPanic_cons_iff.2 ⟨?_, ih⟩
    rcases ht with h | ⟨rfl, _⟩
    · exact key _ h
    · simp
  | quoted _ _ _ _ _ _ _ _ _ ih => exact noPanic_cons_iff.2 ⟨by simp, ih⟩
  | concat _ _ _ _ ih => exact noPanic_cons_iff.2 ⟨by simp, ih⟩
  | pipe _ _ _ _ _ ih => exact noPanic_cons_iff.2 ⟨by simp, ih⟩
  | annotation _ _ _ _ ih => exact noPanic_cons_iff.2 ⟨by simp, ih⟩
  | typecast _ _ _ _ _ ih => exact noPanic_cons_iff.2 ⟨by simp, ih⟩
  | colon _ _ _ _ _ ih => exact noPanic_cons_iff.2 ⟨by simp, ih⟩
  | symbol c t s ts hc _ _ ih => exact noPanic_cons_iff.2 ⟨sym _ hc, ih⟩
  | nul _ _ _ ih => exact noPanic_cons_iff.2 ⟨by simp, ih⟩
  | illegal _ _ _ _ _ ih => exact noPanic_cons_iff.2 ⟨by simp, ih⟩

theorem noPanic_sepBy : ∀ l : List (List Token), (∀ x ∈ l, NoPanic x) → NoPanic (sepBy l)
  | [], _ => by simp [NoPanic, sepBy]
  | [a], h => h a (by simp)
  | a :: b :: r, h => by
    have ih := noPanic_sepBy (b :: r) fun x hx => h x (List.mem_cons_of_mem _ hx)
    exact noPanic_append_iff.2 ⟨h a (by simp), noPanic_cons_iff.2 ⟨by simp [com], ih⟩⟩

theorem noPanic_nil' : NoPanic [] := by simp [NoPanic]

theorem noPanic_col {c : Col} (hc : c.Plain) : NoPanic (colToks c) := by
  rw [colToks_eq]
  simp only [noPanic_cons_iff, noPanic_append_iff]
  refine ⟨by simp [nm], ?_, ?_, ?_, ?_, ?_⟩
  · have := hc.type
    revert this
    generalize c.type = x
    revert x
    decide
  · unfold sizeToks
    cases c.size with
    | none => exact noPanic_nil'
    | some n => simp [NoPanic, opn, nm, cls]
  · unfold dfltToks
    cases h : c.default with
    | none => exact noPanic_nil'
    | some e =>
      simp only [noPanic_cons_iff, noPanic_append_iff]
      exact ⟨by simp, by simp [opn], writes_noPanic (hc.default e (by simp [h])).writes, by simp [cls], noPanic_nil'⟩
  · unfold nnToks
    split
    · simp [NoPanic]
    · exact noPanic_nil'
  · unfold optsToks
    split
    · exact noPanic_nil'
    · simp only [noPanic_cons_iff, noPanic_append_iff]
      refine ⟨by simp, by simp [opn], noPanic_sepBy _ ?_, by simp [cls], noPanic_nil'⟩
      intro x hx
      obtain ⟨o, ho, rfl⟩ := List.mem_map.1 hx
      simp only [optToks, noPanic_cons_iff]
      exact ⟨by simp [nm], by simp [eqs], writes_noPanic (hc.option o ho).1.writes⟩

theorem noPanic_names (l : List Str) : NoPanic (sepBy (l.map fun c => [nm c])) := by
  refine noPanic_sepBy _ fun x hx => ?_
  obtain ⟨c, _, rfl⟩ := List.mem_map.1 hx
  simp [NoPanic, nm]

theorem noPanic_db {ic : Tbl → List Str} {db : Db} (h : ∀ t ∈ db, t.Plain) : NoPanic (db.flatMap (tblAllToks ic)) := by
  intro x hx
  obtain ⟨t, ht, hx⟩ := List.mem_flatMap.1 hx
  have hh : NoPanic (tblAllToks ic t) := ?_
  · exact hh x hx
  simp only [tblAllToks, tblToks, noPanic_cons_iff, noPanic_append_iff, List.cons_append]
  refine ⟨by simp, by simp, by simp [nm], by simp [opn], ⟨noPanic_sepBy _ ?_, by simp [cls], ?_, ?_⟩, by simp [semi], ?_⟩
  · intro x hx
    obtain ⟨c, hc, rfl⟩ := List.mem_map.1 hx
    exact noPanic_col ((h t ht).columns c hc)
  · have := noPanic_names (t.key.map Prod.fst)
    rw [List.map_map] at this
    simp only [keyToks, noPanic_cons_iff, noPanic_append_iff]
    exact ⟨by simp, by simp, by simp [opn], this, by simp [cls], noPanic_nil'⟩
  · cases t.policy with
    | none => exact noPanic_nil'
    | some p => simp [policyToks, NoPanic, com, opn, nm, cls]
  · intro x hx
    obtain ⟨i, _, hx⟩ := List.mem_flatMap.1 hx
    have hh : NoPanic (idxToks t i (ic t) ++ [semi]) := ?_
    · exact hh x hx
    simp only [idxToks, noPanic_cons_iff, noPanic_append_iff, List.cons_append]
    refine ⟨by simp, ⟨?_, by simp, by simp [nm], by simp, by simp [nm], by simp [opn], noPanic_names _, by simp [cls], noPanic_nil'⟩,
      by simp [semi], noPanic_nil'⟩
    split
    · simp [NoPanic]
    · exact noPanic_nil'

/-! ## The whole program -/

/-- The columns that `ShowCreateAllTables` shows for the indexes of a table. -/
def shownColumns (v : Views) (t : Tbl) : List Str := (selectIndexColumns v t.name).map (·.column)

theorem indexLines_eq {v : Views} {t : Tbl} (h : scanIndexColumns (selectIndexColumns v t.name) = .ok (shownColumns v t)) :
    ∀ is : List Idx, indexLines v t.name (is.map fun i => (i.name, i.unique)) = .ok (idxsText t (shownColumns v t) is)
  | [] => rfl
  | i :: is => by
    rw [List.map_cons, indexLines, indexLines_eq h is, indexStr, h]
    rfl

theorem tableLines_eq {v : Views} {db : Db} (hv : Holds v db) (hd : db.Plain) : ∀ l : Db, (∀ t ∈ l, t ∈ db) →
    tableLines v (l.map Tbl.tableRow) = .ok (dbText (shownColumns v) l)
  | [], _ => rfl
  | t :: l, h => by
    have ht := h t (by simp)
    have hp := hd.tables t ht
    have ih := tableLines_eq hv hd l fun t ht => h t (List.mem_cons_of_mem _ ht)
    have hi := indexLines_eq (v := v) (t := t) (scanIndexColumns_eq hv ht hp.stored fun i hi => (hp.index i hi).2.1) t.indexes
    have hc : columnLines t.optionRows t.columnRows = colsText t.columns := columnLines_eq hp.columnNames t.columns 1 fun _ h => h
    rw [List.map_cons, tableLines, ih]
    have hn : t.tableRow.table = t.name := rfl
    rw [hn]
    rw [selectIndexes_eq hv ht hp.indexNames, hi, tableStr, scanPrimaryKey hv ht, selectColumns_eq hv ht, selectOptions_eq hv ht,
      selectPolicy_eq hv hd.names ht, hc]
    simp only [bind_ok, List.map_eq_nil_iff]
    rfl

theorem showTables_eq {v : Views} {db : Db} (hv : Holds v db) (hd : db.Plain) :
    showTables v = .ok (dbText (shownColumns v) db) := by
  rw [showTables, selectTables, hv.tables]
  exact tableLines_eq hv hd db fun _ h => h

theorem shownColumns_plain {v : Views} {db : Db} (hv : Holds v db) (hd : db.Plain) {t : Tbl} (ht : t ∈ db) :
    ∀ c ∈ shownColumns v t, IsPlain c := by
  have hp := hd.tables t ht
  intro c hc
  obtain ⟨r, hr, rfl⟩ := List.mem_map.1 hc
  have := (selectIndexColumns_perm hv ht hp.stored fun i hi => (hp.index i hi).2.1).mem_iff.1 hr
  simp only [List.mem_flatMap, Tbl.partRows] at this
  obtain ⟨_, _, i, hi, h⟩ := this
  obtain ⟨p, hp', rfl⟩ := List.mem_map.1 h
  have := List.fst_mem_of_mem_zipIdx hp'
  exact (hp.index i hi).2.2 p.1 this

/-- What is read from the printed text. -/
theorem show_parse {v : Views} {db : Db} (hv : Holds v db) (hd : db.Plain) :
    (showTables v >>= parse) = .ok (seen (shownColumns v) db) := by
  have h : ∀ t ∈ db, t.Plain ∧ ∀ c ∈ shownColumns v t, IsPlain c := fun t ht => ⟨hd.tables t ht, shownColumns_plain hv hd ht⟩
  rw [showTables_eq hv hd, bind_ok, parse, lex_db db h]
  exact parseTokens_shown h (noPanic_db hd.tables)

end Ddl.Sp.Show
