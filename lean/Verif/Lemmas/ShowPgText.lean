import Verif.Lemmas.ShowPgParse
import Verif.Lemmas.ShowParse

/-! # PostgreSQL: the tokens of what `ShowCreateAllTables` prints -/

namespace Ddl.Pg.Show
open Spec
set_option autoImplicit false

theorem noPanic_writes {fin : Bool} {s : Str} {ts : List Token} (h : Writes .postgres fin s ts) : NoPanic ts := by
  have key : ∀ p ∈ keywords .postgres, p.2 ≠ .PANIC := by decide
  have sym : ∀ p ∈ symbols, p.2 ≠ .PANIC := by decide
  induction h with
  | nil => exact noPanic_nil
  | blank _ _ _ _ _ ih => exact ih
  | comment _ _ _ _ _ _ ih => exact ih
  | word w t s ts _ _ ht _ _ ih =>
    refine noPanic_cons ?_ ih
    rcases ht with h | ⟨rfl, _⟩
    · exact key _ h
    · simp
  | quoted _ _ _ _ _ _ _ _ _ ih => exact noPanic_cons (by simp) ih
  | concat _ _ _ _ ih => exact noPanic_cons (by simp) ih
  | pipe _ _ _ _ _ ih => exact noPanic_cons (by simp) ih
  | annotation _ _ _ _ ih => exact noPanic_cons (by simp) ih
  | typecast _ _ _ _ _ ih => exact noPanic_cons (by simp) ih
  | colon _ _ _ _ _ ih => exact noPanic_cons (by simp) ih
  | symbol c t s ts hc _ _ ih => exact noPanic_cons (sym _ hc) ih
  | nul _ _ _ ih => exact noPanic_cons (by simp) ih
  | illegal _ _ _ _ _ ih => exact noPanic_cons (by simp) ih

/-- The text is read as the tokens, if something follows that does not glue to it. -/
def LexTo (a : Str) (us : List Token) : Prop := ∀ (c : Char) (r : Str), Soft c → lex .postgres (a ++ c :: r) = us ++ lex .postgres (c :: r)

theorem lex_piece {a : Str} {w : List Token} (h0 : lex .postgres a = w) (h1 : ∀ t ∈ w, t.type ≠ .PANIC) (h2 : hasDashes a = false)
    (h3 : ∀ c ∈ a.getLast?, Soft c) (r : Str) : lex .postgres (a ++ r) = w ++ lex .postgres r := by
  rw [lex_lit (by rw [h0]; exact h1) h2 h3, h0]

/-! ## Names -/

theorem IsPlain.ident {s : Str} (h : IsPlain s) : rawIdent s = plain s := by
  refine newRawIdentQ_open ?_
  intro q hq
  simp only [quotationMarks, List.mem_singleton] at hq
  subst hq
  left
  intro e
  exact absurd (h.2.1 '"' (List.mem_of_mem_head? e)).1 (by decide)

theorem IsPlain.nameOk {s : Str} (h : IsPlain s) : NameOk (plain s) :=
  ⟨h.ident.symm, isName_lx (Or.inl ⟨h.1, fun c hc => (h.2.1 c hc).1, h.2.2⟩)⟩

theorem lexTo_name {s : Str} (h : IsPlain s) : LexTo s [nameTok (plain s)] := by
  intro c r hc
  exact lex_name h.nameOk (start_cons hc)

/-- The full name of a table, as it is printed. -/
def fullName (s : Str) : Str := s%"public." ++ s

theorem fullName_lx {s : Str} (h : IsPlain s) : L ⟨.IDENT, fullName s⟩ := by
  refine isName_lx (Or.inl ⟨by simp [fullName], ?_, ?_⟩)
  · intro c hc
    rcases List.mem_append.1 hc with hc | hc
    · exact (by decide : ∀ c ∈ s%"public.", WordChar c) c hc
    · exact (h.2.1 c hc).1
  · intro hk
    have : ∀ k ∈ (keywords .postgres).map Prod.fst, '.' ∉ k := by decide +kernel
    refine this _ hk ?_
    simp [fullName]

theorem newObjectName_full {s : Str} (h : IsPlain s) : newObjectName .postgres (fullName s) = qualified s := by
  have h1 : newRawIdent .postgres (fullName s) = plain (fullName s) := by
    refine newRawIdentQ_open ?_
    intro q hq
    simp only [quotationMarks, List.mem_singleton] at hq
    subst hq
    left
    simp [fullName]
  have h2 : splitC '.' (fullName s) = [s%"public", s] := by
    have hs : ∀ t : Str, '.' ∉ t → splitC '.' t = [t] := by
      intro t ht
      induction t with
      | nil => rfl
      | cons c t ih =>
        simp only [List.mem_cons, not_or] at ht
        rw [splitC, if_neg (Ne.symm ht.1), ih ht.2]
    have hd : '.' ∉ s := fun hd => (h.2.1 '.' hd).2.1 rfl
    have := hs s hd
    show splitC '.' (s%"public." ++ s) = _
    simp only [List.cons_append, List.nil_append]
    simp [splitC, this]
  rw [newObjectName, h1]
  simp only [plain, h2, List.nil_append, List.append_nil]
  have := h.ident
  simp only [rawIdent] at this
  rw [this]
  rfl

theorem columnsStr_plain (l : List Str) : columnsStr (l.map plain) = join s%", " l := by
  simp [columnsStr, List.map_map, Function.comp_def, Ident.str, plain]

/-! ## Columns -/

theorem typeWords {p : Str × TokType} (h : p ∈ typeNames) : ∃ ws, TypeShape (ws.map (·.type)) p.2 ∧ AllTok L ws ∧ p.1 = join s%" " (ws.map (·.lit)) := by
  have kw : ∀ (l : Str) (t : TokType), (l ≠ [] ∧ (∀ c ∈ l, WordChar c) ∧ (l.map Char.toUpper, t) ∈ keywords .postgres) → L ⟨t, l⟩ :=
    fun l t h => Or.inl ⟨h.1, h.2.1, Or.inl h.2.2⟩
  have all : ∀ ws : List Token, (∀ w ∈ ws, w.lit ≠ [] ∧ (∀ c ∈ w.lit, WordChar c) ∧ (w.lit.map Char.toUpper, w.type) ∈ keywords .postgres) → AllTok L ws :=
    fun ws h w hw => kw w.lit w.type (h w hw)
  simp only [typeNames, List.mem_cons, List.not_mem_nil, or_false] at h
  rcases h with rfl | rfl | rfl | rfl | rfl | rfl | rfl | rfl | rfl | rfl | rfl | rfl
  · exact ⟨[⟨.BOOLEAN, s%"boolean"⟩], .inr (.inr (.inr (.inr (.inr ⟨rfl, rfl, by decide⟩)))), all _ (by decide), rfl⟩
  · exact ⟨[⟨.SMALLINT, s%"smallint"⟩], .inr (.inr (.inr (.inr (.inr ⟨rfl, rfl, by decide⟩)))), all _ (by decide), rfl⟩
  · exact ⟨[⟨.INTEGER, s%"integer"⟩], .inr (.inr (.inr (.inr (.inr ⟨rfl, rfl, by decide⟩)))), all _ (by decide), rfl⟩
  · exact ⟨[⟨.BIGINT, s%"bigint"⟩], .inr (.inr (.inr (.inr (.inr ⟨rfl, rfl, by decide⟩)))), all _ (by decide), rfl⟩
  · exact ⟨[⟨.NUMERIC, s%"numeric"⟩], .inr (.inr (.inr (.inr (.inr ⟨rfl, rfl, by decide⟩)))), all _ (by decide), rfl⟩
  · exact ⟨[⟨.REAL, s%"real"⟩], .inr (.inr (.inr (.inr (.inr ⟨rfl, rfl, by decide⟩)))), all _ (by decide), rfl⟩
  · exact ⟨[⟨.DOUBLE, s%"double"⟩, ⟨.PRECISION, s%"precision"⟩], .inr (.inr (.inr (.inl ⟨rfl, rfl⟩))), all _ (by decide), rfl⟩
  · exact ⟨[⟨.UUID, s%"uuid"⟩], .inr (.inr (.inr (.inr (.inr ⟨rfl, rfl, by decide⟩)))), all _ (by decide), rfl⟩
  · exact ⟨[⟨.JSONB, s%"jsonb"⟩], .inr (.inr (.inr (.inr (.inr ⟨rfl, rfl, by decide⟩)))), all _ (by decide), rfl⟩
  · exact ⟨[⟨.CHARACTER, s%"character"⟩, ⟨.VARYING, s%"varying"⟩], .inr (.inr (.inr (.inr (.inl ⟨rfl, rfl⟩)))), all _ (by decide), rfl⟩
  · exact ⟨[⟨.TEXT, s%"text"⟩], .inr (.inr (.inr (.inr (.inr ⟨rfl, rfl, by decide⟩)))), all _ (by decide), rfl⟩
  · exact ⟨[⟨.TIMESTAMP, s%"timestamp"⟩, ⟨.WITH, s%"with"⟩, ⟨.TIME, s%"time"⟩, ⟨.ZONE, s%"zone"⟩], .inr (.inl ⟨rfl, rfl⟩), all _ (by decide), rfl⟩

/-- The row of a column. -/
def Col.row (t : Str) (c : Col) (k : Nat) : ColumnRow :=
  ⟨pub, t, c.name, c.type.1, c.size, if c.notNull then s%"NO" else s%"YES", c.default.map (·.text), k⟩

/-- The column without the precision. -/
def Col.shown (c : Col) : Column := { c with precision := none : Col }.column

theorem column_shown {c : Col} (hc : c.Plain) (t : Str) (k : Nat) : ∃ us, LexTo (columnDef (c.row t k)) us ∧ ReadsCol c.shown us := by
  obtain ⟨ws, h1, h2, h3⟩ := typeWords hc.type
  have hdt : DtOk ⟨c.type.1, c.type.2, (c.size.map plain).toList⟩ (ws ++ argToks ((c.size.map fun n => (⟨.IDENT, n⟩ : Token)).toList)) := by
    refine ⟨ws, (c.size.map fun n => (⟨.IDENT, n⟩ : Token)).toList, h1, h2, h3, ?_, ?_, ?_, rfl⟩
    · cases e : c.size with
      | none => rfl
      | some n => simp [(hc.size n (by simp [e])).ident]
    · cases e : c.size with
      | none => exact .nil
      | some n => exact .cons (hc.size n (by simp [e])).nameOk.2 .nil
    · cases e : c.size with
      | none => simp
      | some n => simp
  generalize hus : ws ++ argToks ((c.size.map fun n => (⟨.IDENT, n⟩ : Token)).toList) = us at hdt
  have husP : NoPanic us := by
    rw [← hus]
    refine noPanic_append (AllTok.noPanic h2) ?_
    unfold argToks
    split
    · exact noPanic_nil
    · refine noPanic_cons (by decide) (noPanic_append ?_ (noPanic_cons (by decide) noPanic_nil))
      cases c.size with
      | none => exact noPanic_nil
      | some n => exact noPanic_cons (by simp) noPanic_nil
  have htype : c.type.1 ++ (match c.size with | some n => s%"(" ++ n ++ s%")" | none => []) =
      (⟨c.type.1, c.type.2, (c.size.map plain).toList⟩ : DataType).str := by
    unfold DataType.str
    cases c.size with
    | none => simp
    | some n => simp [exprStr, exprStrFrom, Ident.str, plain]
  obtain ⟨w, ts, hv, htsP, hlex⟩ : ∃ w ts, ValueOk w ts ∧ NoPanic (valueToks ts) ∧ w = c.default.map (·.words) ∧
      LexTo (match c.default.map (·.text) with | some d => s%" DEFAULT " ++ d | none => []) (valueToks ts) := by
    cases e : c.default with
    | none => exact ⟨none, none, trivial, noPanic_nil, rfl, fun x r _ => rfl⟩
    | some d =>
      obtain ⟨h0, ts, hw, ho⟩ := hc.default d (by simp [e])
      refine ⟨some d.words, some ts, ho, noPanic_cons (by decide) (noPanic_writes hw), rfl, ?_⟩
      intro x r hx
      simp only [Option.map_some, List.append_assoc]
      rw [lex_piece (w := [defaultTok]) (by decide +kernel) (by decide) (by decide) (by decide), lex_append hw (noMerge_cons hx)]
      rfl
  obtain ⟨rfl, hlex⟩ := hlex
  have hnnlex : LexTo (if c.notNull then s%" NOT NULL" else []) (nnToks c.notNull) := by
    intro x r hx
    unfold nnToks
    cases c.notNull with
    | false => rfl
    | true =>
      simp only [if_true]
      rw [lex_lit_start (d := .postgres) (by decide) (by decide) (by decide) (start_cons hx)]
      rfl
  have hread := readsCol hc.name.nameOk hdt husP hv htsP c.notNull
  refine ⟨nameTok (plain c.name) :: (us ++ (nnToks c.notNull ++ valueToks ts)), ?_, ?_⟩
  rotate_left
  · have e : c.shown = ⟨plain c.name, ⟨c.type.1, c.type.2, (c.size.map plain).toList⟩, (c.default.map (·.words)).map fun x => ⟨some x⟩, c.notNull⟩ := by
      simp [Col.shown, Col.column, Option.map_map, Function.comp_def]
    rw [e]
    exact hread
  · intro x r hx
    have hdef : columnDef (c.row t k) = c.name ++ s%" " ++ c.type.1 ++ (match c.size with | some n => s%"(" ++ n ++ s%")" | none => []) ++
        (if c.notNull then s%" NOT NULL" else []) ++ (match c.default.map (·.text) with | some d => s%" DEFAULT " ++ d | none => []) := by
      unfold columnDef
      rcases c with ⟨cn, ct, cs, cp, cd, cnn⟩
      cases cnn <;> rfl
    rw [hdef]
    -- what follows the type starts with a soft character
    have soft1 : ∃ y q, Soft y ∧ (match c.default.map (·.text) with | some d => s%" DEFAULT " ++ d | none => []) ++ x :: r = y :: q := by
      cases c.default with
      | none => exact ⟨x, r, hx, rfl⟩
      | some d => exact ⟨' ', _, by decide, rfl⟩
    obtain ⟨y, q, hy, ey⟩ := soft1
    have soft2 : ∃ z p, Soft z ∧ (if c.notNull then s%" NOT NULL" else []) ++ y :: q = z :: p := by
      cases c.notNull with
      | false => exact ⟨y, q, hy, rfl⟩
      | true => exact ⟨' ', _, by decide, rfl⟩
    obtain ⟨z, p, hz, ez⟩ := soft2
    have e1 := hlex x r hx
    rw [ey] at e1
    have e2 := hnnlex y q hy
    rw [ez] at e2
    have e3 := lex_dataType hdt (start_cons (s := p) hz)
    rw [← htype] at e3
    have e4 : (c.name ++ s%" " ++ c.type.1 ++ (match c.size with | some n => s%"(" ++ n ++ s%")" | none => []) ++
        (if c.notNull then s%" NOT NULL" else []) ++ (match c.default.map (·.text) with | some d => s%" DEFAULT " ++ d | none => [])) ++ x :: r =
        c.name ++ ' ' :: ((c.type.1 ++ (match c.size with | some n => s%"(" ++ n ++ s%")" | none => [])) ++ z :: p) := by
      rw [← ez, ← ey]
      simp only [List.append_assoc, List.cons_append, List.nil_append]
    rw [e4, lexTo_name hc.name ' ' _ (by decide), lex_ws .postgres ' ' _ rfl, e3, e2, e1]
    simp only [List.append_assoc, List.cons_append, List.nil_append]

/-! ## Constraints -/

theorem lexTo_actions {r : RuleRow} (h : r.update ∈ ruleNames ∧ r.delete ∈ ruleNames) :
    ∃ us, LexTo (s%" ON UPDATE " ++ r.update ++ (s%" ON DELETE " ++ r.delete)) us ∧ NoPanic us ∧ ∀ R, curT (us ++ R) = .ON := by
  have key : ∀ u ∈ ruleNames, ∀ d ∈ ruleNames, (∀ t ∈ lex .postgres (s%" ON UPDATE " ++ u ++ (s%" ON DELETE " ++ d)), t.type ≠ .PANIC) ∧
      hasDashes (s%" ON UPDATE " ++ u ++ (s%" ON DELETE " ++ d)) = false ∧
      (s%" ON UPDATE " ++ u ++ (s%" ON DELETE " ++ d)).getLast? ≠ some '|' ∧
      (lex .postgres (s%" ON UPDATE " ++ u ++ (s%" ON DELETE " ++ d))).head? = some ⟨.ON, s%"ON"⟩ := by decide +kernel
  obtain ⟨h1, h2, h3, h4⟩ := key _ h.1 _ h.2
  refine ⟨_, fun c x hc => lex_lit_start h1 h2 h3 (start_cons hc), h1, ?_⟩
  intro R
  cases e : lex .postgres (s%" ON UPDATE " ++ r.update ++ (s%" ON DELETE " ++ r.delete)) with
  | nil => rw [e] at h4; simp at h4
  | cons t us => rw [e] at h4; simp at h4; rw [h4]; rfl

theorem Con.conOk {c : Con} (hk : c.IsKey) (hn : IsPlain c.name) (hc : ∀ x ∈ c.columns, IsPlain x) :
    ConOk c.constraint ∧ c.constraint.NoCheckNoAction ∧ (∀ n l r m a, c.constraint ≠ .foreignKey n l r m a) ∧
      IsName .postgres c.constraint.name.raw := by
  have hname : IsName .postgres c.name := Or.inl ⟨hn.1, fun x hx => (hn.2.1 x hx).1, hn.2.2⟩
  have hcols : ∀ i ∈ c.columns.map plain, NameOk i := by
    intro i hi
    obtain ⟨x, hx, rfl⟩ := List.mem_map.1 hi
    exact (hc x hx).nameOk
  cases c with
  | primaryKey n l => exact ⟨⟨hn.ident.symm, hcols⟩, trivial, (by intros; exact Constraint.noConfusion), hname⟩
  | unique n l => exact ⟨⟨hn.ident.symm, hcols⟩, trivial, (by intros; exact Constraint.noConfusion), hname⟩
  | foreignKey => exact hk.elim
  | check => exact hk.elim

/-- A constraint that is not shown properly. -/
def Con.Broken (c : Con) (r : Option RuleRow) : Prop := ¬ c.IsKey ∨ r ≠ none

theorem constraint_shown {c : Con} (ht : c.type ≠ s%"CHECK") (hn : IsPlain c.name) (hc : ∀ x ∈ c.columns, IsPlain x)
    {r : Option RuleRow} (hr : ∀ x ∈ r, x.update ∈ ruleNames ∧ x.delete ∈ ruleNames) (t : Str) :
    ∃ us, LexTo (constraintDef (c.row t) (join s%", " c.columns) r) us ∧ (c.Broken r → BadCon us) ∧ (¬ c.Broken r → ReadsCon c.constraint us) := by
  have hcols : ∀ i ∈ c.columns.map plain, NameOk i := by
    intro i hi
    obtain ⟨x, hx, rfl⟩ := List.mem_map.1 hi
    exact (hc x hx).nameOk
  obtain ⟨as, ha, haP, hgo⟩ : ∃ as, LexTo (match (generalizing := false) r with | some r => s%" ON UPDATE " ++ r.update ++ (s%" ON DELETE " ++ r.delete) | none => []) as ∧ NoPanic as ∧
      (r ≠ none → ∀ R, curT (as ++ R) = .ON) ∧ (r = none → as = []) := by
    cases r with
    | none => exact ⟨[], fun _ _ _ => rfl, noPanic_nil, by simp, fun _ => rfl⟩
    | some r =>
      obtain ⟨us, h1, h2, h3⟩ := lexTo_actions (hr r (by simp))
      exact ⟨us, h1, h2, fun _ => h3, by simp⟩
  obtain ⟨hon, hnone⟩ := hgo
  by_cases hk : c.IsKey
  · obtain ⟨h1, h2, h3, h4⟩ := Con.conOk hk hn hc
    refine ⟨conToks c.constraint ++ as, ?_, ?_, ?_⟩
    · intro x q hx
      have e : constraintDef (c.row t) (join s%", " c.columns) r ++ x :: q = c.constraint.str ++
          ((match (generalizing := false) r with | some r => s%" ON UPDATE " ++ r.update ++ (s%" ON DELETE " ++ r.delete) | none => []) ++ x :: q) := by
        unfold constraintDef
        cases c with
        | primaryKey n l => cases r <;> simp [Con.row, Con.name, Con.type, Con.constraint, Constraint.str, Con.columns, columnsStr_plain, Ident.str, plain]
        | unique n l => cases r <;> simp [Con.row, Con.name, Con.type, Con.constraint, Constraint.str, Con.columns, columnsStr_plain, Ident.str, plain]
        | foreignKey => exact hk.elim
        | check => exact hk.elim
      rw [e, lex_constraint h1 h2 h4, ha x q hx, List.append_assoc]
    · intro hb
      have hr0 : r ≠ none := hb.resolve_left (fun h => h hk)
      exact key_bad h1 h2 h3 haP (hon hr0)
    · intro hb
      simp only [Con.Broken, not_or, not_not] at hb
      rw [hnone hb.2, List.append_nil]
      exact readsCon h1 h2
  · refine ⟨foreignToks (plain c.name) (c.columns.map plain) as, ?_, ?_, fun h => absurd (.inl hk) h⟩
    · cases c with
      | primaryKey n l => exact absurd trivial hk
      | unique n l => exact absurd trivial hk
      | check => exact absurd rfl ht
      | foreignKey n l rf m u d =>
        intro x q hx
        have e : constraintDef ((Con.foreignKey n l rf m u d).row t) (join s%", " (Con.foreignKey n l rf m u d).columns) r ++ x :: q =
            s%"CONSTRAINT " ++ (n ++ ' ' :: (s%"FOREIGN KEY (" ++ (columnsStr (l.map plain) ++ ')' :: (
          ((match (generalizing := false) r with | some r => s%" ON UPDATE " ++ r.update ++ (s%" ON DELETE " ++ r.delete) | none => []) ++ x :: q))))) := by
          unfold constraintDef
          cases r <;> simp [Con.row, Con.name, Con.type, Con.columns, columnsStr_plain]
        have hn' : IsPlain n := hn
        have hcols' : ∀ i ∈ l.map plain, NameOk i := hcols
        rw [e, lex_piece (w := [constraintTok]) (by decide +kernel) (by decide) (by decide) (by decide), lexTo_name hn' ' ' _ (by decide), lex_ws .postgres ' ' _ rfl,
          lex_piece (w := [⟨.FOREIGN, s%"FOREIGN"⟩, ⟨.KEY, s%"KEY"⟩, openTok]) (by decide +kernel) (by decide) (by decide) (by decide),
          lex_columnsStr (start_cons (c := ')') (by decide)) _ hcols', lex_symbol .postgres ')' .CLOSE_PAREN _ (by decide) (by simp), ha x q hx]
        simp [foreignToks, Con.name, Con.columns, closeTok]
    · intro _
      refine foreign_bad hn.nameOk hcols haP ?_
      intro R hR
      by_cases h : r = none
      · rw [hnone h]
        simp only [List.mem_cons, List.not_mem_nil, or_false] at hR
        rcases hR with h | h <;> simp [h]
      · rw [hon h]; decide

/-! ## Statements -/

theorem lexTo_items : ∀ l : List (Str × List Token), (∀ p ∈ l, LexTo p.1 p.2) → l ≠ [] → LexTo (join between (l.map (·.1))) (sepToks (l.map (·.2)))
  | [], _, h => absurd rfl h
  | [p], h, _ => by
    intro c r hc
    simpa [join, sepToks, tailToks] using h p (by simp) c r hc
  | p :: q :: l, h, _ => by
    intro c r hc
    have ih := lexTo_items (q :: l) (fun x hx => h x (by simp [hx])) (by simp) c r hc
    have e : join between ((p :: q :: l).map (·.1)) ++ c :: r = p.1 ++ ',' :: (s%"\n  " ++ (join between ((q :: l).map (·.1)) ++ c :: r)) := by
      simp [join, between]
    rw [e, h p (by simp) ',' _ (by decide), lex_symbol .postgres ',' .COMMA _ (by decide) (by simp),
      lex_piece (w := []) (by decide +kernel) (by decide) (by decide) (by decide), List.nil_append, ih]
    simp [sepToks, tailToks, commaTok]

/-- The text of a table with these items. -/
def tableText (name : Str) (items : List Str) : Str :=
  s%"CREATE TABLE " ++ pub ++ s%"." ++ name ++ s%" (" ++ s%"\n" ++ s%"  " ++ join between items ++ s%"\n" ++ s%");" ++ s%"\n"

theorem lex_tableText {name : Str} (hn : IsPlain name) {l : List (Str × List Token)} (h : ∀ p ∈ l, LexTo p.1 p.2) (hl : l ≠ []) (r : Str) :
    lex .postgres (tableText name (l.map (·.1)) ++ r) = shownToks (fullName name) (l.map (·.2)) ++ lex .postgres r := by
  have e : tableText name (l.map (·.1)) ++ r = s%"CREATE TABLE " ++ (fullName name ++ ' ' :: (s%"(\n  " ++ (join between (l.map (·.1)) ++ '\n' :: (s%");\n" ++ r)))) := by
    simp [tableText, fullName, pub]
  rw [e, lex_piece (w := [createTok, ⟨.TABLE, s%"TABLE"⟩]) (by decide +kernel) (by decide) (by decide) (by decide),
    Pg.lex_tok (t := ⟨.IDENT, fullName name⟩) (fullName_lx hn) (start_cons (by decide)), lex_ws .postgres ' ' _ rfl,
    lex_piece (w := [openTok]) (by decide +kernel) (by decide) (by decide) (by decide),
    lexTo_items l h hl '\n' _ (by decide), lex_ws .postgres '\n' _ rfl,
    lex_piece (w := [closeTok, semiTok]) (by decide +kernel) (by decide) (by decide) (by decide)]
  simp [shownToks]

theorem idxOk {i : Idx} (h : IsPlain i.name ∧ IsPlain i.table ∧ IsPlain i.method ∧ ∀ c ∈ i.columns, IsPlain c) :
    IdxOk i.createIndex ∧ L ⟨.IDENT, i.method⟩ := by
  refine ⟨⟨rfl, h.1.nameOk, ⟨fullName i.table, fullName_lx h.2.1, (newObjectName_full h.2.1).symm⟩, Or.inr ⟨_, h.2.2.1.nameOk.2, rfl⟩, ?_⟩, h.2.2.1.nameOk.2⟩
  intro c hc
  obtain ⟨x, hx, rfl⟩ := List.mem_map.1 hc
  exact (h.2.2.2 x hx).nameOk

theorem index_shown {i : Idx} (h : IsPlain i.name ∧ IsPlain i.table ∧ IsPlain i.method ∧ ∀ c ∈ i.columns, IsPlain c) :
    ∃ us, ReadsStmt (i.row.definition ++ s%";\n") (.createIndex i.createIndex) us := by
  obtain ⟨h1, h2⟩ := idxOk h
  have hu : i.createIndex.using_ = [] ∨ (L ⟨.IDENT, i.method⟩ ∧ i.createIndex.using_ = [newIdent (⟨.IDENT, i.method⟩ : Token).lit [] (⟨.IDENT, i.method⟩ : Token).lit]) :=
    Or.inr ⟨h2, rfl⟩
  have e : i.row.definition ++ s%";\n" = i.createIndex.str := by
    obtain ⟨n, t, u, m, l⟩ := i
    cases u <;> simp [Idx.row, CreateIndex.str, Idx.createIndex, commentStr, Ident.str, plain, ObjectName.str, qualified, pub, Ident.diffStr, join,
      columnsStr_plain]
  refine ⟨idxToks i.createIndex ⟨.IDENT, i.method⟩, ?_, idxToks_noPanic (hu.imp_right (·.1)), fun r => rfl, by simp [idxToks]; omega, ?_⟩
  · rw [e]; exact lex_createIndex h1 hu
  · intro rest hp
    exact ⟨_, _, parseCreate_readsIndex h1 hu hp, noPanic_cons (by decide) hp, Or.inl rfl⟩

end Ddl.Pg.Show
