import Verif.Lemmas.PgTable

/-! # PostgreSQL: schemas printed alike are alike

The tokens of a printed schema determine the schema, also where the parser does not accept them. -/

namespace Ddl
open Spec
set_option autoImplicit false

namespace Pg

/-! ## Constraints -/

def checkTok : Token := ⟨.CHECK, s%"CHECK"⟩

/-- The constraint, of whatever kind, is printed with the tokens `us`. -/
def ConTok (c : Constraint) (us : List Token) : Prop :=
  NameOk c.name ∧
  match c with
  | .primaryKey n cs => (∀ i ∈ cs, NameOk i) ∧ us = conToks (.primaryKey n cs)
  | .unique n cs => (∀ i ∈ cs, NameOk i) ∧ us = conToks (.unique n cs)
  | .foreignKey n cs r rcs act => (∀ i ∈ cs, NameOk i) ∧ NameOk r ∧ (∀ i ∈ rcs, NameOk i) ∧
      ∃ ws : List Token, AllTok L ws ∧ (∀ w ∈ ws, w.type ∉ [.COMMA, .CLOSE_PAREN]) ∧ act = join s%" " (ws.map (·.lit)) ∧
        us = conToks (.foreignKey n cs r rcs act) ++ ws
  | .check n e => ∃ g, Grp g ∧ e = rawIdent s%"(" :: ids g ∧ us = constraintTok :: nameTok n :: checkTok :: openTok :: toks g

theorem conTok_exists {c : Constraint} (h : ConOk c) (hn : IsName .postgres c.name.raw) : ∃ us, ConTok c us := by
  have h0 : NameOk c.name := ⟨h.1, isName_lx hn⟩
  obtain ⟨_, h⟩ := h
  cases c with
  | primaryKey n cs => exact ⟨_, h0, h, rfl⟩
  | unique n cs => exact ⟨_, h0, h, rfl⟩
  | foreignKey n cs r rcs act =>
    obtain ⟨h1, h2, h3, ws, h4, h5, h6⟩ := h
    exact ⟨_, h0, h1, h2, h3, ws, h4, h5, h6, rfl⟩
  | check n e =>
    obtain ⟨g, h1, h2⟩ := h
    exact ⟨_, h0, g, h1, h2, rfl⟩

theorem join_lits_ne {ws : List Token} (h : AllTok L ws) (h0 : ws ≠ []) : join s%" " (ws.map (·.lit)) ≠ [] := by
  cases ws with
  | nil => contradiction
  | cons w ws =>
    have := (h w (by simp)).ne_nil
    cases ws with
    | nil => simpa [join] using this
    | cons x ws => simp [join, this]

theorem lex_con {c : Constraint} {us : List Token} (h : ConTok c us) {s : Str} (hs : Start s) :
    lex .postgres (c.str ++ s) = us ++ lex .postgres s := by
  obtain ⟨hn, h⟩ := h
  have hname : ∀ {n : Ident}, NameOk n → ∀ r, Start r → lex .postgres (n.raw ++ r) = nameTok n :: lex .postgres r :=
    fun hn r hr => lex_name hn hr
  have sp : ∀ r, Start (s%" " ++ r) := fun r => start_cons (by decide)
  have hclose : ∀ r, lex .postgres (s%")" ++ r) = closeTok :: lex .postgres r :=
    fun r => lex_symbol .postgres ')' .CLOSE_PAREN r (by decide) (by simp)
  have hopen : ∀ r, lex .postgres (s%" (" ++ r) = openTok :: lex .postgres r := by
    intro r
    rw [List.cons_append, lex_ws .postgres ' ' _ rfl]
    exact lex_symbol .postgres '(' .OPEN_PAREN r (by decide) (by simp)
  have hblank : ∀ r, lex .postgres (s%" " ++ r) = lex .postgres r := fun r => lex_ws .postgres ' ' r rfl
  have cl : ∀ r, Start (s%")" ++ r) := fun r => start_cons (by decide)
  have op : ∀ r, Start (s%" (" ++ r) := fun r => start_cons (by decide)
  cases c with
  | primaryKey n cs =>
    obtain ⟨hcs, rfl⟩ := h
    have hn : NameOk n := hn
    simp only [Constraint.str, Ident.str, List.append_assoc, conToks, conBody]
    rw [lex_lit (d := .postgres) (by decide) (by decide) (by decide), lex_name hn (sp _), hblank,
      lex_lit_start (d := .postgres) (by decide) (by decide) (by decide) (op _), hopen,
      lex_columnsStr (cl _) cs hcs, hclose]
    simp only [List.cons_append, List.append_assoc, List.nil_append]
    rfl
  | unique n cs =>
    obtain ⟨hcs, rfl⟩ := h
    have hn : NameOk n := hn
    simp only [Constraint.str, Ident.str, List.append_assoc, conToks, conBody]
    rw [lex_lit (d := .postgres) (by decide) (by decide) (by decide), lex_name hn (sp _), hblank,
      lex_lit (d := .postgres) (by decide) (by decide) (by decide),
      lex_lit (d := .postgres) (by decide) (by decide) (by decide),
      lex_columnsStr (cl _) cs hcs, hclose]
    simp only [List.cons_append, List.append_assoc, List.nil_append]
    rfl
  | foreignKey n cs r rcs act =>
    obtain ⟨hcs, hr, hrcs, ws, hw, hw2, rfl, rfl⟩ := h
    have hn : NameOk n := hn
    have rf : ∀ r, Start (s%" REFERENCES " ++ r) := fun r => start_cons (by decide)
    have hact : lex .postgres ((if join s%" " (ws.map (·.lit)) = [] then [] else s%" " ++ join s%" " (ws.map (·.lit))) ++ s) =
        ws ++ lex .postgres s := by
      by_cases h0 : ws = []
      · subst h0; rfl
      · rw [if_neg (join_lits_ne hw h0), List.append_assoc, hblank, lex_join_words hs ws hw]
    simp only [Constraint.str, Ident.str, List.append_assoc, conToks, conBody]
    rw [lex_lit (d := .postgres) (by decide) (by decide) (by decide), lex_name hn (sp _), hblank,
      lex_lit_start (d := .postgres) (by decide) (by decide) (by decide) (op _), hopen,
      lex_columnsStr (cl _) cs hcs, hclose, lex_lit (d := .postgres) (by decide) (by decide) (by decide),
      lex_name hr (op _), hopen, lex_columnsStr (cl _) rcs hrcs, hclose, hact]
    simp only [List.cons_append, List.append_assoc, List.nil_append]
    rfl
  | check n e =>
    obtain ⟨g, hg, rfl, rfl⟩ := h
    have hn : NameOk n := hn
    have hw : ∀ w ∈ ((rawIdent s%"(", [openTok]) : Word) :: g, WordOk w := by
      intro w hw
      rcases List.mem_cons.1 hw with rfl | hw
      · exact openWord_ok
      · exact hg.ok w hw
    have he := lex_exprStr hs _ hw
    simp only [Constraint.str, Ident.str, List.append_assoc]
    rw [lex_lit (d := .postgres) (by decide) (by decide) (by decide), lex_name hn (sp _), hblank,
      lex_lit (d := .postgres) (by decide) (by decide) (by decide)]
    have e2 : rawIdent s%"(" :: ids g = ids (((rawIdent s%"(", [openTok]) : Word) :: g) := rfl
    rw [e2, he]
    simp only [toks_cons, List.cons_append, List.nil_append]
    rfl

theorem conTok_noPanic {c : Constraint} {us : List Token} (h : ConTok c us) : NoPanic us := by
  obtain ⟨_, h⟩ := h
  cases c with
  | primaryKey n cs => rw [h.2]; exact conToks_noPanic _
  | unique n cs => rw [h.2]; exact conToks_noPanic _
  | foreignKey n cs r rcs act =>
    obtain ⟨_, _, _, ws, hw, _, _, rfl⟩ := h
    exact noPanic_append (conToks_noPanic _) (AllTok.noPanic hw)
  | check n e =>
    obtain ⟨g, hg, _, rfl⟩ := h
    exact noPanic_cons (by decide) (noPanic_cons (by simp) (noPanic_cons (by decide) (noPanic_cons (by decide) hg.noPanic)))

theorem cols_unique {l l' : List Ident} (h : ∀ i ∈ l, NameOk i) (h' : ∀ i ∈ l', NameOk i) {r r' : List Token} (hp : NoPanic r)
    (e : colToks l ++ closeTok :: r = colToks l' ++ closeTok :: r') : l = l' ∧ r = r' := by
  have hp1 : NoPanic (openTok :: (colToks l ++ closeTok :: r)) :=
    noPanic_cons (by decide) (noPanic_append (colToks_noPanic l) (noPanic_cons (by decide) hp))
  have h1 := parseColumnIdents_reads h hp1
  have hp2 := hp1
  rw [e] at hp2
  have h2 := parseColumnIdents_reads h' hp2
  rw [e, h2] at h1
  simp only [Res.ok.injEq, Prod.mk.injEq] at h1
  exact ⟨h1.1.symm, h1.2.symm⟩

theorem words_unique : ∀ {ws ws' r r' : List Token}, (∀ w ∈ ws, w.type ∉ [.COMMA, .CLOSE_PAREN]) →
    (∀ w ∈ ws', w.type ∉ [.COMMA, .CLOSE_PAREN]) → curT r ∈ [.COMMA, .CLOSE_PAREN] → curT r' ∈ [.COMMA, .CLOSE_PAREN] →
    ws ++ r = ws' ++ r' → ws = ws' ∧ r = r'
  | [], [], _, _, _, _, _, _, e => ⟨rfl, e⟩
  | [], w :: ws', r, r', _, h', hr, _, e => by
    simp only [List.nil_append, List.cons_append] at e
    subst e
    exact absurd hr (by simpa using h' w (by simp))
  | w :: ws, [], r, r', h, _, _, hr', e => by
    simp only [List.nil_append, List.cons_append] at e
    subst e
    exact absurd hr' (by simpa using h w (by simp))
  | w :: ws, w' :: ws', r, r', h, h', hr, hr', e => by
    simp only [List.cons_append, List.cons.injEq] at e
    obtain ⟨rfl, e⟩ := e
    obtain ⟨rfl, e'⟩ := words_unique (fun x hx => h x (by simp [hx])) (fun x hx => h' x (by simp [hx])) hr hr' e
    exact ⟨rfl, e'⟩

theorem nameTok_inj {i j : Ident} (hi : NameOk i) (hj : NameOk j) (h : nameTok i = nameTok j) : i = j := by
  have : i.raw = j.raw := congrArg Token.lit h
  rw [hi.1, hj.1, this]

theorem con_unique {c c' : Constraint} {us us' r r' : List Token} (h : ConTok c us) (h' : ConTok c' us')
    (hr : curT r ∈ [.COMMA, .CLOSE_PAREN]) (hr' : curT r' ∈ [.COMMA, .CLOSE_PAREN]) (hp : NoPanic r)
    (e : us ++ r = us' ++ r') : c = c' ∧ r = r' := by
  obtain ⟨hn, h⟩ := h
  obtain ⟨hn', h'⟩ := h'
  cases c with
  | primaryKey n cs =>
    cases c' with
    | primaryKey n' cs' =>
      obtain ⟨hc, rfl⟩ := h
      obtain ⟨hc', rfl⟩ := h'
      simp only [conToks, conBody, List.cons_append, List.append_assoc, List.nil_append, List.cons.injEq, true_and] at e
      obtain ⟨e1, e2⟩ := e
      obtain rfl := nameTok_inj hn hn' e1
      obtain ⟨rfl, rfl⟩ := cols_unique hc hc' hp e2
      exact ⟨rfl, rfl⟩
    | unique n' cs' =>
      obtain ⟨_, rfl⟩ := h
      obtain ⟨_, rfl⟩ := h'
      simp [conToks, conBody] at e
    | foreignKey n' cs' x xs act =>
      obtain ⟨_, rfl⟩ := h
      obtain ⟨_, _, _, ws, _, _, _, rfl⟩ := h'
      simp [conToks, conBody] at e
    | check n' e' =>
      obtain ⟨_, rfl⟩ := h
      obtain ⟨g, _, _, rfl⟩ := h'
      simp [conToks, conBody, checkTok] at e
  | unique n cs =>
    cases c' with
    | unique n' cs' =>
      obtain ⟨hc, rfl⟩ := h
      obtain ⟨hc', rfl⟩ := h'
      simp only [conToks, conBody, List.cons_append, List.append_assoc, List.nil_append, List.cons.injEq, true_and] at e
      obtain ⟨e1, e2⟩ := e
      obtain rfl := nameTok_inj hn hn' e1
      obtain ⟨rfl, rfl⟩ := cols_unique hc hc' hp e2
      exact ⟨rfl, rfl⟩
    | primaryKey n' cs' =>
      obtain ⟨_, rfl⟩ := h
      obtain ⟨_, rfl⟩ := h'
      simp [conToks, conBody] at e
    | foreignKey n' cs' x xs act =>
      obtain ⟨_, rfl⟩ := h
      obtain ⟨_, _, _, ws, _, _, _, rfl⟩ := h'
      simp [conToks, conBody] at e
    | check n' e' =>
      obtain ⟨_, rfl⟩ := h
      obtain ⟨g, _, _, rfl⟩ := h'
      simp [conToks, conBody, checkTok] at e
  | foreignKey n cs x xs act =>
    obtain ⟨hc, hx, hxs, ws, hw, hw2, ea, rfl⟩ := h
    cases c' with
    | foreignKey n' cs' x' xs' act' =>
      obtain ⟨hc', hx', hxs', ws', hw', hw2', ea', rfl⟩ := h'
      simp only [conToks, conBody, List.cons_append, List.append_assoc, List.nil_append, List.cons.injEq, true_and] at e
      obtain ⟨e1, e2⟩ := e
      obtain rfl := nameTok_inj hn hn' e1
      have hp2 : NoPanic (ws ++ r) := noPanic_append (AllTok.noPanic hw) hp
      have hp1 : NoPanic (⟨.REFERENCES, s%"REFERENCES"⟩ :: nameTok x :: openTok :: (colToks xs ++ closeTok :: (ws ++ r))) :=
        noPanic_cons (by decide) (noPanic_cons (by simp) (noPanic_cons (by decide) (noPanic_append (colToks_noPanic xs)
          (noPanic_cons (by decide) hp2))))
      obtain ⟨rfl, e3⟩ := cols_unique hc hc' hp1 e2
      simp only [List.cons.injEq, true_and] at e3
      obtain ⟨e4, e5⟩ := e3
      obtain rfl := nameTok_inj hx hx' e4
      obtain ⟨rfl, e6⟩ := cols_unique hxs hxs' hp2 e5
      obtain ⟨rfl, rfl⟩ := words_unique hw2 hw2' hr hr' e6
      subst ea ea'
      exact ⟨rfl, rfl⟩
    | primaryKey n' cs' =>
      obtain ⟨_, rfl⟩ := h'
      simp [conToks, conBody] at e
    | unique n' cs' =>
      obtain ⟨_, rfl⟩ := h'
      simp [conToks, conBody] at e
    | check n' e' =>
      obtain ⟨g, _, _, rfl⟩ := h'
      simp [conToks, conBody, checkTok] at e
  | check n ex =>
    obtain ⟨g, hg, rfl, rfl⟩ := h
    cases c' with
    | check n' ex' =>
      obtain ⟨g', hg', rfl, rfl⟩ := h'
      simp only [List.cons_append, List.cons.injEq, true_and] at e
      obtain ⟨e1, e2⟩ := e
      obtain rfl := nameTok_inj hn hn' e1
      have hp1 : NoPanic (openTok :: (toks g ++ r)) := noPanic_cons (by decide) (noPanic_append hg.noPanic hp)
      have h1 := parseExpr_reads hg hp1
      rw [e2] at hp1
      have h2 := parseExpr_reads hg' hp1
      rw [e2, h2] at h1
      simp only [Res.ok.injEq, Prod.mk.injEq] at h1
      exact ⟨by rw [h1.1]; rfl, h1.2.symm⟩
    | primaryKey n' cs' =>
      obtain ⟨_, rfl⟩ := h'
      simp [conToks, conBody, checkTok] at e
    | unique n' cs' =>
      obtain ⟨_, rfl⟩ := h'
      simp [conToks, conBody, checkTok] at e
    | foreignKey n' cs' x xs act =>
      obtain ⟨_, _, _, ws, _, _, _, rfl⟩ := h'
      simp [conToks, conBody, checkTok] at e

/-! ## Tables -/

/-- A column or a constraint with its tokens. -/
def ItemTok : Column ⊕ Constraint → List Token → Prop
  | .inl c => ColOk c
  | .inr c => ConTok c

theorem ItemTok.noPanic {x : Column ⊕ Constraint} {us : List Token} (h : ItemTok x us) : NoPanic us := by
  cases x with
  | inl c => exact ColOk.noPanic h
  | inr c => exact conTok_noPanic h

theorem ItemTok.head {x : Column ⊕ Constraint} {us : List Token} (h : ItemTok x us) :
    ∃ t r, us = t :: r ∧ ((∃ c, x = .inl c ∧ t.type = .IDENT) ∨ ∃ c, x = .inr c ∧ t.type = .CONSTRAINT) := by
  cases x with
  | inl c =>
    obtain ⟨_, us', g, _, _, rfl⟩ := h
    exact ⟨_, _, rfl, Or.inl ⟨c, rfl, rfl⟩⟩
  | inr c =>
    obtain ⟨_, h⟩ := h
    cases c with
    | primaryKey n cs => obtain ⟨_, rfl⟩ := h; exact ⟨_, _, rfl, Or.inr ⟨_, rfl, rfl⟩⟩
    | unique n cs => obtain ⟨_, rfl⟩ := h; exact ⟨_, _, rfl, Or.inr ⟨_, rfl, rfl⟩⟩
    | foreignKey n cs r rcs act =>
      obtain ⟨_, _, _, ws, _, _, _, rfl⟩ := h; exact ⟨_, _, rfl, Or.inr ⟨_, rfl, rfl⟩⟩
    | check n e => obtain ⟨_, _, _, rfl⟩ := h; exact ⟨_, _, rfl, Or.inr ⟨_, rfl, rfl⟩⟩

theorem item_unique {x x' : Column ⊕ Constraint} {us us' r r' : List Token} (h : ItemTok x us) (h' : ItemTok x' us')
    (hr : curT r ∈ [.COMMA, .CLOSE_PAREN]) (hr' : curT r' ∈ [.COMMA, .CLOSE_PAREN]) (hp : NoPanic r)
    (e : us ++ r = us' ++ r') : x = x' ∧ r = r' := by
  have hd : ∀ {t t' : Token} {v v' : List Token}, us = t :: v → us' = t' :: v' → t.type = t'.type := by
    rintro t t' v v' rfl rfl
    simp only [List.cons_append, List.cons.injEq] at e
    rw [e.1]
  obtain ⟨t, v, ht, h1⟩ := h.head
  obtain ⟨t', v', ht', h1'⟩ := h'.head
  have htt := hd ht ht'
  rcases h1 with ⟨c, rfl, k⟩ | ⟨c, rfl, k⟩ <;> rcases h1' with ⟨c', rfl, k'⟩ | ⟨c', rfl, k'⟩ <;> rw [k, k'] at htt
  · have hp1 : NoPanic (us ++ r) := noPanic_append h.noPanic hp
    have h1 := parseColumn_reads (tbl := rawIdent []) h hr hp1
    rw [e] at hp1
    have h2 := parseColumn_reads (tbl := rawIdent []) h' hr' hp1
    rw [e, h2] at h1
    simp only [Res.ok.injEq, Prod.mk.injEq, true_and] at h1
    exact ⟨by rw [h1.1], h1.2.symm⟩
  · cases htt
  · cases htt
  · obtain ⟨rfl, e⟩ := con_unique h h' hr hr' hp e
    exact ⟨rfl, e⟩

/-- Items with their tokens. -/
inductive ItemsTok : List (Column ⊕ Constraint) → List (List Token) → Prop
  | nil : ItemsTok [] []
  | cons {x us xs uss} : ItemTok x us → ItemsTok xs uss → ItemsTok (x :: xs) (us :: uss)

theorem ItemsTok.noPanic {xs : List (Column ⊕ Constraint)} {uss : List (List Token)} (h : ItemsTok xs uss) :
    ∀ us ∈ uss, NoPanic us := by
  induction h with
  | nil => simp
  | cons h _ ih =>
    intro us hu
    rcases List.mem_cons.1 hu with rfl | hu
    · exact h.noPanic
    · exact ih us hu

theorem tail_unique : ∀ {xs xs' : List (Column ⊕ Constraint)} {uss uss' : List (List Token)} {r r' : List Token}, ItemsTok xs uss →
    ItemsTok xs' uss' → NoPanic r → tailToks uss ++ closeTok :: r = tailToks uss' ++ closeTok :: r' → xs = xs' ∧ r = r' := by
  intro xs xs' uss uss' r r' h
  induction h generalizing xs' uss' with
  | nil =>
    intro h' hp e
    cases h' with
    | nil => simpa [tailToks] using e
    | cons _ _ => simp [tailToks, closeTok, commaTok] at e
  | cons h hs ih =>
    intro h' hp e
    cases h' with
    | nil => simp [tailToks, closeTok, commaTok] at e
    | cons h' hs' =>
      simp only [tailToks, List.cons_append, List.append_assoc, List.cons.injEq, true_and] at e
      obtain ⟨rfl, e⟩ := item_unique h h' (tailToks_curT _ _) (tailToks_curT _ _)
        (noPanic_append (tailToks_noPanic hs.noPanic) (noPanic_cons (by decide) hp)) e
      obtain ⟨rfl, rfl⟩ := ih hs' hp e
      exact ⟨rfl, rfl⟩

theorem sep_unique {xs xs' : List (Column ⊕ Constraint)} {uss uss' : List (List Token)} {r r' : List Token} (h : ItemsTok xs uss)
    (h' : ItemsTok xs' uss') (hp : NoPanic r) (e : sepToks uss ++ closeTok :: r = sepToks uss' ++ closeTok :: r') :
    xs = xs' ∧ r = r' := by
  have hne : ∀ {x : Column ⊕ Constraint} {us v w : List Token}, ItemTok x us → closeTok :: v = us ++ w → False := by
    intro x us v w hx e
    obtain ⟨t, q, rfl, hh⟩ := hx.head
    simp only [List.cons_append, List.cons.injEq] at e
    rcases hh with ⟨_, _, k⟩ | ⟨_, _, k⟩ <;> rw [← e.1] at k <;> cases k
  cases h with
  | nil =>
    cases h' with
    | nil => simpa [sepToks] using e
    | cons h' hs' =>
      simp only [sepToks, List.nil_append, List.append_assoc] at e
      exact (hne h' e).elim
  | cons h hs =>
    cases h' with
    | nil =>
      simp only [sepToks, List.nil_append, List.append_assoc] at e
      exact (hne h e.symm).elim
    | cons h' hs' =>
      refine tail_unique (.cons h hs) (.cons h' hs') hp ?_
      simp only [sepToks, tailToks, List.cons_append] at e ⊢
      rw [e]

theorem sum_append_inj {α β : Type} {a a' : List α} {b b' : List β}
    (h : a.map (Sum.inl (β := β)) ++ b.map Sum.inr = a'.map Sum.inl ++ b'.map Sum.inr) : a = a' ∧ b = b' := by
  induction a generalizing a' with
  | nil =>
    cases a' with
    | nil => exact ⟨rfl, List.map_injective_iff.2 (fun _ _ h => Sum.inr.inj h) h⟩
    | cons x a' => cases b <;> simp at h
  | cons x a ih =>
    cases a' with
    | nil => cases b' <;> simp at h
    | cons y a' =>
      simp only [List.map_cons, List.cons_append, List.cons.injEq, Sum.inl.injEq] at h
      obtain ⟨rfl, h⟩ := h
      obtain ⟨rfl, rfl⟩ := ih h
      exact ⟨rfl, rfl⟩

/-- The table is printed with the tokens `us`. -/
def TabTok (t : CreateTable) (us : List Token) : Prop :=
  t.comment = [] ∧ t.options = [] ∧ (∃ raw, L ⟨.IDENT, raw⟩ ∧ t.name = newObjectName .postgres raw) ∧
  ∃ uss, ItemsTok (t.columns.map Sum.inl ++ t.constraints.map Sum.inr) uss ∧
    us = createTok :: ⟨.TABLE, s%"TABLE"⟩ :: (ineToks t.ifNotExists ++ ⟨.IDENT, t.name.str⟩ :: openTok ::
      (sepToks uss ++ [closeTok, semiTok]))

/-- What is needed of a table so that its printed form determines it. -/
def CreateTable.Spelled (t : CreateTable) : Prop :=
  (∀ c ∈ t.constraints, IsName .postgres c.name.raw) ∧ ∀ c ∈ t.columns, c.default ≠ some ⟨none⟩

theorem itemsTok_exists : ∀ l : List (Column ⊕ Constraint), (∀ x ∈ l, ∃ us, ItemTok x us) → ∃ uss, ItemsTok l uss
  | [], _ => ⟨[], .nil⟩
  | x :: l, h => by
    obtain ⟨us, hu⟩ := h x (by simp)
    obtain ⟨uss, hs⟩ := itemsTok_exists l fun y hy => h y (by simp [hy])
    exact ⟨_, .cons hu hs⟩

theorem tabTok_exists {t : CreateTable} (h : TabOk t) (hs : t.Spelled) : ∃ us, TabTok t us := by
  obtain ⟨h1, h2, h3, h4, h5⟩ := h
  obtain ⟨uss, hu⟩ := itemsTok_exists (t.columns.map Sum.inl ++ t.constraints.map Sum.inr) (by
    intro x hx
    rcases List.mem_append.1 hx with hx | hx <;> obtain ⟨c, hc, rfl⟩ := List.mem_map.1 hx
    · exact h4 c hc (hs.2 c hc)
    · exact conTok_exists (h5 c hc) (hs.1 c hc))
  exact ⟨_, h1, h2, h3, uss, hu, rfl⟩

/-- The text of a column or constraint. -/
def itemStr : Column ⊕ Constraint → Str
  | .inl c => c.str
  | .inr c => c.str

theorem itemsTok_zip {xs : List (Column ⊕ Constraint)} {uss : List (List Token)} (h : ItemsTok xs uss) :
    ∃ l : List (Str × List Token), l.map (·.1) = xs.map itemStr ∧ l.map (·.2) = uss ∧
      ∀ p ∈ l, ∀ s, Start s → lex .postgres (p.1 ++ s) = p.2 ++ lex .postgres s := by
  induction h with
  | nil => exact ⟨[], rfl, rfl, by simp⟩
  | @cons x us xs uss h _ ih =>
    obtain ⟨l, h1, h2, h3⟩ := ih
    refine ⟨(itemStr x, us) :: l, by simp [h1], by simp [h2], ?_⟩
    intro p hp s hs
    rcases List.mem_cons.1 hp with rfl | hp
    · cases x with
      | inl c => exact lex_column h hs
      | inr c => exact lex_con h hs
    · exact h3 p hp s hs

theorem lex_tab {t : CreateTable} {us : List Token} (h : TabTok t us) (s : Str) :
    lex .postgres (t.str ++ s) = us ++ lex .postgres s := by
  obtain ⟨hcom, hopt, hname, uss, hu, rfl⟩ := h
  have hn := objName_ok hname
  have op : ∀ r, Start (s%" (\n" ++ r) := fun r => start_cons (by decide)
  obtain ⟨l, l1, l2, l3⟩ := itemsTok_zip hu
  have hitems := lex_itemLines l l3
  rw [l1, l2] at hitems
  simp only [List.map_append, List.map_map, Function.comp_def, itemStr] at hitems
  unfold CreateTable.str
  rw [hcom, hopt]
  simp only [commentStr, if_true, List.nil_append, List.append_nil, List.append_assoc]
  have hlast : (if t.constraints = [] then s%"\n" else s%",\n") = if t.constraints.map Constraint.str = [] then s%"\n" else s%",\n" := by
    simp
  rw [hlast, ← List.append_assoc (itemLines _ _), itemLines_append]
  rw [lex_lit (d := .postgres) (by decide) (by decide) (by decide), ine_lex, lex_tok hn.1 (op _),
    lex_lit (d := .postgres) (by decide) (by decide) (by decide)]
  erw [hitems]
  rw [
    lex_lit (d := .postgres) (by decide) (by decide) (by decide),
    lex_lit (d := .postgres) (by decide) (by decide) (by decide)]
  simp only [List.append_assoc, List.cons_append, List.nil_append]
  rfl

theorem tab_noPanic {t : CreateTable} {us : List Token} (h : TabTok t us) : NoPanic us := by
  obtain ⟨_, _, _, uss, hu, rfl⟩ := h
  exact noPanic_cons (by decide) (noPanic_cons (by decide) (noPanic_append (ineToks_noPanic _) (noPanic_cons (by simp)
    (noPanic_cons (by decide) (noPanic_append (sepToks_noPanic hu.noPanic)
      (noPanic_cons (by decide) (noPanic_cons (by decide) noPanic_nil)))))))

theorem tab_unique {t t' : CreateTable} {us us' r r' : List Token} (h : TabTok t us) (h' : TabTok t' us') (hp : NoPanic r)
    (e : us ++ r = us' ++ r') : t = t' ∧ r = r' := by
  obtain ⟨h1, h2, h3, uss, hu, rfl⟩ := h
  obtain ⟨h1', h2', h3', uss', hu', rfl⟩ := h'
  have hn := (objName_ok h3).2
  have hn' := (objName_ok h3').2
  simp only [List.cons_append, List.append_assoc, List.nil_append, List.cons.injEq, true_and] at e
  have key : t.ifNotExists = t'.ifNotExists ∧ t.name.str = t'.name.str ∧
      sepToks uss ++ closeTok :: semiTok :: r = sepToks uss' ++ closeTok :: semiTok :: r' := by
    revert e
    cases t.ifNotExists <;> cases t'.ifNotExists <;> simp [ineToks]
  obtain ⟨k1, k2, k3⟩ := key
  obtain ⟨e1, e2⟩ := sep_unique hu hu' (noPanic_cons (by decide) hp) k3
  obtain ⟨e3, e4⟩ := sum_append_inj e1
  refine ⟨?_, by simpa using e2⟩
  obtain ⟨_, _, n, _, _, _⟩ := t
  obtain ⟨_, _, n', _, _, _⟩ := t'
  simp only at *
  subst h1 h2 h1' h2' k1 e3 e4
  rw [hn, hn', k2]

/-! ## Statement lists -/

/-- The statement is printed with the tokens `us`. -/
def StmtTok : PStmt → List Token → Prop
  | .createTable t, us => TabTok t us
  | .createIndex i, us => IdxOk i ∧ ∃ u, (i.using_ = [] ∨ (L u ∧ i.using_ = [newIdent u.lit [] u.lit])) ∧ us = idxToks i u
  | _, _ => False

/-- What is needed of a statement so that its printed form determines it. -/
def Legible : PStmt → Prop
  | .createTable t => TabOk t ∧ t.Spelled
  | .createIndex i => IdxOk i
  | _ => False

theorem stmtTok_exists {x : PStmt} (h : Legible x) : ∃ us, StmtTok x us := by
  cases x with
  | createTable t => exact tabTok_exists h.1 h.2
  | createIndex i =>
    rcases h.2.2.2.1 with h0 | ⟨u, h0⟩
    · exact ⟨_, h, semiTok, Or.inl h0, rfl⟩
    · exact ⟨_, h, u, Or.inr h0, rfl⟩
  | alterTable => exact h.elim
  | dropTable => exact h.elim
  | dropIndex => exact h.elim

theorem lex_stmt {sd : Str → Str → Str} {x : PStmt} {us : List Token} (h : StmtTok x us) (s : Str) :
    lex .postgres (stmtStr (ops sd) x ++ s) = us ++ lex .postgres s := by
  cases x with
  | createTable t => exact lex_tab h s
  | createIndex i =>
    obtain ⟨h, u, hu, rfl⟩ := h
    exact lex_createIndex h hu s
  | alterTable => exact h.elim
  | dropTable => exact h.elim
  | dropIndex => exact h.elim

theorem stmtTok_noPanic {x : PStmt} {us : List Token} (h : StmtTok x us) : NoPanic us := by
  cases x with
  | createTable t => exact tab_noPanic h
  | createIndex i =>
    obtain ⟨h, u, hu, rfl⟩ := h
    exact idxToks_noPanic (hu.imp_right (·.1))
  | alterTable => exact h.elim
  | dropTable => exact h.elim
  | dropIndex => exact h.elim

theorem stmtTok_ne {x : PStmt} {us : List Token} (h : StmtTok x us) : us ≠ [] := by
  cases x with
  | createTable t => obtain ⟨_, _, _, uss, _, rfl⟩ := h; simp
  | createIndex i => obtain ⟨_, u, _, rfl⟩ := h; simp [idxToks]
  | alterTable => exact h.elim
  | dropTable => exact h.elim
  | dropIndex => exact h.elim

theorem stmt_unique {x x' : PStmt} {us us' r r' : List Token} (h : StmtTok x us) (h' : StmtTok x' us') (hp : NoPanic r)
    (e : us ++ r = us' ++ r') : x = x' ∧ r = r' := by
  have hne : ∀ {t : CreateTable} {i : CreateIndex} {us us' r r' : List Token}, StmtTok (.createTable t) us → StmtTok (.createIndex i) us' →
      us ++ r = us' ++ r' → False := by
    rintro t i us us' r r' ⟨_, _, _, uss, _, rfl⟩ ⟨_, u, _, rfl⟩ e
    unfold idxToks at e
    revert e
    cases i.isUnique <;> simp
  cases x with
  | createTable t =>
    cases x' with
    | createTable t' =>
      obtain ⟨rfl, e⟩ := tab_unique h h' hp e
      exact ⟨rfl, e⟩
    | createIndex i' => exact (hne h h' e).elim
    | alterTable => exact h'.elim
    | dropTable => exact h'.elim
    | dropIndex => exact h'.elim
  | createIndex i =>
    cases x' with
    | createTable t' => exact (hne h' h e.symm).elim
    | createIndex i' =>
      have hp1 : NoPanic (us ++ r) := noPanic_append (stmtTok_noPanic h) hp
      obtain ⟨h, u, hu, rfl⟩ := h
      obtain ⟨h', u', hu', rfl⟩ := h'
      have e1 := parseCreate_readsIndex h hu hp
      rw [e] at hp1
      have e2 := parseCreate_readsIndex h' hu' hp1.of_append
      rw [e, e2] at e1
      simp only [Res.ok.injEq, Prod.mk.injEq, List.cons.injEq, true_and] at e1
      exact ⟨e1.1.symm, e1.2.symm⟩
    | alterTable => exact h'.elim
    | dropTable => exact h'.elim
    | dropIndex => exact h'.elim
  | alterTable => exact h.elim
  | dropTable => exact h.elim
  | dropIndex => exact h.elim

theorem lex_ddlStr_noPanic {sd : Str → Str → Str} : ∀ {l : List PStmt}, (∀ x ∈ l, Legible x) →
    NoPanic (lex .postgres (ddlStr (ops sd) l))
  | [], _ => noPanic_nil
  | x :: l, h => by
    obtain ⟨us, hu⟩ := stmtTok_exists (h x (by simp))
    have : lex .postgres (ddlStr (ops sd) (x :: l)) = us ++ lex .postgres (ddlStr (ops sd) l) := by
      rw [← lex_stmt hu]; rfl
    rw [this]
    exact noPanic_append (stmtTok_noPanic hu) (lex_ddlStr_noPanic fun y hy => h y (by simp [hy]))

/-- Schemas printed alike are alike: their tokens are the same. -/
theorem lex_ddlStr_inj {sd : Str → Str → Str} : ∀ {l l' : List PStmt}, (∀ x ∈ l, Legible x) → (∀ x ∈ l', Legible x) →
    lex .postgres (ddlStr (ops sd) l) = lex .postgres (ddlStr (ops sd) l') → l = l' := by
  have step : ∀ (x : PStmt) (l : List PStmt), Legible x → ∃ us, StmtTok x us ∧
      lex .postgres (ddlStr (ops sd) (x :: l)) = us ++ lex .postgres (ddlStr (ops sd) l) := by
    intro x l h
    obtain ⟨us, hu⟩ := stmtTok_exists h
    exact ⟨us, hu, by rw [← lex_stmt hu]; rfl⟩
  intro l
  induction l with
  | nil =>
    intro l' _ h' e
    cases l' with
    | nil => rfl
    | cons x l' =>
      obtain ⟨us, hu, e'⟩ := step x l' (h' x (by simp))
      rw [e'] at e
      have : us ++ lex .postgres (ddlStr (ops sd) l') = [] := e.symm
      exact absurd (List.append_eq_nil_iff.1 this).1 (stmtTok_ne hu)
  | cons x l ih =>
    intro l' h h' e
    obtain ⟨us, hu, e1⟩ := step x l (h x (by simp))
    cases l' with
    | nil =>
      rw [e1] at e
      have : us ++ lex .postgres (ddlStr (ops sd) l) = [] := e
      exact absurd (List.append_eq_nil_iff.1 this).1 (stmtTok_ne hu)
    | cons y l' =>
      obtain ⟨us', hu', e1'⟩ := step y l' (h' y (by simp))
      rw [e1, e1'] at e
      obtain ⟨rfl, e⟩ := stmt_unique hu hu' (lex_ddlStr_noPanic fun z hz => h z (by simp [hz])) e
      rw [ih (fun z hz => h z (by simp [hz])) (fun z hz => h' z (by simp [hz])) e]

theorem ddlStr_inj {sd : Str → Str → Str} {l l' : List PStmt} (h : ∀ x ∈ l, Legible x) (h' : ∀ x ∈ l', Legible x)
    (e : ddlStr (ops sd) l = ddlStr (ops sd) l') : l = l' := lex_ddlStr_inj h h' (by rw [e])

theorem tableStr_inj {t t' : CreateTable} (h : TabOk t ∧ t.Spelled) (h' : TabOk t' ∧ t'.Spelled) (e : t.str = t'.str) : t = t' := by
  have := ddlStr_inj (sd := fun _ _ => []) (l := [.createTable t]) (l' := [.createTable t']) 
    (fun x hx => by rw [List.mem_singleton.1 hx]; exact h) (fun x hx => by rw [List.mem_singleton.1 hx]; exact h')
    (by simp only [ddlStr, List.map_cons, List.map_nil, stmtStr, ops, e])
  simpa using this

end Pg
end Ddl
