import Verif.Lemmas.MyColumn
import Verif.Lemmas.PgTable
import Verif.Lemmas.TableDiff
import Verif.My.Diff

/-! # MySQL: statements, printed and read again -/

namespace Ddl.My
open Spec
set_option autoImplicit false

theorem objectName_str {raw : Str} (h : L ⟨.IDENT, raw⟩) : (newObjectName .mysql raw).str = raw := by
  rcases h with ⟨h1, h2, h3⟩ | ⟨_, q, body, hq, h2, hb⟩ | ⟨h1, _⟩ | ⟨h1, _⟩ | ⟨h1, _⟩ | ⟨c, h1, _⟩
  · refine newObjectName_plain (newRawIdent_word h2) ?_
    intro a b e
    simp only at h2 e
    rw [e] at h2
    exact ⟨newRawIdent_word (fun c hc => h2 c (by simp [hc])), newRawIdent_word (fun c hc => h2 c (by simp [hc]))⟩
  · simp only at h2
    subst h2
    simp only [quotes, List.mem_cons, List.not_mem_nil, or_false] at hq
    rcases hq with rfl | rfl | rfl
    all_goals exact newObjectName_quoted (by decide) (fun h => (hb _ h).1 rfl)
  · cases h1
  · cases h1
  · cases h1
  · have : ∀ p ∈ symbols, p.2 ≠ .IDENT := by decide
    exact absurd rfl (this _ h1)

/-! ## Constraints -/

/-- The columns and referenced tables are names, and expressions are in brackets. -/
def ConOk : Constraint → Prop
  | .primaryKey n cs => n = rawIdent s%"PRIMARY KEY" ∧ ∀ i ∈ cs, NameOk i.ident
  | .foreignKey n cs r rcs _ => n = rawIdent n.raw ∧ (∀ i ∈ cs, NameOk i.ident) ∧ NameOk r ∧ ∀ i ∈ rcs, NameOk i.ident
  | .index n _ cs => n = rawIdent n.raw ∧ ∀ i ∈ cs, NameOk i.ident
  | .check n e => n = rawIdent n.raw ∧ ∃ g, Grp g ∧ e = rawIdent s%"(" :: ids g

def constraintTok : Token := ⟨.CONSTRAINT, s%"CONSTRAINT"⟩

/-- The words of a bracketed expression behind the first bracket. -/
noncomputable def grpWords (e : Expr) : List Word := by
  classical exact if h : ∃ g, Grp g ∧ e = rawIdent s%"(" :: ids g then h.choose else []

theorem grpWords_ok {e : Expr} (h : ∃ g, Grp g ∧ e = rawIdent s%"(" :: ids g) : Grp (grpWords e) ∧ e = rawIdent s%"(" :: ids (grpWords e) := by
  unfold grpWords
  rw [dif_pos h]
  exact h.choose_spec

/-- The tokens of `UNIQUE`. -/
def uqToks (uq : Bool) : List Token := if uq then [⟨.UNIQUE, s%"UNIQUE"⟩] else []

/-- The tokens of a constraint. -/
noncomputable def conToks : Constraint → List Token
  | .primaryKey _ cs => ⟨.PRIMARY, s%"PRIMARY"⟩ :: ⟨.KEY, s%"KEY"⟩ :: openTok :: (colToks cs ++ [closeTok])
  | .foreignKey n cs r rcs _ =>
    constraintTok :: nameTok n :: ⟨.FOREIGN, s%"FOREIGN"⟩ :: ⟨.KEY, s%"KEY"⟩ :: openTok :: (colToks cs ++ closeTok ::
      ⟨.REFERENCES, s%"REFERENCES"⟩ :: nameTok r :: openTok :: (colToks rcs ++ [closeTok]))
  | .index n uq cs => uqToks uq ++ ⟨.KEY, s%"KEY"⟩ :: nameTok n :: openTok :: (colToks cs ++ [closeTok])
  | .check n e => constraintTok :: nameTok n :: ⟨.CHECK, s%"CHECK"⟩ :: openTok :: toks (grpWords e)

theorem parseOnAction_post {ts : List Token} (hL : AllTok L ts) : Post (fun r => AllTok L r.2) (parseOnActionOpt ts) := by
  unfold parseOnActionOpt
  split
  · have : Post (fun r => AllTok L r.2) (parseOnAction ts) := by
      unfold parseOnAction
      refine Post.checkCur_bind (fun _ => Post.next_bind (Post.checkCur_bind (fun _ => Post.checkPeek_bind (fun _ => Post.next_bind ?_))))
      split
      · exact Post.checkPeek_bind (fun _ => Post.next_bind (Post.next_bind (Post.ok hL.tail.tail.tail.tail)))
      · exact Post.next_bind (Post.ok hL.tail.tail.tail)
    refine this.bind ?_
    rintro ⟨act, ts₁⟩ h
    exact Post.ok h
  · exact Post.ok hL

theorem columnConstraintsLoop_post {tbl col : Ident} (hcol : NameOk col) : ∀ (n : Nat) (cs : List Constraint) (ts : List Token),
    AllTok L ts → (∀ c ∈ cs, ConOk c) →
    Post (fun r => (∀ c ∈ r.1, ConOk c) ∧ AllTok L r.2) (columnConstraintsLoop tbl col n cs ts) := by
  have app : ∀ (cs : List Constraint) (c : Constraint), (∀ c ∈ cs, ConOk c) → ConOk c → ∀ x ∈ appendConstraint cs c, ConOk x := by
    intro cs c h hc x hx
    rcases appendConstraint_mem x hx with h' | rfl
    · exact h x h'
    · exact hc
  have one : ∀ i ∈ [(⟨col, none⟩ : ColumnIdent)], NameOk i.ident := by simpa using hcol
  intro n
  induction n with
  | zero => intro cs ts _ _; exact trivial
  | succ n ih =>
    intro cs ts hL hcs
    unfold columnConstraintsLoop
    split
    · exact Post.checkPeek_bind (fun _ => Post.next_bind (Post.next_bind (ih _ _ hL.tail.tail (app _ _ hcs ⟨rfl, one⟩))))
    split
    · refine Post.checkPeek_bind (fun hp => Post.next_bind ?_)
      simp only [List.mem_singleton] at hp
      refine Post.next_bind ((parseColumnIdents_post hL.tail.tail).bind ?_)
      rintro ⟨i, ts₁⟩ ⟨hi, h₁⟩
      refine (parseOnAction_post h₁).bind ?_
      rintro ⟨act, ts₂⟩ h₂
      refine (parseOnAction_post h₂).bind ?_
      rintro ⟨act', ts₃⟩ h₃
      refine Post.next_bind (ih _ _ (AllTok.tail h₃) (app _ _ hcs ⟨by simp, one, nameOk_cur hL.tail hp, hi⟩))
    split
    · exact Post.next_bind (ih _ _ hL.tail (app _ _ hcs ⟨by simp, one⟩))
    split
    · refine Post.checkPeek_bind (fun _ => Post.next_bind ((parseExpr_post hL.tail).bind ?_))
      rintro ⟨i, ts₁⟩ ⟨he, h₁⟩
      exact Post.next_bind (ih _ _ (AllTok.tail h₁) (app _ _ hcs ⟨by simp, he⟩))
    split
    · exact Post.ok ⟨hcs, hL⟩
    · exact trivial

theorem parseComment_post {ts : List Token} (hL : AllTok L ts) :
    Post (fun r => (∃ us, CmOk r.1 us) ∧ AllTok L r.2) (parseComment ts) := by
  unfold parseComment
  split
  · refine Post.next_bind (Post.next_bind (Post.ok ⟨?_, hL.tail.tail⟩))
    have h := hL.tail
    generalize ts.tail = r at h
    cases r with
    | nil => exact ⟨[], Or.inl ⟨rfl, rfl⟩⟩
    | cons t r => exact ⟨_, Or.inr ⟨t, h t (by simp), rfl, rfl⟩⟩
  · exact Post.ok ⟨⟨[], Or.inl ⟨rfl, rfl⟩⟩, hL⟩

theorem parseColumn_post {tbl : Ident} {ts : List Token} (hL : AllTok L ts) :
    Post (fun r => (Valued r.1 → ∃ us, ColOk r.1 us) ∧ (∀ c ∈ r.2.1, ConOk c) ∧ AllTok L r.2.2)
      (parseColumn tbl ts) := by
  unfold parseColumn
  refine Post.checkCur_bind (fun hc => Post.next_bind ?_)
  simp only [List.mem_singleton] at hc
  have hname := nameOk_cur hL hc
  split
  · rename_i hd
    refine (parseDataType_post hL.tail hd).bind ?_
    rintro ⟨dt, ts₁⟩ ⟨h1, h2⟩
    refine Post.next_bind ((columnAttrsLoop_post _ ⟨none, none, none, false, false, []⟩ _ (AllTok.tail h2)
      (fun _ => ⟨⟨[], Or.inl ⟨rfl, rfl⟩⟩, ⟨[], Or.inl ⟨rfl, rfl⟩⟩, fun _ => ⟨[], Or.inl ⟨rfl, rfl⟩⟩, ⟨[], Or.inl ⟨rfl, rfl⟩⟩⟩)).bind ?_)
    rintro ⟨a, ts₂⟩ ⟨h3, h4⟩
    by_cases hne : ts₂ = []
    · subst hne
      exact trivial
    obtain ⟨⟨us, a1⟩, ⟨uc, a2⟩, a3, ⟨uo, a4⟩⟩ := h3 hne
    refine (columnConstraintsLoop_post hname _ [] _ h4 (by simp)).bind ?_
    rintro ⟨cs, ts₃⟩ ⟨h5, h6⟩
    refine (parseComment_post h6).bind ?_
    rintro ⟨cm, ts₄⟩ ⟨⟨um, h7⟩, h8⟩
    refine Post.ok ⟨?_, ?_, h8⟩
    · intro hv
      obtain ⟨g, hg⟩ := a3 hv.2
      obtain ⟨ud, hud⟩ := h1 hv.1
      exact ⟨_, hname, ud, us, uc, g, uo, um, hud, a1, a2, hg, a4, h7, rfl⟩
    · intro c hc
      rcases foldl_append_mem c hc with h | h
      · cases h
      · exact h5 c h
  · exact trivial

theorem parseTableConstraint_post {tbl : Ident} {ts : List Token} (hL : AllTok L ts) :
    Post (fun r => ConOk r.1 ∧ AllTok L r.2) (parseTableConstraint tbl ts) := by
  have hname : Post (fun r => (∀ i, r.1 = some i → i = rawIdent i.raw) ∧ AllTok L r.2) (parseConstraintName ts) := by
    unfold parseConstraintName
    split
    · refine Post.next_bind ?_
      split
      · exact trivial
      · refine Post.next_bind (Post.ok ⟨?_, hL.tail.tail⟩)
        intro i hi
        cases hi
        simp
    · exact Post.ok ⟨by simp, hL⟩
  unfold parseTableConstraint
  refine hname.bind ?_
  rintro ⟨cname, ts₀⟩ ⟨hn, h0⟩
  simp only at hn h0 ⊢
  have hget : ∀ s : Str, cname.getD (rawIdent s) = rawIdent (cname.getD (rawIdent s)).raw := by
    intro s
    cases cname with
    | none => simp
    | some i => exact hn i rfl
  split
  · refine Post.checkPeek_bind (fun _ => Post.next_bind (Post.checkPeek_bind (fun _ => Post.next_bind
      ((parseColumnIdents_post h0.tail.tail).bind ?_))))
    rintro ⟨i, ts₁⟩ ⟨hi, h₁⟩
    exact Post.ok ⟨⟨rfl, hi⟩, h₁⟩
  split
  · refine Post.checkPeek_bind (fun _ => Post.next_bind (Post.checkPeek_bind (fun _ => Post.next_bind
      ((parseColumnIdents_post h0.tail.tail).bind ?_))))
    rintro ⟨i, ts₁⟩ ⟨hi, h₁⟩
    refine Post.checkCur_bind (fun _ => Post.next_bind (Post.checkCur_bind (fun hr => Post.next_bind ?_)))
    simp only [List.mem_singleton] at hr
    refine (parseColumnIdents_post (AllTok.tail (AllTok.tail h₁))).bind ?_
    rintro ⟨i₂, ts₂⟩ ⟨hi₂, h₂⟩
    refine (parseOnAction_post h₂).bind ?_
    rintro ⟨act, ts₃⟩ h₃
    refine (parseOnAction_post h₃).bind ?_
    rintro ⟨act', ts₄⟩ h₄
    exact Post.ok ⟨⟨hget _, hi, nameOk_cur (AllTok.tail h₁) hr, hi₂⟩, h₄⟩
  split
  · have rest : ∀ (uq : Bool) (ts₁ : List Token), AllTok L ts₁ → Post (fun r => ConOk r.1 ∧ AllTok L r.2) (do
        checkCur [.INDEX, .KEY] ts₁
        let ts ← next ts₁
        checkCur [.IDENT] ts
        let name := rawIdent (curL ts)
        checkPeek [.OPEN_PAREN] ts
        let ts ← next ts
        let (ids, ts) ← parseColumnIdents ts
        .ok (.index name uq ids, ts)) := by
      intro uq ts₁ h₁
      refine Post.checkCur_bind (fun _ => Post.next_bind (Post.checkCur_bind (fun hc => Post.checkPeek_bind (fun _ => Post.next_bind ?_))))
      refine (parseColumnIdents_post h₁.tail.tail).bind ?_
      rintro ⟨i, ts₂⟩ ⟨hi, h₂⟩
      exact Post.ok ⟨⟨by simp, hi⟩, h₂⟩
    split
    · refine Post.next_bind ?_
      exact rest true _ h0.tail
    · exact rest false _ h0
  split
  · refine Post.checkPeek_bind (fun _ => Post.next_bind ((parseExpr_post h0.tail).bind ?_))
    rintro ⟨i, ts₁⟩ ⟨he, h₁⟩
    exact Post.ok ⟨⟨hget _, he⟩, h₁⟩
  · exact trivial

theorem lex_constraint {c : Constraint} (h : ConOk c) (hR : c.Rereadable) {s : Str} (hs : Start s) :
    lex .mysql (c.str ++ s) = conToks c ++ lex .mysql s := by
  have sp : ∀ r, Start (s%" " ++ r) := fun r => start_cons (by decide)
  have hclose : ∀ r, lex .mysql (s%")" ++ r) = closeTok :: lex .mysql r :=
    fun r => lex_symbol .mysql ')' .CLOSE_PAREN r (by decide) (by simp)
  have hopen : ∀ r, lex .mysql (s%" (" ++ r) = openTok :: lex .mysql r := by
    intro r
    rw [List.cons_append, lex_ws .mysql ' ' _ rfl]
    exact lex_symbol .mysql '(' .OPEN_PAREN r (by decide) (by simp)
  have hopen' : ∀ r, lex .mysql (s%"(" ++ r) = openTok :: lex .mysql r :=
    fun r => lex_symbol .mysql '(' .OPEN_PAREN r (by decide) (by simp)
  have hblank : ∀ r, lex .mysql (s%" " ++ r) = lex .mysql r := fun r => lex_ws .mysql ' ' r rfl
  have cl : ∀ r, Start (s%")" ++ r) := fun r => start_cons (by decide)
  have op : ∀ r, Start (s%" (" ++ r) := fun r => start_cons (by decide)
  cases c with
  | primaryKey n cs =>
    simp only [Constraint.str, List.append_assoc, conToks]
    rw [lex_lit_start (d := .mysql) (by decide) (by decide) (by decide) (op _), hopen,
      lex_columnsStr (cl _) cs h.2 hR, hclose]
    simp only [List.cons_append, List.append_assoc, List.nil_append]
    rfl
  | index n uq cs =>
    obtain ⟨hR1, hR2⟩ : IsName .mysql n.raw ∧ NoAsc cs := hR
    have hn : NameOk n := ⟨h.1, isName_lx hR1⟩
    have huq : ∀ r, lex .mysql ((if uq then s%"UNIQUE " else []) ++ r) = uqToks uq ++ lex .mysql r := by
      intro r
      cases uq with
      | false => rfl
      | true =>
        simp only [if_true, uqToks]
        rw [lex_lit (d := .mysql) (by decide) (by decide) (by decide)]
        rfl
    simp only [Constraint.str, Ident.str, List.append_assoc, conToks]
    rw [huq, lex_lit (d := .mysql) (by decide) (by decide) (by decide), lex_name (i := n) hn (sp _), hblank,
      hopen', lex_columnsStr (cl _) cs h.2 hR2, hclose]
    simp only [List.cons_append, List.append_assoc, List.nil_append]
    rfl
  | foreignKey n cs r rcs act =>
    obtain ⟨h1, hcs, hr, hrcs⟩ : n = rawIdent n.raw ∧ (∀ i ∈ cs, NameOk i.ident) ∧ NameOk r ∧ (∀ i ∈ rcs, NameOk i.ident) := h
    obtain ⟨hR1, hR2, hR3, _⟩ : IsName .mysql n.raw ∧ NoAsc cs ∧ NoAsc rcs ∧ act = [] := hR
    have hn : NameOk n := ⟨h1, isName_lx hR1⟩
    simp only [Constraint.str, Ident.str, List.append_assoc, conToks]
    rw [lex_lit (d := .mysql) (by decide) (by decide) (by decide), lex_name (i := n) hn (sp _), hblank,
      lex_lit_start (d := .mysql) (by decide) (by decide) (by decide) (op _), hopen,
      lex_columnsStr (cl _) cs hcs hR2, hclose,
      lex_lit (d := .mysql) (by decide) (by decide) (by decide), lex_name hr (op _), hopen,
      lex_columnsStr (cl _) rcs hrcs hR3, hclose]
    simp only [List.cons_append, List.append_assoc, List.nil_append]
    rfl
  | check n e =>
    have hn : NameOk n := ⟨h.1, isName_lx hR⟩
    obtain ⟨hg, he⟩ := grpWords_ok h.2
    have hex := lex_exprStr hs ((rawIdent s%"(", [openTok]) :: grpWords e) (by
      intro w hw
      rcases List.mem_cons.1 hw with rfl | hw
      · exact openWord_ok
      · exact hg.ok w hw)
    rw [ids_cons, ← he] at hex
    simp only [Constraint.str, Ident.str, List.append_assoc, conToks]
    rw [lex_lit (d := .mysql) (by decide) (by decide) (by decide), lex_name (i := n) hn (sp _), hblank,
      lex_lit (d := .mysql) (by decide) (by decide) (by decide), hex]
    simp only [List.cons_append, List.append_assoc, List.nil_append, toks_cons]
    rfl

/-- A constraint is read. -/
theorem parseTableConstraint_reads {tbl : Ident} {c : Constraint} (h : ConOk c) (hR : c.Rereadable) {rest : List Token}
    (hr : curT rest ∈ [.COMMA, .CLOSE_PAREN]) (hp : NoPanic (conToks c ++ rest)) :
    parseTableConstraint tbl (conToks c ++ rest) = .ok (c, rest) := by
  have hname : ∀ (n : Ident) (body : List Token), n = rawIdent n.raw → NoPanic (constraintTok :: nameTok n :: body) →
      parseConstraintName (constraintTok :: nameTok n :: body) = .ok (some n, body) := by
    intro n body hn hp
    simp [parseConstraintName, constraintTok] at hp ⊢
    simp [next_cons hp, next_cons hp.of_cons, ← hn]
  unfold parseTableConstraint
  cases c with
  | primaryKey n cs =>
    obtain ⟨hn, hcs⟩ : n = rawIdent s%"PRIMARY KEY" ∧ ∀ i ∈ cs, NameOk i.ident := h
    subst hn
    simp only [conToks, List.cons_append, List.append_assoc, List.nil_append] at hp ⊢
    have hno : ∀ r, parseConstraintName (⟨.PRIMARY, s%"PRIMARY"⟩ :: r) = .ok (none, ⟨.PRIMARY, s%"PRIMARY"⟩ :: r) := by
      intro r; simp [parseConstraintName]
    rw [hno]
    simp [checkPeek, next_cons hp, next_cons hp.of_cons, parseColumnIdents_reads hcs hp.of_cons.of_cons]
  | index n uq cs =>
    obtain ⟨hn, hcs⟩ : n = rawIdent n.raw ∧ ∀ i ∈ cs, NameOk i.ident := h
    simp only [conToks, List.cons_append, List.append_assoc, List.nil_append] at hp ⊢
    have hno : parseConstraintName (uqToks uq ++ ⟨.KEY, s%"KEY"⟩ :: nameTok n :: openTok :: (colToks cs ++ closeTok :: rest)) =
        .ok (none, uqToks uq ++ ⟨.KEY, s%"KEY"⟩ :: nameTok n :: openTok :: (colToks cs ++ closeTok :: rest)) := by
      cases uq <;> simp [parseConstraintName, uqToks]
    rw [hno]
    have hp1 : NoPanic (⟨.KEY, s%"KEY"⟩ :: nameTok n :: openTok :: (colToks cs ++ closeTok :: rest)) := hp.of_append
    cases uq with
    | false =>
      simp only [uqToks, Bool.false_eq_true, if_false, List.nil_append]
      simp [checkCur, checkPeek, next_cons hp1, next_cons hp1.of_cons, parseColumnIdents_reads hcs hp1.of_cons.of_cons, ← hn]
    | true =>
      simp only [uqToks, if_true, List.cons_append, List.nil_append] at hp ⊢
      simp [checkCur, checkPeek, next_cons hp, next_cons hp1, next_cons hp1.of_cons, parseColumnIdents_reads hcs hp1.of_cons.of_cons, ← hn]
  | foreignKey n cs r rcs act =>
    obtain ⟨hn, hcs, hrn, hrcs⟩ : n = rawIdent n.raw ∧ (∀ i ∈ cs, NameOk i.ident) ∧ NameOk r ∧ (∀ i ∈ rcs, NameOk i.ident) := h
    obtain ⟨_, _, _, hact⟩ : IsName .mysql n.raw ∧ NoAsc cs ∧ NoAsc rcs ∧ act = [] := hR
    subst hact
    have hon : parseOnActionOpt rest = .ok (none, rest) := by
      simp only [List.mem_cons, List.not_mem_nil, or_false] at hr
      unfold parseOnActionOpt
      rcases hr with h | h <;> simp [h]
    simp only [conToks, List.cons_append, List.append_assoc, List.nil_append] at hp ⊢
    rw [hname _ _ hn hp]
    have hp' := hp.of_cons.of_cons
    have hp2 : NoPanic (⟨.REFERENCES, s%"REFERENCES"⟩ :: nameTok r :: openTok :: (colToks rcs ++ closeTok :: rest)) :=
      hp'.of_cons.of_cons.of_cons.of_append.of_cons
    simp [checkPeek, checkCur, next_cons hp', next_cons hp'.of_cons, parseColumnIdents_reads hcs hp'.of_cons.of_cons, next_cons hp2,
      next_cons hp2.of_cons, parseColumnIdents_reads hrcs hp2.of_cons.of_cons, hon, ← hrn.1]
  | check n e =>
    obtain ⟨hn, hg⟩ : n = rawIdent n.raw ∧ ∃ g, Grp g ∧ e = rawIdent s%"(" :: ids g := h
    obtain ⟨hg, he⟩ := grpWords_ok hg
    simp only [conToks, List.cons_append, List.append_assoc, List.nil_append] at hp ⊢
    rw [hname _ _ hn hp]
    have hp' := hp.of_cons.of_cons
    simp [checkPeek, next_cons hp', parseExpr_reads hg hp'.of_cons, ← he]

/-! ## No panics -/

theorem L.noPanic {t : Token} (h : L t) : t.type ≠ .PANIC := by
  rcases h with ⟨_, _, h⟩ | ⟨h, _⟩ | ⟨h, _⟩ | ⟨h, _⟩ | ⟨h, _⟩ | ⟨c, h, _⟩
  · intro e
    rw [e] at h
    rcases h with h | ⟨h, _⟩
    · have : ∀ p ∈ keywords .mysql, p.2 ≠ .PANIC := by decide
      exact this _ h rfl
    · cases h
  all_goals first | (rw [h]; decide) | skip
  have : ∀ p ∈ symbols, p.2 ≠ .PANIC := by decide
  exact this _ h

theorem AllTok.noPanic {ts : List Token} (h : AllTok L ts) : NoPanic ts := fun t ht => L.noPanic (h t ht)

theorem noPanic_append {a b : List Token} (ha : NoPanic a) (hb : NoPanic b) : NoPanic (a ++ b) := by
  intro t ht
  rcases List.mem_append.1 ht with h | h
  · exact ha t h
  · exact hb t h

theorem noPanic_cons {t : Token} {b : List Token} (ha : t.type ≠ .PANIC) (hb : NoPanic b) : NoPanic (t :: b) := by
  intro x hx
  rcases List.mem_cons.1 hx with rfl | h
  · exact ha
  · exact hb x h

theorem noPanic_nil : NoPanic [] := by simp [NoPanic]

theorem isCmp.noPanic {t : TokType} (h : isCmp t) : t ≠ .PANIC := by
  intro e; subst e; simp [isCmp] at h

theorem Grp.noPanic {g : List Word} (h : Grp g) : NoPanic (toks g) := by
  induction h with
  | close => exact noPanic_cons (by decide) noPanic_nil
  | opened a b _ _ iha ihb =>
    have := noPanic_append iha ihb
    rw [← toks_append] at this
    exact noPanic_cons (by decide) this
  | cmp x r hx _ _ _ ih => exact noPanic_cons hx.noPanic ih
  | cmp2 x y r _ _ _ _ hx hy _ ih => exact noPanic_cons hx.noPanic (noPanic_cons hy.noPanic ih)
  | other t r ht _ _ _ ih => exact noPanic_cons ht.noPanic ih

theorem Dft.noPanic {g : List Word} (h : Dft g) : NoPanic (toks g) := by
  induction h with
  | nil => exact noPanic_nil
  | group g r hg _ ih =>
    have := noPanic_append hg.noPanic ih
    rw [← toks_append] at this
    exact noPanic_cons (by decide) this
  | ident t r ht _ _ ih => exact noPanic_cons ht.noPanic ih
  | reserved t r ht _ _ ih => exact noPanic_cons ht.noPanic ih

theorem ordToks_noPanic : ∀ o : Option Bool, NoPanic (ordToks o)
  | none => noPanic_nil
  | some true => noPanic_cons (by decide) noPanic_nil
  | some false => noPanic_cons (by decide) noPanic_nil

theorem ColOk.noPanic {c : Column} {ts : List Token} (h : ColOk c ts) : NoPanic ts := by
  obtain ⟨_, ud, us, uc, g, uo, um, ⟨ws, as, _, h1, _, _, h2, _, rfl⟩, h3, h4, h5, h6, h7, rfl⟩ := h
  refine noPanic_cons (by simp) (noPanic_append (noPanic_append (AllTok.noPanic h1) ?_) (noPanic_append ?_ (noPanic_append ?_
    (noPanic_append ?_ (noPanic_append ?_ (noPanic_append ?_ (noPanic_append ?_ ?_)))))))
  · unfold argToks
    split
    · exact noPanic_nil
    · exact noPanic_cons (by decide) (noPanic_append (AllTok.noPanic h2) (noPanic_cons (by decide) noPanic_nil))
  · rcases h3 with ⟨_, rfl⟩ | ⟨t, ht, _, rfl⟩
    · exact noPanic_nil
    · exact noPanic_cons (by decide) (noPanic_cons (by decide) (noPanic_cons ht.noPanic noPanic_nil))
  · rcases h4 with ⟨_, rfl⟩ | ⟨t, ht, _, rfl⟩
    · exact noPanic_nil
    · exact noPanic_cons (by decide) (noPanic_cons ht.noPanic noPanic_nil)
  · unfold nnToks
    split
    · exact noPanic_cons (by decide) (noPanic_cons (by decide) noPanic_nil)
    · exact noPanic_cons (by decide) noPanic_nil
  · unfold dftToks
    split
    · exact noPanic_nil
    · rcases h5 with ⟨_, rfl⟩ | ⟨_, h5, _⟩
      · contradiction
      · exact noPanic_cons (by decide) h5.noPanic
  · unfold aiToks
    split
    · exact noPanic_cons (by decide) noPanic_nil
    · exact noPanic_nil
  · rcases h6 with ⟨_, rfl⟩ | ⟨t₁, t₂, ht₁, ht₂, _, _, _, rfl⟩
    · exact noPanic_nil
    · exact noPanic_cons (by decide) (noPanic_cons ht₁.noPanic (noPanic_cons ht₂.noPanic noPanic_nil))
  · rcases h7 with ⟨_, rfl⟩ | ⟨t, ht, _, rfl⟩
    · exact noPanic_nil
    · exact noPanic_cons (by decide) (noPanic_cons ht.noPanic noPanic_nil)

theorem colToks_noPanic : ∀ l : List ColumnIdent, NoPanic (colToks l)
  | [] => noPanic_nil
  | [i] => noPanic_cons (by simp) (ordToks_noPanic i.order)
  | i :: j :: r => noPanic_cons (by simp) (noPanic_append (ordToks_noPanic i.order) (noPanic_cons (by decide) (colToks_noPanic (j :: r))))

theorem uqToks_noPanic (b : Bool) : NoPanic (uqToks b) := by
  cases b
  · exact noPanic_nil
  · exact noPanic_cons (by decide) noPanic_nil

theorem conToks_noPanic {c : Constraint} (h : ConOk c) : NoPanic (conToks c) := by
  have hc : NoPanic [closeTok] := noPanic_cons (by decide) noPanic_nil
  cases c with
  | primaryKey n cs =>
    exact noPanic_cons (by simp) (noPanic_cons (by simp) (noPanic_cons (by simp) (noPanic_append (colToks_noPanic cs) hc)))
  | index n uq cs =>
    exact noPanic_append (uqToks_noPanic uq) (noPanic_cons (by simp) (noPanic_cons (by simp) (noPanic_cons (by simp)
      (noPanic_append (colToks_noPanic cs) hc))))
  | foreignKey n cs r rcs act =>
    exact noPanic_cons (by decide) (noPanic_cons (by simp) (noPanic_cons (by simp) (noPanic_cons (by simp) (noPanic_cons (by simp)
      (noPanic_append (colToks_noPanic cs) (noPanic_cons (by simp) (noPanic_cons (by simp) (noPanic_cons (by simp) (noPanic_cons (by simp)
        (noPanic_append (colToks_noPanic rcs) hc))))))))))
  | check n e =>
    exact noPanic_cons (by decide) (noPanic_cons (by simp) (noPanic_cons (by simp) (noPanic_cons (by simp) (grpWords_ok h.2).1.noPanic)))

/-! ## The list of columns and constraints -/

/-- The items, each behind a comma. -/
def tailToks : List (List Token) → List Token
  | [] => []
  | x :: l => commaTok :: (x ++ tailToks l)

/-- The items, separated by commas. -/
def sepToks : List (List Token) → List Token
  | [] => []
  | x :: l => x ++ tailToks l

theorem tailToks_noPanic {l : List (List Token)} (h : ∀ x ∈ l, NoPanic x) : NoPanic (tailToks l) := by
  induction l with
  | nil => exact noPanic_nil
  | cons x l ih =>
    exact noPanic_cons (by decide) (noPanic_append (h x (by simp)) (ih fun y hy => h y (by simp [hy])))

theorem sepToks_noPanic {l : List (List Token)} (h : ∀ x ∈ l, NoPanic x) : NoPanic (sepToks l) := by
  cases l with
  | nil => exact noPanic_nil
  | cons x l => exact noPanic_append (h x (by simp)) (tailToks_noPanic fun y hy => h y (by simp [hy]))

theorem tailToks_append (a b : List (List Token)) : tailToks (a ++ b) = tailToks a ++ tailToks b := by
  induction a with
  | nil => rfl
  | cons x a ih => simp [tailToks, ih]

theorem tailToks_curT (l : List (List Token)) (rest : List Token) :
    curT (tailToks l ++ closeTok :: rest) ∈ [.COMMA, .CLOSE_PAREN] := by
  cases l <;> simp [tailToks]

theorem itemLines_append (a b : List Str) :
    itemLines (if b = [] then s%"\n" else s%",\n") a ++ itemLines s%"\n" b = itemLines s%"\n" (a ++ b) := by
  cases b with
  | nil => simp [itemLines]
  | cons y b =>
    simp only [List.cons_ne_nil, if_false]
    induction a with
    | nil => simp [itemLines]
    | cons x a ih =>
      cases a with
      | nil => simp [itemLines]
      | cons z a =>
        simp only [itemLines, List.cons_append, List.append_assoc] at ih ⊢
        rw [ih]

theorem lex_itemLines (l : List (Str × List Token))
    (h : ∀ p ∈ l, ∀ s, Start s → lex .mysql (p.1 ++ s) = p.2 ++ lex .mysql s) (s : Str) :
    lex .mysql (itemLines s%"\n" (l.map (·.1)) ++ s) = sepToks (l.map (·.2)) ++ lex .mysql s := by
  have hind : ∀ r, lex .mysql (indent ++ r) = lex .mysql r := by
    intro r
    rw [lex_lit (d := .mysql) (by decide) (by decide) (by decide)]
    rfl
  have hcomma : ∀ r, lex .mysql (s%",\n" ++ r) = commaTok :: lex .mysql r := by
    intro r
    rw [lex_lit (d := .mysql) (by decide) (by decide) (by decide)]
    rfl
  have hnl : ∀ r, lex .mysql (s%"\n" ++ r) = lex .mysql r := fun r => lex_ws .mysql '\n' r rfl
  induction l with
  | nil => rfl
  | cons p l ih =>
    cases l with
    | nil =>
      simp only [List.map_cons, List.map_nil, itemLines, sepToks, tailToks, List.append_nil, List.append_assoc]
      have hs : Start (s%"\n" ++ s) := start_cons (by decide)
      rw [hind, h p (by simp) _ hs, hnl]
    | cons q l =>
      simp only [List.map_cons, itemLines, sepToks, tailToks, List.append_assoc] at ih ⊢
      have hs : ∀ r, Start (s%",\n" ++ r) := fun r => start_cons (by decide)
      rw [hind, h p (by simp) _ (hs _), hcomma, ih fun x hx => h x (by simp [hx])]
      simp

theorem sortPrimaryKey_id {l : List Constraint} (h : ∀ c ∈ l.tail, c.isPrimaryKey = false) : sortPrimaryKey l = l := by
  have key : ∀ (l acc : List Constraint), (∀ c ∈ l, c.isPrimaryKey = false) →
      l.foldl (fun acc c => if c.isPrimaryKey then c :: acc else acc ++ [c]) acc = acc ++ l := by
    intro l
    induction l with
    | nil => simp
    | cons c l ih =>
      intro acc h
      rw [List.foldl_cons, if_neg (by simp [h c (by simp)]), ih _ fun x hx => h x (by simp [hx])]
      simp
  cases l with
  | nil => rfl
  | cons c l =>
    unfold sortPrimaryKey
    rw [List.foldl_cons]
    have : (if c.isPrimaryKey = true then [c] else [] ++ [c]) = [c] := by split <;> rfl
    rw [this, key l _ h]
    rfl

theorem replaceConstraint_new {cs : List Constraint} {c : Constraint} (h : ∀ x ∈ cs, x.name.name ≠ c.name.name) :
    replaceConstraint cs c = none := by
  induction cs with
  | nil => rfl
  | cons x cs ih =>
    rw [replaceConstraint, if_neg (h x (by simp)), ih fun y hy => h y (by simp [hy])]
    rfl

theorem foldl_append_new : ∀ (l cs : List Constraint), NodupNames (cs ++ l) → (∀ c ∈ (cs ++ l).tail, c.isPrimaryKey = false) →
    l.foldl appendConstraint cs = cs ++ l := by
  intro l
  induction l with
  | nil => intro cs _ _; simp
  | cons c l ih =>
    intro cs h hpk
    have happ : appendConstraint cs c = cs ++ [c] := by
      unfold appendConstraint
      rw [replaceConstraint_new]
      · refine sortPrimaryKey_id ?_
        intro x hx
        refine hpk x ?_
        cases cs with
        | nil => simp at hx
        | cons y cs =>
          simp only [List.cons_append, List.tail_cons, List.mem_append, List.mem_cons, List.not_mem_nil, or_false] at hx ⊢
          tauto
      unfold NodupNames at h
      rw [List.map_append, List.nodup_append] at h
      intro x hx e
      exact h.2.2 _ (List.mem_map_of_mem hx) _ (List.mem_map_of_mem (List.mem_cons_self ..)) e
    rw [List.foldl_cons, happ, ih _ (by simpa using h) (by simpa using hpk)]
    simp

/-- The rest of the list is read up to its end. -/
theorem conItems_reads {tbl : Ident} : ∀ (l : List Constraint) (cols : List Column) (cs : List Constraint) (n : Nat) (rest : List Token),
    (∀ c ∈ l, ConOk c ∧ c.Rereadable) → NoPanic rest → (tailToks (l.map conToks)).length + 1 ≤ n →
    tableLoop tbl n cols cs (tailToks (l.map conToks) ++ closeTok :: rest) = .ok (cols, l.foldl appendConstraint cs, rest) := by
  intro l
  induction l with
  | nil =>
    intro cols cs n rest _ hp hn
    obtain ⟨n, rfl⟩ : ∃ k, n = k + 1 := ⟨n - 1, by omega⟩
    simp [tailToks, tableLoop, isConstraint, next_cons (noPanic_cons (t := closeTok) (by decide) hp)]
  | cons c l ih =>
    intro cols cs n rest h hp hn
    obtain ⟨h1, h2⟩ := h c (by simp)
    have hnp : NoPanic (conToks c ++ (tailToks (l.map conToks) ++ closeTok :: rest)) :=
      noPanic_append (conToks_noPanic h1) (noPanic_append (tailToks_noPanic (by
        intro x hx
        obtain ⟨y, hy, rfl⟩ := List.mem_map.1 hx
        exact conToks_noPanic (h y (by simp [hy])).1)) (noPanic_cons (by decide) hp))
    have hnp' : NoPanic (commaTok :: (conToks c ++ (tailToks (l.map conToks) ++ closeTok :: rest))) :=
      noPanic_cons (by decide) hnp
    have hcur : curT (conToks c ++ (tailToks (l.map conToks) ++ closeTok :: rest)) ≠ .IDENT ∧
        isConstraint (curT (conToks c ++ (tailToks (l.map conToks) ++ closeTok :: rest))) = true ∧ 2 ≤ (conToks c).length := by
      cases c with
      | index n uq cs => cases uq <;> simp [conToks, uqToks, isConstraint]
      | _ => simp [conToks, constraintTok, isConstraint]
    have hlen := hcur.2.2
    simp only [List.map_cons, tailToks, List.cons_append, List.append_assoc, List.length_cons, List.length_append] at hn ⊢
    obtain ⟨n, rfl⟩ : ∃ k, n = k + 2 := ⟨n - 2, by omega⟩
    rw [tableLoop]
    simp only [curT_cons, commaTok_type, next_cons hnp', bind_ok]
    rw [if_neg (by decide), if_neg (by decide), if_pos trivial]
    rw [tableLoop, if_neg hcur.1, if_pos hcur.2.1, parseTableConstraint_reads h1 h2 (tailToks_curT _ _) hnp]
    simp only [bind_ok]
    exact ih cols _ n rest (fun x hx => h x (by simp [hx])) hp (by omega)

/-- The tokens with which the column is printed. -/
noncomputable def printToks (c : Column) : List Token := by
  classical exact if h : ∃ us, ColOk c us then h.choose else []

theorem printToks_ok {c : Column} (h : ∃ us, ColOk c us) : ColOk c (printToks c) := by
  unfold printToks
  rw [dif_pos h]
  exact h.choose_spec

theorem colItems_reads {tbl : Ident} (con : List Constraint) (hcon : ∀ c ∈ con, ConOk c ∧ c.Rereadable)
    {rest : List Token} (hp : NoPanic rest) :
    ∀ (l cols : List Column) (n : Nat), (∀ c ∈ l, (∃ us, ColOk c us) ∧ c.Rereadable) →
    (tailToks (l.map printToks ++ con.map conToks)).length + 1 ≤ n →
    tableLoop tbl n cols [] (tailToks (l.map printToks ++ con.map conToks) ++ closeTok :: rest) =
      .ok (cols ++ l, con.foldl appendConstraint [], rest) ∧
    ∀ c l', l = c :: l' → tableLoop tbl n cols [] (tailToks (l.map printToks ++ con.map conToks) ++ closeTok :: rest).tail =
      .ok (cols ++ l, con.foldl appendConstraint [], rest) := by
  intro l
  induction l with
  | nil =>
    intro cols n _ hn
    simp only [List.map_nil, List.nil_append, List.append_nil] at hn ⊢
    exact ⟨conItems_reads con cols [] n rest hcon hp hn, fun _ _ e => by cases e⟩
  | cons c l ih =>
    intro cols n h hn
    have hc := printToks_ok (h c (by simp)).1
    have hai : c.default ≠ none → c.autoIncrement = false := by
      intro hd
      cases e : c.default with
      | none => exact absurd e hd
      | some d => exact ((h c (by simp)).2.2 d e).2
    have hall : ∀ x ∈ l.map printToks ++ con.map conToks, NoPanic x := by
      intro x hx
      rcases List.mem_append.1 hx with hx | hx <;> obtain ⟨y, hy, rfl⟩ := List.mem_map.1 hx
      · exact (printToks_ok (h y (by simp [hy])).1).noPanic
      · exact conToks_noPanic (hcon y hy).1
    have hnp : NoPanic (printToks c ++ (tailToks (l.map printToks ++ con.map conToks) ++ closeTok :: rest)) :=
      noPanic_append hc.noPanic (noPanic_append (tailToks_noPanic hall) (noPanic_cons (by decide) hp))
    have hnp' := noPanic_cons (t := commaTok) (by decide) hnp
    have hlen : 1 ≤ (printToks c).length ∧ ∀ r, curT (printToks c ++ r) = .IDENT := by
      obtain ⟨_, us, g, ga, ty, _, _, _, _, _, _, _, _, e⟩ := hc
      rw [e]
      simp
    have step : ∀ m, (tailToks (l.map printToks ++ con.map conToks)).length + 1 ≤ m →
        tableLoop tbl (m + 1) cols [] (printToks c ++ (tailToks (l.map printToks ++ con.map conToks) ++ closeTok :: rest)) =
          .ok (cols ++ c :: l, con.foldl appendConstraint [], rest) := by
      intro m hm
      rw [tableLoop, if_pos (hlen.2 _), parseColumn_reads hc hai (tailToks_curT _ _) hnp]
      simp only [bind_ok, List.foldl_nil]
      rw [(ih (cols ++ [c]) m (fun x hx => h x (by simp [hx])) hm).1]
      simp
    have hl := hlen.1
    simp only [List.map_cons, tailToks, List.cons_append, List.append_assoc, List.length_cons, List.length_append, List.tail_cons] at hn ⊢
    obtain ⟨n, rfl⟩ : ∃ k, n = k + 2 := ⟨n - 2, by omega⟩
    refine ⟨?_, fun _ _ _ => step (n + 1) (by omega)⟩
    rw [tableLoop]
    simp only [curT_cons, commaTok_type, next_cons hnp', bind_ok]
    rw [if_neg (by decide), if_neg (by decide), if_pos trivial]
    exact step n (by omega)

theorem items_read {tbl : Ident} {cols : List Column} {con : List Constraint} (hcols : ∀ c ∈ cols, (∃ us, ColOk c us) ∧ c.Rereadable)
    (hcon : ∀ c ∈ con, ConOk c ∧ c.Rereadable) {rest : List Token} (hp : NoPanic rest) {n : Nat}
    (hn : (sepToks (cols.map printToks ++ con.map conToks)).length + 2 ≤ n) :
    tableLoop tbl n [] [] (sepToks (cols.map printToks ++ con.map conToks) ++ closeTok :: rest) =
      .ok (cols, con.foldl appendConstraint [], rest) := by
  cases cols with
  | cons c cols =>
    have := (colItems_reads (tbl := tbl) con hcon hp (c :: cols) [] n hcols (by simp [tailToks, sepToks] at hn ⊢; omega)).2 c cols rfl
    simpa [tailToks, sepToks] using this
  | nil =>
    cases con with
    | nil =>
      have := conItems_reads (tbl := tbl) [] [] [] n rest (by simp) hp (by simp [tailToks, sepToks] at hn ⊢; omega)
      simpa [tailToks, sepToks] using this
    | cons c con =>
      obtain ⟨n, rfl⟩ : ∃ k, n = k + 1 := ⟨n - 1, by omega⟩
      have := conItems_reads (tbl := tbl) (c :: con) [] [] (n + 2) rest hcon hp (by simp [tailToks, sepToks] at hn ⊢; omega)
      simp only [List.map_cons, tailToks, List.cons_append] at this
      rw [tableLoop] at this
      simp only [List.map_nil, List.nil_append, List.map_cons, sepToks]
      have hnp : NoPanic (commaTok :: (conToks c ++ tailToks (con.map conToks) ++ closeTok :: rest)) :=
        noPanic_cons (by decide) (noPanic_append (noPanic_append (conToks_noPanic (hcon c (by simp)).1) (tailToks_noPanic (by
          intro x hx
          obtain ⟨y, hy, rfl⟩ := List.mem_map.1 hx
          exact conToks_noPanic (hcon y (by simp [hy])).1))) (noPanic_cons (by decide) hp))
      simp only [curT_cons, commaTok_type, next_cons hnp, bind_ok] at this
      rw [if_neg (by decide), if_neg (by decide), if_pos trivial] at this
      exact this

/-! ## Options -/

def eqTok : Token := ⟨.EQUAL, s%"="⟩

/-- The option, as it was read. -/
def OptOk (o : TableOption) : Prop :=
  o.name ∈ [s%"ENGINE", s%"AUTO_INCREMENT", s%"DEFAULT CHARSET", s%"COLLATE", s%"COMMENT"] ∧ ∃ i, NameOk i ∧ o.value = [i]

/-- The tokens of an option. -/
def optToks (o : TableOption) : List Token := lex .mysql o.name ++ eqTok :: o.value.map nameTok

theorem parseOptionValue_post {ts : List Token} (hL : AllTok L ts) :
    Post (fun r => (∃ i, NameOk i ∧ r.1 = [i]) ∧ AllTok L r.2) (parseOptionValue ts) := by
  unfold parseOptionValue
  refine Post.next_bind (Post.checkCur_bind (fun _ => Post.next_bind (Post.checkCur_bind (fun hc => Post.ok ?_))))
  exact ⟨⟨_, nameOk_cur hL.tail.tail (by simpa using hc), rfl⟩, hL.tail.tail⟩

theorem parseOption_post {ts : List Token} (hL : AllTok L ts) : Post (fun r => OptOk r.1 ∧ AllTok L r.2) (parseOption ts) := by
  have step : ∀ (name : Str) (ts : List Token), AllTok L ts →
      name ∈ [s%"ENGINE", s%"AUTO_INCREMENT", s%"DEFAULT CHARSET", s%"COLLATE", s%"COMMENT"] →
      Post (fun r => OptOk r.1 ∧ AllTok L r.2) (do let (v, ts) ← parseOptionValue ts; .ok (⟨name, v⟩, ts)) := by
    intro name ts hL hn
    refine (parseOptionValue_post hL).bind ?_
    rintro ⟨v, ts₁⟩ ⟨hv, h₁⟩
    exact Post.ok ⟨⟨hn, hv⟩, h₁⟩
  unfold parseOption
  split
  · exact step _ _ hL (by simp)
  split
  · exact step _ _ hL (by simp)
  split
  · exact Post.checkPeek_bind (fun _ => Post.next_bind (step _ _ hL.tail (by simp)))
  split
  · exact step _ _ hL (by simp)
  split
  · exact step _ _ hL (by simp)
  · exact trivial

theorem optionsLoop_post : ∀ (n : Nat) (ts : List Token), AllTok L ts →
    Post (fun r => (∀ o ∈ r.1, OptOk o) ∧ AllTok L r.2) (optionsLoop n ts) := by
  intro n
  induction n with
  | zero => intros; exact trivial
  | succ n ih =>
    intro ts hL
    unfold optionsLoop
    split
    · exact Post.ok ⟨by simp, hL⟩
    · refine (parseOption_post hL).bind ?_
      rintro ⟨o, ts₁⟩ ⟨ho, h₁⟩
      refine Post.next_bind ((ih _ (AllTok.tail h₁)).bind ?_)
      rintro ⟨r, ts₂⟩ ⟨hr, h₂⟩
      refine Post.ok ⟨?_, h₂⟩
      intro x hx
      rcases List.mem_cons.1 hx with rfl | hx
      · exact ho
      · exact hr x hx

theorem optToks_noPanic {o : TableOption} (h : OptOk o) : NoPanic (optToks o) := by
  obtain ⟨h1, i, _, h2⟩ := h
  refine noPanic_append ?_ (noPanic_cons (by decide) ?_)
  · revert h1
    generalize o.name = n
    simp only [List.mem_cons, List.not_mem_nil, or_false]
    rintro (rfl | rfl | rfl | rfl | rfl) <;> (intro t ht; revert t; decide)
  · rw [h2]
    exact noPanic_cons (by simp) noPanic_nil

theorem parseOption_reads {o : TableOption} (h : OptOk o) {rest : List Token} (hp : NoPanic (optToks o ++ rest)) :
    ∃ k, parseOption (optToks o ++ rest) = .ok (o, k :: rest) ∧ NoPanic (k :: rest) ∧ curT (optToks o ++ rest) ∉ [.SEMICOLON, .EOF] := by
  obtain ⟨name, v⟩ := o
  obtain ⟨h1, i, h2, h3⟩ := h
  simp only at h1 h3
  subst h3
  have hval : ∀ (t : Token), NoPanic (t :: eqTok :: nameTok i :: rest) →
      parseOptionValue (t :: eqTok :: nameTok i :: rest) = .ok ([i], nameTok i :: rest) := by
    intro t ht
    simp [parseOptionValue, checkCur, next_cons ht, next_cons ht.of_cons, eqTok, ← h2.1]
    simp [eqTok] at ht
    simp [next_cons ht, next_cons ht.of_cons, ← h2.1]
  refine ⟨nameTok i, ?_⟩
  unfold optToks at hp ⊢
  simp only [List.mem_cons, List.not_mem_nil, or_false] at h1
  have e1 : lex .mysql s%"ENGINE" = [⟨.ENGINE, s%"ENGINE"⟩] := by decide
  have e2 : lex .mysql s%"AUTO_INCREMENT" = [⟨.AUTO_INCREMENT, s%"AUTO_INCREMENT"⟩] := by decide
  have e3 : lex .mysql s%"DEFAULT CHARSET" = [⟨.DEFAULT, s%"DEFAULT"⟩, ⟨.CHARSET, s%"CHARSET"⟩] := by decide
  have e4 : lex .mysql s%"COLLATE" = [⟨.COLLATE, s%"COLLATE"⟩] := by decide
  have e5 : lex .mysql s%"COMMENT" = [⟨.COMMENT, s%"COMMENT"⟩] := by decide
  rcases h1 with rfl | rfl | rfl | rfl | rfl
  · simp only [e1, List.map_cons, List.map_nil, List.cons_append, List.nil_append] at hp ⊢
    exact ⟨by simp [parseOption, hval _ hp], hp.of_cons.of_cons, by simp⟩
  · simp only [e2, List.map_cons, List.map_nil, List.cons_append, List.nil_append] at hp ⊢
    exact ⟨by simp [parseOption, hval _ hp], hp.of_cons.of_cons, by simp⟩
  · simp only [e3, List.map_cons, List.map_nil, List.cons_append, List.nil_append] at hp ⊢
    exact ⟨by simp [parseOption, checkPeek, next_cons hp, hval _ hp.of_cons], hp.of_cons.of_cons.of_cons, by simp⟩
  · simp only [e4, List.map_cons, List.map_nil, List.cons_append, List.nil_append] at hp ⊢
    exact ⟨by simp [parseOption, hval _ hp], hp.of_cons.of_cons, by simp⟩
  · simp only [e5, List.map_cons, List.map_nil, List.cons_append, List.nil_append] at hp ⊢
    exact ⟨by simp [parseOption, hval _ hp], hp.of_cons.of_cons, by simp⟩

theorem optionsLoop_reads {rest : List Token} (hr : curT rest = .SEMICOLON) : ∀ (l : List TableOption), (∀ o ∈ l, OptOk o) → ∀ (n : Nat),
    (l.map optToks).flatten.length + 1 ≤ n → NoPanic ((l.map optToks).flatten ++ rest) →
    optionsLoop n ((l.map optToks).flatten ++ rest) = .ok (l, rest) := by
  intro l
  induction l with
  | nil =>
    intro _ n hn _
    obtain ⟨n, rfl⟩ : ∃ k, n = k + 1 := ⟨n - 1, by omega⟩
    simp [optionsLoop, hr]
  | cons o l ih =>
    intro h n hn hp
    simp only [List.map_cons, List.flatten_cons, List.append_assoc, List.length_append] at hn hp ⊢
    obtain ⟨n, rfl⟩ : ∃ k, n = k + 1 := ⟨n - 1, by omega⟩
    obtain ⟨k, e, hk, hc⟩ := parseOption_reads (h o (by simp)) hp
    have hlen : 1 ≤ (optToks o).length := by simp [optToks]; omega
    simp only [List.mem_cons, List.not_mem_nil, or_false, not_or] at hc
    rw [optionsLoop, if_neg (by simp only [hc, or_self, not_false_eq_true]), e]
    simp only [bind_ok, next_cons hk]
    rw [ih (fun x hx => h x (by simp [hx])) n (by omega) hk.of_cons]
    simp only [bind_ok]

theorem lex_option {o : TableOption} (h : OptOk o) {s : Str} (hs : Start s) : lex .mysql (o.str ++ s) = optToks o ++ lex .mysql s := by
  obtain ⟨name, v⟩ := o
  obtain ⟨h1, i, h2, h3⟩ := h
  simp only at h1 h3
  subst h3
  have eq : ∀ r, Start (s%"=" ++ r) := fun r => start_cons (by decide)
  have heq : ∀ r, lex .mysql (s%"=" ++ r) = eqTok :: lex .mysql r := fun r => lex_symbol .mysql '=' .EQUAL r (by decide) (by simp)
  have hl : ∀ r, lex .mysql (name ++ (s%"=" ++ r)) = lex .mysql name ++ lex .mysql (s%"=" ++ r) := by
    intro r
    simp only [List.mem_cons, List.not_mem_nil, or_false] at h1
    rcases h1 with rfl | rfl | rfl | rfl | rfl <;>
      exact lex_lit_start (d := .mysql) (by decide) (by decide) (by decide) (eq _)
  simp only [TableOption.str, exprStr, exprStrFrom, Ident.str, List.append_assoc, optToks, List.map_cons, List.map_nil, List.nil_append]
  rw [hl, heq, lex_name h2 hs]
  simp only [List.cons_append, List.nil_append]

theorem lex_options {s : Str} (hs : Start s) : ∀ l : List TableOption, (∀ o ∈ l, OptOk o) →
    Start ((if l = [] then [] else s%" " ++ join s%" " (l.map TableOption.str)) ++ s) ∧
    lex .mysql ((if l = [] then [] else s%" " ++ join s%" " (l.map TableOption.str)) ++ s) = (l.map optToks).flatten ++ lex .mysql s := by
  have hblank : ∀ r, lex .mysql (s%" " ++ r) = lex .mysql r := fun r => lex_ws .mysql ' ' r rfl
  have sp : ∀ r, Start (s%" " ++ r) := fun r => start_cons (by decide)
  intro l
  induction l with
  | nil => intro _; exact ⟨hs, rfl⟩
  | cons o l ih =>
    intro h
    have ih := ih fun x hx => h x (by simp [hx])
    refine ⟨start_cons (by decide), ?_⟩
    rw [if_neg (by simp), List.append_assoc, hblank]
    cases l with
    | nil => simp [join, lex_option (h o (by simp)) hs]
    | cons p l =>
      rw [if_neg (by simp)] at ih
      have ih := ih.2
      simp only [List.map_cons, join, List.append_assoc, List.flatten_cons] at ih ⊢
      rw [lex_option (h o (by simp)) (sp _), ih]

/-! ## Tables -/

/-- The table, as it was read. -/
def TabOk (t : CreateTable) : Prop :=
  t.comment = [] ∧ (∃ raw, L ⟨.IDENT, raw⟩ ∧ t.name = newObjectName .mysql raw) ∧
  (∀ c ∈ t.columns, Valued c → ∃ us, ColOk c us) ∧ (∀ c ∈ t.constraints, ConOk c) ∧ ∀ o ∈ t.options, OptOk o

/-- The index, as it was read. -/
def IdxOk (i : CreateIndex) : Prop :=
  i.comment = [] ∧ (∃ raw, L ⟨.IDENT, raw⟩ ∧ i.name = newObjectName .mysql raw) ∧
  (∃ raw, L ⟨.IDENT, raw⟩ ∧ i.tableName = newObjectName .mysql raw) ∧
  (i.using_ = [] ∨ ∃ t, L t ∧ i.using_ = [newIdent t.lit [] t.lit]) ∧ ∀ c ∈ i.columns, NameOk c.ident

theorem tableLoop_post {tbl : Ident} : ∀ (n : Nat) (cols : List Column) (cs : List Constraint) (ts : List Token), AllTok L ts →
    (∀ c ∈ cols, Valued c → ∃ us, ColOk c us) → (∀ c ∈ cs, ConOk c) →
    Post (fun r => (∀ c ∈ r.1, Valued c → ∃ us, ColOk c us) ∧ (∀ c ∈ r.2.1, ConOk c) ∧ AllTok L r.2.2)
      (tableLoop tbl n cols cs ts) := by
  intro n
  induction n with
  | zero => intros; exact trivial
  | succ n ih =>
    intro cols cs ts hL hcols hcs
    unfold tableLoop
    split
    · refine (parseColumn_post hL).bind ?_
      rintro ⟨col, ccs, ts₁⟩ ⟨h1, h2, h3⟩
      refine ih _ _ _ h3 ?_ ?_
      · intro c hc
        rcases List.mem_append.1 hc with hc | hc
        · exact hcols c hc
        · simp only [List.mem_singleton] at hc
          subst hc
          exact h1
      · intro c hc
        rcases foldl_append_mem c hc with h | h
        · exact hcs c h
        · exact h2 c h
    split
    · refine (parseTableConstraint_post hL).bind ?_
      rintro ⟨c, ts₁⟩ ⟨h1, h2⟩
      refine ih _ _ _ h2 hcols ?_
      intro x hx
      rcases appendConstraint_mem x hx with h | rfl
      · exact hcs x h
      · exact h1
    split
    · exact Post.next_bind (ih _ _ _ hL.tail hcols hcs)
    split
    · exact Post.next_bind (Post.ok ⟨hcols, hcs, hL.tail⟩)
    · exact trivial

theorem parseCreateTable_post {ts : List Token} (hL : AllTok L ts) :
    Post (fun r => TabOk r.1 ∧ AllTok L r.2) (parseCreateTable ts) := by
  unfold parseCreateTable
  refine (parseIfNotExists_post hL).bind ?_
  rintro ⟨ine, ts₁⟩ h1
  refine Post.next_bind (Post.checkCur_bind (fun hc => Post.next_bind (Post.checkCur_bind (fun _ => Post.next_bind ?_))))
  simp only [List.mem_singleton] at hc
  refine (tableLoop_post _ [] [] _ (AllTok.tail (AllTok.tail (AllTok.tail h1))) (by simp) (by simp)).bind ?_
  rintro ⟨cols, cs, ts₂⟩ ⟨h2, h3, h4⟩
  refine (optionsLoop_post _ _ h4).bind ?_
  rintro ⟨opts, ts₃⟩ ⟨h5, h6⟩
  exact Post.ok ⟨⟨rfl, ⟨_, (AllTok.tail h1).ident hc (by decide), rfl⟩, h2, h3, h5⟩, h6⟩

theorem parseUsing_post {ts : List Token} (hL : AllTok L ts) :
    Post (fun r => (r.1 = [] ∨ (∃ t, L t ∧ r.1 = [newIdent t.lit [] t.lit]) ∨ r.2 = []) ∧ AllTok L r.2) (parseUsing ts) := by
  unfold parseUsing
  split
  · refine Post.next_bind (Post.next_bind (Post.ok ⟨?_, hL.tail.tail⟩))
    right
    cases e : ts.tail with
    | nil => exact Or.inr rfl
    | cons t r => exact Or.inl ⟨t, hL.tail t (by simp [e]), rfl⟩
  · exact Post.ok ⟨Or.inl rfl, hL⟩

theorem parseCreateIndex_post {ts : List Token} (hL : AllTok L ts) :
    Post (fun r => IdxOk r.1 ∧ AllTok L r.2) (parseCreateIndex ts) := by
  have huq : Post (fun r => AllTok L r.2) (parseUnique ts) := by
    unfold parseUnique
    split
    · exact Post.next_bind (Post.ok hL.tail)
    · exact Post.ok hL
  unfold parseCreateIndex
  refine huq.bind ?_
  rintro ⟨uq, ts₀⟩ h0
  refine (parseIfNotExists_post h0).bind ?_
  rintro ⟨ine, ts₁⟩ h1
  refine Post.next_bind (Post.checkCur_bind (fun hc => Post.next_bind (Post.checkCur_bind (fun _ => Post.next_bind
    (Post.checkCur_bind (fun hc2 => Post.next_bind ?_))))))
  simp only [List.mem_singleton] at hc hc2
  have h1' : AllTok L ts₁.tail := AllTok.tail h1
  have h4 : AllTok L ts₁.tail.tail.tail.tail := h1'.tail.tail.tail
  generalize ts₁.tail.tail.tail.tail = us at h4
  refine (parseUsing_post h4).bind ?_
  rintro ⟨u, ts₅⟩ ⟨hu, h5⟩
  refine Post.checkCur_bind (fun hc5 => ?_)
  refine (parseColumnIdents_post h5).bind ?_
  rintro ⟨ids, ts₆⟩ ⟨h6, h7⟩
  refine Post.ok ⟨⟨rfl, ⟨_, h1'.ident hc (by decide), rfl⟩, ⟨_, h1'.tail.tail.ident hc2 (by decide), rfl⟩, ?_, h6⟩, h7⟩
  rcases hu with hu | hu | hu
  · exact Or.inl hu
  · exact Or.inr hu
  · simp only at hu
    subst hu
    exact absurd hc5 (by decide)

/-- The statement, as it was read. -/
def StmtOk : MStmt → Prop
  | .createTable t => TabOk t
  | .createIndex i => IdxOk i
  | _ => False

theorem parseCreate_post {ts : List Token} (hL : AllTok L ts) : Post (fun r => StmtOk r.1 ∧ AllTok L r.2) (parseCreate ts) := by
  unfold parseCreate
  refine Post.next_bind ?_
  split
  · refine (parseCreateTable_post hL.tail).bind ?_
    rintro ⟨t, ts₁⟩ h
    exact Post.ok h
  split
  · refine (parseCreateIndex_post hL.tail).bind ?_
    rintro ⟨t, ts₁⟩ h
    exact Post.ok h
  · exact trivial

theorem parseLoop_post : ∀ (n : Nat) (ts : List Token), AllTok L ts →
    Post (fun l => ∀ s ∈ l, StmtOk s) (parseLoop parseCreate n ts) := by
  intro n
  induction n with
  | zero => intros; exact trivial
  | succ n ih =>
    intro ts hL
    unfold parseLoop
    split
    · refine (parseCreate_post hL).bind ?_
      rintro ⟨s, ts₁⟩ ⟨h1, h2⟩
      refine Post.next_bind ((ih _ (AllTok.tail h2)).bind ?_)
      intro l hl
      refine Post.ok ?_
      intro x hx
      rcases List.mem_cons.1 hx with rfl | hx
      · exact h1
      · exact hl x hx
    split
    · exact Post.next_bind (ih _ hL.tail)
    split
    · exact Post.ok (by simp)
    · exact trivial

theorem parse_post {s : Str} (hL : AllTok L (lex .mysql s)) {l : List MStmt} (h : parse s = .ok l) : ∀ x ∈ l, StmtOk x := by
  unfold parse parseTokens start at h
  split at h
  · cases h
  · exact (parseLoop_post _ _ hL).get h

/-! ## Reading the printed statements -/

def semiTok : Token := ⟨.SEMICOLON, s%";"⟩
def createTok : Token := ⟨.CREATE, s%"CREATE"⟩
def ineToks (b : Bool) : List Token := if b then [⟨.IF, s%"IF"⟩, notTok, ⟨.EXISTS, s%"EXISTS"⟩] else []

@[simp] theorem notTok_type : notTok.type = .NOT := rfl
@[simp] theorem semiTok_type : semiTok.type = .SEMICOLON := rfl
@[simp] theorem createTok_type : createTok.type = .CREATE := rfl

/-- The tokens of a table. -/
noncomputable def tabToks (t : CreateTable) : List Token :=
  createTok :: ⟨.TABLE, s%"TABLE"⟩ :: (ineToks t.ifNotExists ++ ⟨.IDENT, t.name.str⟩ :: openTok ::
    (sepToks (t.columns.map printToks ++ t.constraints.map conToks) ++ closeTok :: ((t.options.map optToks).flatten ++ [semiTok])))

/-- The tokens of the method of an index. -/
def usingToks (u : List Ident) (t : Token) : List Token := if u = [] then [] else [⟨.USING, s%"USING"⟩, t]

/-- The tokens of an index, with the method `u`. -/
def idxToks (i : CreateIndex) (u : Token) : List Token :=
  createTok :: (uqToks i.isUnique ++ ⟨.INDEX, s%"INDEX"⟩ :: (ineToks i.ifNotExists ++
    ⟨.IDENT, i.name.str⟩ :: ⟨.ON, s%"ON"⟩ :: ⟨.IDENT, i.tableName.str⟩ :: (usingToks i.using_ u ++ openTok :: (colToks i.columns ++
      [closeTok, semiTok]))))

theorem Column.Rereadable.valued {c : Column} (h : c.Rereadable) : Valued c :=
  ⟨h.1, fun e => (h.2 _ e).1 rfl⟩

theorem objName_ok {n : ObjectName} (h : ∃ raw, L ⟨.IDENT, raw⟩ ∧ n = newObjectName .mysql raw) :
    L ⟨.IDENT, n.str⟩ ∧ n = newObjectName .mysql n.str := by
  obtain ⟨raw, h, rfl⟩ := h
  rw [objectName_str h]
  exact ⟨h, rfl⟩

theorem ine_lex (b : Bool) (r : Str) :
    lex .mysql ((if b then s%"IF NOT EXISTS " else []) ++ r) = ineToks b ++ lex .mysql r := by
  cases b with
  | false => rfl
  | true =>
    simp only [if_true]
    rw [lex_lit (d := .mysql) (by decide) (by decide) (by decide)]
    rfl

theorem lex_tok {t : Token} (h : L t) {s : Str} (hs : Start s) : lex .mysql (t.lit ++ s) = t :: lex .mysql s :=
  lex_lx h hs.apart

theorem ineToks_read (b : Bool) {k t : Token} {rest : List Token} (ht : t.type ≠ .IF) (hp : NoPanic (k :: (ineToks b ++ t :: rest))) :
    ∃ k', parseIfNotExists (k :: (ineToks b ++ t :: rest)) = .ok (b, k' :: t :: rest) ∧ NoPanic (k' :: t :: rest) := by
  cases b with
  | false =>
    refine ⟨k, ?_, hp⟩
    simp [parseIfNotExists, ineToks, peekT_cons, ht]
  | true =>
    simp only [ineToks, if_true, List.cons_append, List.nil_append] at hp ⊢
    refine ⟨⟨.EXISTS, s%"EXISTS"⟩, ?_, hp.of_cons.of_cons.of_cons⟩
    simp [parseIfNotExists, peekT_cons, checkPeek, next_cons hp, next_cons hp.of_cons, next_cons hp.of_cons.of_cons]

theorem lex_createTable {t : CreateTable} (h : TabOk t) (hR : t.Rereadable) (s : Str) :
    lex .mysql (t.str ++ s) = tabToks t ++ lex .mysql s := by
  obtain ⟨hcom, hname, hcols, hcons, hopt⟩ := h
  have hn := objName_ok hname
  have op : ∀ r, Start (s%" (\n" ++ r) := fun r => start_cons (by decide)
  have hitems := lex_itemLines (t.columns.map (fun c => (c.str, printToks c)) ++ t.constraints.map (fun c => (c.str, conToks c))) (by
    intro p hp s hs
    rcases List.mem_append.1 hp with hp | hp <;> obtain ⟨c, hc, rfl⟩ := List.mem_map.1 hp
    · exact lex_column (printToks_ok (hcols c hc (hR.1 c hc).valued)) hs
    · exact lex_constraint (hcons c hc) (hR.2.1 c hc) hs)
  simp only [List.map_append, List.map_map, Function.comp_def] at hitems
  have hopts := lex_options (s := s%";\n" ++ s) (start_cons (by decide)) t.options hopt
  unfold CreateTable.str tabToks
  rw [hcom]
  simp only [commentStr, if_true, List.nil_append, List.append_assoc]
  have hlast : (if t.constraints = [] then s%"\n" else s%",\n") = if t.constraints.map Constraint.str = [] then s%"\n" else s%",\n" := by
    simp
  rw [hlast, ← List.append_assoc (itemLines _ _), itemLines_append]
  rw [lex_lit (d := .mysql) (by decide) (by decide) (by decide), ine_lex, lex_tok hn.1 (op _),
    lex_lit (d := .mysql) (by decide) (by decide) (by decide), hitems,
    lex_lit_start (d := .mysql) (by decide) (by decide) (by decide) hopts.1, hopts.2,
    lex_lit (d := .mysql) (by decide) (by decide) (by decide)]
  simp only [List.append_assoc, List.cons_append, List.nil_append]
  rfl

theorem ineToks_noPanic (b : Bool) : NoPanic (ineToks b) := by
  cases b
  · exact noPanic_nil
  · exact noPanic_cons (by decide) (noPanic_cons (by decide) (noPanic_cons (by decide) noPanic_nil))

theorem options_noPanic {l : List TableOption} (h : ∀ o ∈ l, OptOk o) : NoPanic (l.map optToks).flatten := by
  induction l with
  | nil => exact noPanic_nil
  | cons o l ih => exact noPanic_append (optToks_noPanic (h o (by simp))) (ih fun x hx => h x (by simp [hx]))

theorem tabToks_noPanic {t : CreateTable} (hcols : ∀ c ∈ t.columns, ∃ us, ColOk c us) (hcon : ∀ c ∈ t.constraints, ConOk c)
    (hopt : ∀ o ∈ t.options, OptOk o) : NoPanic (tabToks t) := by
  refine noPanic_cons (by decide) (noPanic_cons (by decide) (noPanic_append (ineToks_noPanic _) (noPanic_cons (by simp)
    (noPanic_cons (by decide) (noPanic_append (sepToks_noPanic ?_) (noPanic_cons (by decide) (noPanic_append (options_noPanic hopt)
      (noPanic_cons (by decide) noPanic_nil))))))))
  intro y hy
  rcases List.mem_append.1 hy with hx | hx <;> obtain ⟨z, hz, rfl⟩ := List.mem_map.1 hx
  · exact (printToks_ok (hcols z hz)).noPanic
  · exact conToks_noPanic (hcon z hz)

theorem parseCreate_readsTable {t : CreateTable} (h : TabOk t) (hR : t.Rereadable)
    {rest : List Token} (hp : NoPanic rest) :
    parseCreate (tabToks t ++ rest) =
      .ok (.createTable { t with constraints := t.constraints.foldl appendConstraint [] }, semiTok :: rest) := by
  obtain ⟨hcom, hname, hcols, hcons, hopt⟩ := h
  have hn := objName_ok hname
  have hcols' : ∀ c ∈ t.columns, ∃ us, ColOk c us := fun c hc => hcols c hc (hR.1 c hc).valued
  have hp0 := noPanic_append (tabToks_noPanic hcols' hcons hopt) hp
  unfold tabToks at hp0 ⊢
  simp only [List.cons_append, List.append_assoc, List.nil_append] at hp0 ⊢
  have hp1 := hp0.of_cons
  obtain ⟨k, e, hk⟩ := ineToks_read t.ifNotExists (by simp) hp1
  have hs : NoPanic ((t.options.map optToks).flatten ++ semiTok :: rest) := noPanic_append (options_noPanic hopt) (noPanic_cons (by decide) hp)
  have hit := items_read (tbl := t.name.name) (fun c hc => ⟨hcols' c hc, hR.1 c hc⟩) (fun c hc => ⟨hcons c hc, hR.2.1 c hc⟩) hs
    (n := (sepToks (t.columns.map printToks ++ t.constraints.map conToks) ++ closeTok :: ((t.options.map optToks).flatten ++ semiTok :: rest)).length + 1)
    (by simp)
  have hopts := optionsLoop_reads (rest := semiTok :: rest) (by simp) t.options hopt
    (((t.options.map optToks).flatten ++ semiTok :: rest).length + 1) (by simp) hs
  unfold parseCreate
  simp only [next_cons hp0, bind_ok, curT_cons, if_true]
  unfold parseCreateTable
  simp only [e, bind_ok, next_cons hk, next_cons hk.of_cons, next_cons hk.of_cons.of_cons, checkCur, curT_cons, List.mem_singleton, if_true,
    openTok_type, curL_cons, ← hn.2, hit, hopts]
  obtain ⟨c, i, n, cols, cs, o⟩ := t
  simp only at hcom
  subst hcom
  rfl

/-! ## Indexes -/

theorem idxToks_noPanic {i : CreateIndex} {u : Token} (hu : i.using_ = [] ∨ L u) : NoPanic (idxToks i u) := by
  refine noPanic_cons (by decide) (noPanic_append (uqToks_noPanic _) (noPanic_cons (by decide) (noPanic_append (ineToks_noPanic _)
    (noPanic_cons (by simp) (noPanic_cons (by decide) (noPanic_cons (by simp) (noPanic_append ?_ (noPanic_cons (by decide)
      (noPanic_append (colToks_noPanic _) (noPanic_cons (by decide) (noPanic_cons (by decide) noPanic_nil)))))))))))
  unfold usingToks
  split
  · exact noPanic_nil
  · rename_i hne
    exact noPanic_cons (by decide) (noPanic_cons (hu.resolve_left hne).noPanic noPanic_nil)

theorem parseCreate_readsIndex {i : CreateIndex} (h : IdxOk i) {u : Token}
    (hu : i.using_ = [] ∨ (L u ∧ i.using_ = [newIdent u.lit [] u.lit])) {rest : List Token} (hp : NoPanic rest) :
    parseCreate (idxToks i u ++ rest) = .ok (.createIndex i, semiTok :: rest) := by
  obtain ⟨hcom, hname, htbl, _, hcols⟩ := h
  have hn := objName_ok htbl
  have hnm := objName_ok hname
  have hp0 := noPanic_append (idxToks_noPanic (i := i) (u := u) (hu.imp_right (·.1))) hp
  unfold idxToks at hp0 ⊢
  simp only [List.cons_append, List.append_assoc, List.nil_append] at hp0 ⊢
  have hp1 := hp0.of_cons
  have huq : ∀ r, NoPanic (uqToks i.isUnique ++ ⟨.INDEX, s%"INDEX"⟩ :: r) →
      parseUnique (uqToks i.isUnique ++ ⟨.INDEX, s%"INDEX"⟩ :: r) = .ok (i.isUnique, ⟨.INDEX, s%"INDEX"⟩ :: r) ∧
      curT (uqToks i.isUnique ++ (⟨.INDEX, s%"INDEX"⟩ : Token) :: r) ∈ [.INDEX, .UNIQUE] := by
    intro r hr
    revert hr
    cases i.isUnique with
    | false => simp [parseUnique, uqToks]
    | true =>
      simp only [uqToks, if_true, List.cons_append, List.nil_append]
      intro hr
      simp [parseUnique, next_cons hr]
  obtain ⟨k, e, hk⟩ := ineToks_read i.ifNotExists (by simp) hp1.of_append
  have husing : ∀ r, NoPanic (⟨.IDENT, i.tableName.str⟩ :: (usingToks i.using_ u ++ openTok :: r)) →
      parseUsing (usingToks i.using_ u ++ openTok :: r) = .ok (i.using_, openTok :: r) := by
    intro r hr
    rcases hu with hu | ⟨_, hu⟩
    · simp [hu, usingToks, parseUsing]
    · simp only [hu, usingToks, List.cons_ne_nil, if_false, List.cons_append, List.nil_append] at hr ⊢
      simp [parseUsing, next_cons hr.of_cons, next_cons hr.of_cons.of_cons]
  obtain ⟨hu1, hu2⟩ := huq _ hp1
  unfold parseCreate
  simp only [next_cons hp0, bind_ok]
  rw [if_neg, if_pos]
  rotate_left
  · simpa using hu2
  · intro e
    rw [e] at hu2
    simp at hu2
  unfold parseCreateIndex
  simp only [hu1, e, bind_ok, next_cons hk, next_cons hk.of_cons, next_cons hk.of_cons.of_cons, next_cons hk.of_cons.of_cons.of_cons,
    checkCur, curT_cons, List.mem_singleton, if_true,
    openTok_type, curL_cons, ← hn.2, ← hnm.2, husing _ hk.of_cons.of_cons.of_cons]
  rw [parseColumnIdents_reads hcols hk.of_cons.of_cons.of_cons.of_cons.of_append]
  obtain ⟨c, q, ine, n, tn, us, cols⟩ := i
  simp only at hcom
  subst hcom
  rfl

theorem lex_createIndex {i : CreateIndex} (h : IdxOk i) (hR : i.Rereadable) {u : Token}
    (hu : i.using_ = [] ∨ (L u ∧ i.using_ = [newIdent u.lit [] u.lit])) (s : Str) :
    lex .mysql (i.str ++ s) = idxToks i u ++ lex .mysql s := by
  obtain ⟨hcom, hname, htbl, _, hcols⟩ := h
  have hn := objName_ok htbl
  have hnm := objName_ok hname
  have on : ∀ r, Start (s%" ON " ++ r) := fun r => start_cons (by decide)
  have op : ∀ r, Start (s%" (" ++ r) := fun r => start_cons (by decide)
  have cl : ∀ r, Start (s%");\n" ++ r) := fun r => start_cons (by decide)
  have huq : ∀ r, lex .mysql ((if i.isUnique then s%"UNIQUE " else []) ++ r) =
      uqToks i.isUnique ++ lex .mysql r := by
    intro r
    cases i.isUnique with
    | false => rfl
    | true =>
      simp only [if_true]
      rw [lex_lit (d := .mysql) (by decide) (by decide) (by decide)]
      rfl
  have husing : ∀ r, Start r → Start ((if i.using_ = [] then [] else s%" USING " ++ join s%" " (i.using_.map Ident.str)) ++ r) ∧
      lex .mysql ((if i.using_ = [] then [] else s%" USING " ++ join s%" " (i.using_.map Ident.str)) ++ r) =
      usingToks i.using_ u ++ lex .mysql r := by
    intro r hr
    rcases hu with hu | ⟨hL, hu⟩
    · simp [hu, usingToks, hr]
    · simp only [hu, usingToks, List.cons_ne_nil, if_false, List.map_cons, List.map_nil, join, Ident.str, List.append_assoc]
      refine ⟨start_cons (by decide), ?_⟩
      rw [lex_lit (d := .mysql) (by decide) (by decide) (by decide)]
      have : (newIdent u.lit [] u.lit).raw = u.lit := rfl
      rw [this, lex_tok hL hr]
      rfl
  unfold CreateIndex.str idxToks
  rw [hcom]
  simp only [commentStr, if_true, List.nil_append, List.append_assoc, Ident.str]
  rw [lex_lit (d := .mysql) (by decide) (by decide) (by decide), huq,
    lex_lit (d := .mysql) (by decide) (by decide) (by decide), ine_lex, lex_tok hnm.1 (on _),
    lex_lit (d := .mysql) (by decide) (by decide) (by decide), lex_tok hn.1 (husing _ (op _)).1, (husing _ (op _)).2,
    lex_lit (d := .mysql) (by decide) (by decide) (by decide), lex_columnsStr (cl _) _ hcols hR,
    lex_lit (d := .mysql) (by decide) (by decide) (by decide)]
  simp only [List.append_assoc, List.cons_append, List.nil_append]
  rfl

/-! ## Statement lists -/

/-- What is needed of a statement so that it is read again. -/
def Again : MStmt → Prop
  | .createTable t => TabOk t ∧ t.Rereadable ∧ NodupNames t.constraints
  | .createIndex i => IdxOk i ∧ i.Rereadable
  | _ => False

/-- The printed statement has tokens, which are read as the statement. -/
theorem stmt_again {sd : Str → Str → Str} {x : MStmt} (h : Again x) :
    ∃ us, (∀ s, lex .mysql (stmtStr (ops sd) x ++ s) = us ++ lex .mysql s) ∧ NoPanic us ∧ (∀ r, curT (us ++ r) = .CREATE) ∧
      2 ≤ us.length ∧ ∀ rest, NoPanic rest → parseCreate (us ++ rest) = .ok (x, semiTok :: rest) := by
  cases x with
  | createTable t =>
    obtain ⟨h1, h2, h3⟩ := h
    refine ⟨tabToks t, lex_createTable h1 h2, tabToks_noPanic (fun c hc => h1.2.2.1 c hc (h2.1 c hc).valued) h1.2.2.2.1 h1.2.2.2.2,
      fun r => rfl, by simp [tabToks], ?_⟩
    intro rest hp
    have e := parseCreate_readsTable h1 h2 hp
    rw [foldl_append_new _ [] (by simpa using h3) (by simpa using h2.2.2), List.nil_append] at e
    exact e
  | createIndex i =>
    obtain ⟨u, hu⟩ : ∃ u, i.using_ = [] ∨ (L u ∧ i.using_ = [newIdent u.lit [] u.lit]) := by
      rcases h.1.2.2.2.1 with h | ⟨t, ht⟩
      · exact ⟨semiTok, Or.inl h⟩
      · exact ⟨t, Or.inr ht⟩
    exact ⟨idxToks i u, lex_createIndex h.1 h.2 hu, idxToks_noPanic (hu.imp_right (·.1)), fun r => rfl, by simp [idxToks]; omega,
      fun rest hp => parseCreate_readsIndex h.1 hu hp⟩
  | alterTable a => exact h.elim
  | dropTable => exact h.elim
  | dropIndex => exact h.elim

theorem stmts_again {sd : Str → Str → Str} : ∀ l : List MStmt, (∀ x ∈ l, Again x) →
    NoPanic (lex .mysql (ddlStr (ops sd) l)) ∧
      ∀ n, (lex .mysql (ddlStr (ops sd) l)).length + 1 ≤ n → parseLoop parseCreate n (lex .mysql (ddlStr (ops sd) l)) = .ok l := by
  intro l
  induction l with
  | nil =>
    intro _
    refine ⟨noPanic_nil, ?_⟩
    intro n hn
    obtain ⟨n, rfl⟩ : ∃ k, n = k + 1 := ⟨n - 1, by omega⟩
    rfl
  | cons x l ih =>
    intro h
    obtain ⟨hp, ih⟩ := ih fun y hy => h y (by simp [hy])
    obtain ⟨us, h1, h2, h3, h4, h5⟩ := stmt_again (sd := sd) (h x (by simp))
    have e : lex .mysql (ddlStr (ops sd) (x :: l)) = us ++ lex .mysql (ddlStr (ops sd) l) := by
      rw [← h1]
      rfl
    rw [e]
    refine ⟨noPanic_append h2 hp, ?_⟩
    intro n hn
    rw [List.length_append] at hn
    obtain ⟨n, rfl⟩ : ∃ k, n = k + 1 := ⟨n - 1, by omega⟩
    rw [parseLoop, if_pos (h3 _), h5 _ hp]
    simp only [bind_ok, next_cons (noPanic_cons (t := semiTok) (by decide) hp)]
    rw [ih _ (by omega)]
    rfl

theorem parse_again {sd : Str → Str → Str} {l : List MStmt} (h : ∀ x ∈ l, Again x) :
    parse (ddlStr (ops sd) l) = .ok l := by
  obtain ⟨h1, h2⟩ := stmts_again (sd := sd) l h
  unfold parse parseTokens
  rw [h1.start]
  exact h2 _ (by omega)

end Ddl.My
