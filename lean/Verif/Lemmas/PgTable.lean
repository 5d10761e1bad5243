import Verif.Lemmas.PgColumn
import Verif.Lemmas.Shape
import Verif.Lemmas.PgSat
import Verif.Pg.Diff

/-! # PostgreSQL: statements, printed and read again -/

namespace Ddl
open Spec
set_option autoImplicit false

/-! ## Object names -/

theorem splitC_ne_nil (c : Char) : ∀ s : Str, splitC c s ≠ []
  | [] => by simp [splitC]
  | x :: s => by
    unfold splitC
    split
    · simp
    · split <;> simp

theorem join_splitC (c : Char) : ∀ s : Str, join [c] (splitC c s) = s
  | [] => rfl
  | x :: s => by
    have ih := join_splitC c s
    unfold splitC
    split
    · rename_i h
      subst h
      cases e : splitC x s with
      | nil => exact absurd e (splitC_ne_nil _ _)
      | cons a r => rw [e] at ih; simp [join, ih]
    · cases e : splitC c s with
      | nil => exact absurd e (splitC_ne_nil _ _)
      | cons a r =>
        rw [e] at ih
        cases r with
        | nil => simpa [join] using ih
        | cons b r => simp only [join] at ih ⊢; simp [← ih]

theorem newRawIdentQ_open {l : List Char} {s : Str} (h : ∀ q ∈ l, s.head? ≠ some q ∨ s.getLast? ≠ some q) :
    newRawIdentQ l s = ⟨s, [], s⟩ := by
  induction l with
  | nil => rfl
  | cons q l ih =>
    have : (hasPrefix s [q] && hasSuffix s [q]) = false := by
      rw [Bool.eq_false_iff]
      intro e
      rw [Bool.and_eq_true] at e
      rcases h q (by simp) with h | h
      · cases s with
        | nil => simp [hasPrefix] at e
        | cons a s => simp [hasPrefix, List.isPrefixOf] at h e; exact h e.1.symm
      · have := e.2
        rw [hasSuffix, List.isSuffixOf_iff_suffix] at this
        obtain ⟨p, hp⟩ := this
        exact h (by rw [← hp]; simp)
    simp only [newRawIdentQ, this, Bool.false_eq_true, if_false]
    exact ih fun q hq => h q (List.mem_cons_of_mem _ hq)

theorem newObjectName_plain {d : Dialect} {raw : Str} (h : newRawIdent d raw = ⟨raw, [], raw⟩)
    (h2 : ∀ a b, raw = a ++ '.' :: b → newRawIdent d a = ⟨a, [], a⟩ ∧ newRawIdent d b = ⟨b, [], b⟩) :
    (newObjectName d raw).str = raw := by
  unfold newObjectName
  rw [h]
  simp only [List.nil_append, List.append_nil]
  have hj := join_splitC '.' raw
  split
  · rename_i a b e
    rw [e] at hj
    simp only [join, List.append_assoc, List.cons_append, List.nil_append] at hj
    obtain ⟨e1, e2⟩ := h2 a b hj.symm
    rw [e1, e2]
    simp [ObjectName.str, Ident.diffStr, hj]
  · simp [ObjectName.str, Ident.str]

theorem newObjectName_quoted {d : Dialect} {q : Char} {w : Str} (hq : q ∈ quotationMarks d) (hw : q ∉ w) :
    (newObjectName d (q :: w ++ [q])).str = q :: w ++ [q] := by
  have key : ∀ w : Str, q ∉ w → newRawIdent d ([q] ++ w ++ [q]) = ⟨w, [q], q :: w ++ [q]⟩ :=
    fun w hw => newRawIdentQ_quoted hq hw
  unfold newObjectName
  have : newRawIdent d (q :: w ++ [q]) = ⟨w, [q], q :: w ++ [q]⟩ := key w hw
  rw [this]
  simp only
  have hj := join_splitC '.' w
  split
  · rename_i a b e
    rw [e] at hj
    simp only [join, List.append_assoc, List.cons_append, List.nil_append] at hj
    have ha : q ∉ a := fun h => hw (by rw [← hj]; simp [h])
    have hb : q ∉ b := fun h => hw (by rw [← hj]; simp [h])
    rw [key a ha, key b hb]
    simp [ObjectName.str, Ident.diffStr, ← hj]
  · simp [ObjectName.str, Ident.str]

namespace Pg

theorem objectName_str {raw : Str} (h : L ⟨.IDENT, raw⟩) : (newObjectName .postgres raw).str = raw := by
  rcases h with ⟨h1, h2, h3⟩ | ⟨_, q, body, hq, h2, hb⟩ | ⟨h1, _⟩ | ⟨h1, _⟩ | ⟨h1, _⟩ | ⟨c, h1, _⟩
  · refine newObjectName_plain (newRawIdent_word h2) ?_
    intro a b e
    simp only at h2 e
    rw [e] at h2
    exact ⟨newRawIdent_word (fun c hc => h2 c (by simp [hc])), newRawIdent_word (fun c hc => h2 c (by simp [hc]))⟩
  · simp only at h2
    subst h2
    simp only [quotes, List.mem_cons, List.not_mem_nil, or_false] at hq
    rcases hq with rfl | rfl
    · exact newObjectName_quoted (by decide) (fun h => (hb _ h).1 rfl)
    · refine newObjectName_plain (newRawIdentQ_open ?_) ?_
      · intro q hq
        simp only [quotationMarks, List.mem_singleton] at hq
        subst hq
        left; simp
      · intro a b e
        have ha : a.head? ≠ some '"' := by
          cases a with
          | nil => simp
          | cons x r => simp at e; simp [← e.1]
        have hb' : b.getLast? ≠ some '"' := by
          have := congrArg List.getLast? e
          rw [List.getLast?_concat, List.getLast?_append, List.getLast?_cons] at this
          intro h
          rw [h] at this
          simp at this
        exact ⟨newRawIdentQ_open fun q hq => Or.inl (by simp only [quotationMarks, List.mem_singleton] at hq; exact hq ▸ ha),
          newRawIdentQ_open fun q hq => Or.inr (by simp only [quotationMarks, List.mem_singleton] at hq; exact hq ▸ hb')⟩
  · cases h1
  · cases h1
  · cases h1
  · have : ∀ p ∈ symbols, p.2 ≠ .IDENT := by decide
    exact absurd rfl (this _ h1)

/-! ## Constraints -/

/-- The action of a foreign key consists of words. -/
def ActOk (act : Str) : Prop :=
  ∃ ws : List Token, AllTok L ws ∧ (∀ w ∈ ws, w.type ∉ [.COMMA, .CLOSE_PAREN]) ∧ act = join s%" " (ws.map (·.lit))

theorem actOk_nil : ActOk [] := ⟨[], .nil, by simp, rfl⟩

/-- The columns and referenced tables are names, and expressions are in brackets. -/
def ConOk (c : Constraint) : Prop :=
  c.name = rawIdent c.name.raw ∧
  match c with
  | .primaryKey _ cs => ∀ i ∈ cs, NameOk i
  | .unique _ cs => ∀ i ∈ cs, NameOk i
  | .foreignKey _ cs r rcs act => (∀ i ∈ cs, NameOk i) ∧ NameOk r ∧ (∀ i ∈ rcs, NameOk i) ∧ ActOk act
  | .check _ e => ∃ g, Grp g ∧ e = rawIdent s%"(" :: ids g

def constraintTok : Token := ⟨.CONSTRAINT, s%"CONSTRAINT"⟩

/-- The tokens of a constraint behind its name. -/
def conBody : Constraint → List Token
  | .primaryKey _ cs => ⟨.PRIMARY, s%"PRIMARY"⟩ :: ⟨.KEY, s%"KEY"⟩ :: openTok :: (colToks cs ++ [closeTok])
  | .unique _ cs => ⟨.UNIQUE, s%"UNIQUE"⟩ :: openTok :: (colToks cs ++ [closeTok])
  | .foreignKey _ cs r rcs _ =>
    ⟨.FOREIGN, s%"FOREIGN"⟩ :: ⟨.KEY, s%"KEY"⟩ :: openTok :: (colToks cs ++ closeTok :: ⟨.REFERENCES, s%"REFERENCES"⟩ ::
      nameTok r :: openTok :: (colToks rcs ++ [closeTok]))
  | .check _ _ => []

/-- The tokens of a constraint. -/
def conToks (c : Constraint) : List Token := constraintTok :: nameTok c.name :: conBody c

theorem rawIdent_ok {s : Str} : rawIdent s = rawIdent (rawIdent s).raw := by simp

/-- Words of an action that were read. -/
theorem actOk_words {ts : List Token} (hL : AllTok L ts) (h0 : curT ts = .ON) (h1 : curT ts.tail ∈ [.DELETE, .UPDATE])
    (h2 : curT ts.tail.tail ∈ [.CASCADE, .NO]) :
    ActOk (curL ts ++ s%" " ++ curL ts.tail ++ s%" " ++ curL ts.tail.tail) ∧
      (curT ts.tail.tail.tail = .ACTION →
        ActOk (curL ts ++ s%" " ++ curL ts.tail ++ s%" " ++ curL ts.tail.tail ++ s%" " ++ curL ts.tail.tail.tail)) := by
  have k : ∀ (us : List Token) (T : List TokType), AllTok L us → .EOF ∉ T → .COMMA ∉ T → .CLOSE_PAREN ∉ T → curT us ∈ T →
      L (cur us) ∧ (cur us).type ∉ [.COMMA, .CLOSE_PAREN] := by
    intro us T h hE hC hP hT
    refine ⟨h.cur (by intro e; rw [e] at hT; exact hE hT), ?_⟩
    have : (cur us).type = curT us := rfl
    rw [this]
    intro hm
    simp only [List.mem_cons, List.not_mem_nil, or_false] at hm
    rcases hm with e | e <;> rw [e] at hT
    · exact hC hT
    · exact hP hT
  have k0 := k ts [.ON] hL (by decide) (by decide) (by decide) (by simp [h0])
  have k1 := k ts.tail _ hL.tail (by decide) (by decide) (by decide) h1
  have k2 := k ts.tail.tail _ hL.tail.tail (by decide) (by decide) (by decide) h2
  refine ⟨⟨[cur ts, cur ts.tail, cur ts.tail.tail], .cons k0.1 (.cons k1.1 (.cons k2.1 .nil)), ?_, ?_⟩, ?_⟩
  · intro w hw
    simp only [List.mem_cons, List.not_mem_nil, or_false] at hw
    rcases hw with rfl | rfl | rfl
    · exact k0.2
    · exact k1.2
    · exact k2.2
  · simp [join]; rfl
  · intro h3
    have k3 := k ts.tail.tail.tail [.ACTION] hL.tail.tail.tail (by decide) (by decide) (by decide) (by simp [h3])
    refine ⟨[cur ts, cur ts.tail, cur ts.tail.tail, cur ts.tail.tail.tail], .cons k0.1 (.cons k1.1 (.cons k2.1 (.cons k3.1 .nil))), ?_, ?_⟩
    · intro w hw
      simp only [List.mem_cons, List.not_mem_nil, or_false] at hw
      rcases hw with rfl | rfl | rfl | rfl
      · exact k0.2
      · exact k1.2
      · exact k2.2
      · exact k3.2
    · simp [join]; rfl

theorem columnConstraintsLoop_post {tbl col : Ident} (hcol : NameOk col) : ∀ (n : Nat) (cs : List Constraint) (ts : List Token),
    AllTok L ts → (∀ c ∈ cs, ConOk c) →
    Post (fun r => (∀ c ∈ r.1, ConOk c) ∧ AllTok L r.2) (columnConstraintsLoop tbl col n cs ts) := by
  have app : ∀ (cs : List Constraint) (c : Constraint), (∀ c ∈ cs, ConOk c) → ConOk c → ∀ x ∈ appendConstraint cs c, ConOk x := by
    intro cs c h hc x hx
    rcases appendConstraint_mem x hx with h' | rfl
    · exact h x h'
    · exact hc
  have one : ∀ i ∈ [col], NameOk i := by simpa using hcol
  intro n
  induction n with
  | zero => intro cs ts _ _; exact trivial
  | succ n ih =>
    intro cs ts hL hcs
    unfold columnConstraintsLoop
    split
    · refine Post.checkPeek_bind (fun _ => Post.next_bind (Post.next_bind (ih _ _ hL.tail.tail (app _ _ hcs ⟨?_, one⟩))))
      simp [Constraint.name]
    split
    · refine Post.checkPeek_bind (fun hp => Post.next_bind ?_)
      simp only [List.mem_singleton] at hp
      refine Post.next_bind ((parseColumnIdents_post hL.tail.tail).bind ?_)
      rintro ⟨i, ts₁⟩ ⟨hi, h₁⟩
      have hact : Post (fun r => ActOk r.1 ∧ AllTok L r.2) (parseOnActionColumn ts₁) := by
        unfold parseOnActionColumn
        split
        · rename_i h0
          refine Post.next_bind (Post.checkCur_bind (fun ha => Post.checkPeek_bind (fun hb => Post.next_bind ?_)))
          have := actOk_words h₁ h0 ha hb
          split
          · exact Post.checkPeek_bind (fun hd => Post.next_bind (Post.ok ⟨this.2 (List.mem_singleton.1 hd), h₁.tail.tail.tail⟩))
          · exact Post.ok ⟨this.1, h₁.tail.tail⟩
        · exact Post.ok ⟨actOk_nil, h₁⟩
      refine hact.bind ?_
      rintro ⟨act, ts₂⟩ ⟨hact, h₂⟩
      refine Post.next_bind (ih _ _ (AllTok.tail h₂) (app _ _ hcs ⟨?_, one, nameOk_cur hL.tail hp, hi, hact⟩))
      simp [Constraint.name]
    split
    · refine Post.next_bind (ih _ _ hL.tail (app _ _ hcs ⟨?_, one⟩))
      simp [Constraint.name]
    split
    · refine Post.checkPeek_bind (fun _ => Post.next_bind ((parseExpr_post hL.tail).bind ?_))
      rintro ⟨i, ts₁⟩ ⟨he, h₁⟩
      refine Post.next_bind (ih _ _ (AllTok.tail h₁) (app _ _ hcs ⟨?_, he⟩))
      simp [Constraint.name]
    split
    · exact Post.ok ⟨hcs, hL⟩
    · exact trivial

theorem parseColumn_post {tbl : Ident} {ts : List Token} (hL : AllTok L ts) :
    Post (fun r => (r.1.default ≠ some ⟨none⟩ → ∃ us, ColOk r.1 us) ∧ (∀ c ∈ r.2.1, ConOk c) ∧ AllTok L r.2.2)
      (parseColumn tbl ts) := by
  unfold parseColumn
  refine Post.checkCur_bind (fun hc => Post.next_bind ?_)
  simp only [List.mem_singleton] at hc
  have hname := nameOk_cur hL hc
  split
  · rename_i hd
    refine (parseDataType_post hL.tail hd).bind ?_
    rintro ⟨dt, ts₁⟩ ⟨⟨us, h1⟩, h2⟩
    refine Post.next_bind ((columnAttrsLoop_post _ none false _ (AllTok.tail h2) (fun _ => ⟨[], Or.inl ⟨rfl, rfl⟩⟩)).bind ?_)
    rintro ⟨d, nn, ts₂⟩ ⟨h3, h4⟩
    refine (columnConstraintsLoop_post hname _ [] _ h4 (by simp)).bind ?_
    rintro ⟨cs, ts₃⟩ ⟨h5, h6⟩
    refine Post.ok ⟨?_, ?_, h6⟩
    · intro hv
      obtain ⟨g, hg⟩ := h3 hv
      exact ⟨_, hname, us, g, h1, hg, rfl⟩
    · intro c hc
      rcases foldl_append_mem c hc with h | h
      · cases h
      · exact h5 c h
  · exact trivial

theorem parseTableConstraint_post {tbl : Ident} {ts : List Token} (hL : AllTok L ts) :
    Post (fun r => ConOk r.1 ∧ AllTok L r.2) (parseTableConstraint tbl ts) := by
  have hname : Post (fun r => (∀ i, r.1 = some i → i = rawIdent i.raw) ∧ AllTok L r.2) (parseConstraintName ts) := by
    unfold parseConstraintName
    split
    · refine Post.next_bind ?_
      split
      · exact trivial
      · refine Post.next_bind (Post.ok ⟨?_, hL.tail.tail⟩)
        intro i hi
        cases hi
        simp
    · exact Post.ok ⟨by simp, hL⟩
  unfold parseTableConstraint
  refine hname.bind ?_
  rintro ⟨cname, ts₀⟩ ⟨hn, h0⟩
  simp only at hn h0 ⊢
  have hget : ∀ s : Str, cname.getD (rawIdent s) = rawIdent (cname.getD (rawIdent s)).raw := by
    intro s
    cases cname with
    | none => simp
    | some i => exact hn i rfl
  split
  · refine Post.checkPeek_bind (fun _ => Post.next_bind (Post.checkPeek_bind (fun _ => Post.next_bind
      ((parseColumnIdents_post h0.tail.tail).bind ?_))))
    rintro ⟨i, ts₁⟩ ⟨hi, h₁⟩
    exact Post.ok ⟨⟨hget _, hi⟩, h₁⟩
  split
  · refine Post.checkPeek_bind (fun _ => Post.next_bind (Post.checkPeek_bind (fun _ => Post.next_bind
      ((parseColumnIdents_post h0.tail.tail).bind ?_))))
    rintro ⟨i, ts₁⟩ ⟨hi, h₁⟩
    refine Post.checkCur_bind (fun _ => Post.next_bind (Post.checkCur_bind (fun hr => Post.next_bind ?_)))
    simp only [List.mem_singleton] at hr
    refine (parseColumnIdents_post (AllTok.tail (AllTok.tail h₁))).bind ?_
    rintro ⟨i₂, ts₂⟩ ⟨hi₂, h₂⟩
    have hact : Post (fun r => ActOk r.1 ∧ AllTok L r.2) (parseOnActionTable ts₂) := by
      unfold parseOnActionTable
      split
      · rename_i h0
        refine Post.next_bind (Post.checkCur_bind (fun ha => Post.checkPeek_bind (fun hb => Post.next_bind ?_)))
        have := actOk_words h₂ h0 ha hb
        split
        · rename_i hd
          exact Post.next_bind (Post.ok ⟨this.2 hd.2, AllTok.tail (AllTok.tail (AllTok.tail h₂))⟩)
        · exact Post.ok ⟨this.1, AllTok.tail (AllTok.tail h₂)⟩
      · exact Post.ok ⟨actOk_nil, h₂⟩
    refine hact.bind ?_
    rintro ⟨act, ts₃⟩ ⟨hact, h₃⟩
    exact Post.ok ⟨⟨hget _, hi, nameOk_cur (AllTok.tail h₁) hr, hi₂, hact⟩, h₃⟩
  split
  · refine Post.checkPeek_bind (fun _ => Post.next_bind ((parseColumnIdents_post h0.tail).bind ?_))
    rintro ⟨i, ts₁⟩ ⟨hi, h₁⟩
    exact Post.ok ⟨⟨hget _, hi⟩, h₁⟩
  · exact trivial

theorem lex_constraint {c : Constraint} (h : ConOk c) (h1 : c.NoCheckNoAction) (h2 : IsName .postgres c.name.raw) {s : Str} :
    lex .postgres (c.str ++ s) = conToks c ++ lex .postgres s := by
  have hn : NameOk c.name := ⟨h.1, isName_lx h2⟩
  have sp : ∀ r, Start (s%" " ++ r) := fun r => start_cons (by decide)
  have hclose : ∀ r, lex .postgres (s%")" ++ r) = closeTok :: lex .postgres r :=
    fun r => lex_symbol .postgres ')' .CLOSE_PAREN r (by decide) (by simp)
  have hopen : ∀ r, lex .postgres (s%" (" ++ r) = openTok :: lex .postgres r := by
    intro r
    rw [List.cons_append, lex_ws .postgres ' ' _ rfl]
    exact lex_symbol .postgres '(' .OPEN_PAREN r (by decide) (by simp)
  have hblank : ∀ r, lex .postgres (s%" " ++ r) = lex .postgres r := fun r => lex_ws .postgres ' ' r rfl
  have cl : ∀ r, Start (s%")" ++ r) := fun r => start_cons (by decide)
  have op : ∀ r, Start (s%" (" ++ r) := fun r => start_cons (by decide)
  cases c with
  | primaryKey n cs =>
    have hn : NameOk n := hn
    have hcs : ∀ i ∈ cs, NameOk i := h.2
    simp only [Constraint.str, Ident.str, List.append_assoc, conToks, conBody]
    rw [lex_lit (d := .postgres) (by decide) (by decide) (by decide), lex_name hn (sp _), hblank,
      lex_lit_start (d := .postgres) (by decide) (by decide) (by decide) (op _), hopen,
      lex_columnsStr (cl _) cs hcs, hclose]
    simp only [List.cons_append, List.append_assoc, List.nil_append]
    rfl
  | unique n cs =>
    have hn : NameOk n := hn
    have hcs : ∀ i ∈ cs, NameOk i := h.2
    simp only [Constraint.str, Ident.str, List.append_assoc, conToks, conBody]
    rw [lex_lit (d := .postgres) (by decide) (by decide) (by decide), lex_name hn (sp _), hblank,
      lex_lit (d := .postgres) (by decide) (by decide) (by decide),
      lex_lit (d := .postgres) (by decide) (by decide) (by decide),
      lex_columnsStr (cl _) cs hcs, hclose]
    simp only [List.cons_append, List.append_assoc, List.nil_append]
    rfl
  | foreignKey n cs r rcs act =>
    obtain ⟨hcs, hr, hrcs, _⟩ : (∀ i ∈ cs, NameOk i) ∧ NameOk r ∧ (∀ i ∈ rcs, NameOk i) ∧ ActOk act := h.2
    have hact : act = [] := h1
    subst hact
    have hn : NameOk n := hn
    simp only [Constraint.str, Ident.str, List.append_assoc, conToks, conBody, if_true, List.append_nil]
    rw [lex_lit (d := .postgres) (by decide) (by decide) (by decide), lex_name hn (sp _), hblank,
      lex_lit_start (d := .postgres) (by decide) (by decide) (by decide) (op _), hopen,
      lex_columnsStr (cl _) cs hcs, hclose,
      lex_lit (d := .postgres) (by decide) (by decide) (by decide), lex_name hr (op _), hopen,
      lex_columnsStr (cl _) rcs hrcs, hclose]
    simp only [List.cons_append, List.append_assoc, List.nil_append]
    rfl
  | check n e => exact h1.elim

theorem parseTableConstraint_reads {tbl : Ident} {c : Constraint} (h : ConOk c) (h1 : c.NoCheckNoAction) {rest : List Token}
    (hr : curT rest ∈ [.COMMA, .CLOSE_PAREN]) (hp : NoPanic (conToks c ++ rest)) :
    parseTableConstraint tbl (conToks c ++ rest) = .ok (c, rest) := by
  have hname : parseConstraintName (conToks c ++ rest) = .ok (some c.name, conBody c ++ rest) := by
    simp only [conToks, List.cons_append] at hp ⊢
    simp [parseConstraintName, constraintTok] at hp ⊢
    simp [next_cons hp, next_cons hp.of_cons, ← h.1]
  have hp' : NoPanic (conBody c ++ rest) := by
    simp only [conToks, List.cons_append] at hp
    exact hp.of_cons.of_cons
  unfold parseTableConstraint
  rw [hname]
  simp only [bind_ok]
  cases c with
  | primaryKey n cs =>
    have hcs : ∀ i ∈ cs, NameOk i := h.2
    simp only [conBody, List.cons_append, List.append_assoc, List.nil_append] at hp' ⊢
    simp [checkPeek, next_cons hp', next_cons hp'.of_cons, parseColumnIdents_reads hcs hp'.of_cons.of_cons, Constraint.name]
  | unique n cs =>
    have hcs : ∀ i ∈ cs, NameOk i := h.2
    simp only [conBody, List.cons_append, List.append_assoc, List.nil_append] at hp' ⊢
    simp [checkPeek, next_cons hp', parseColumnIdents_reads hcs hp'.of_cons, Constraint.name]
  | foreignKey n cs r rcs act =>
    obtain ⟨hcs, hrn, hrcs, _⟩ : (∀ i ∈ cs, NameOk i) ∧ NameOk r ∧ (∀ i ∈ rcs, NameOk i) ∧ ActOk act := h.2
    have hact : act = [] := h1
    subst hact
    have hon : parseOnActionTable rest = .ok ([], rest) := by
      simp only [List.mem_cons, List.not_mem_nil, or_false] at hr
      unfold parseOnActionTable
      rcases hr with h | h <;> simp [h]
    simp only [conBody, List.cons_append, List.append_assoc, List.nil_append] at hp' ⊢
    have hp2 : NoPanic (⟨.REFERENCES, s%"REFERENCES"⟩ :: nameTok r :: openTok :: (colToks rcs ++ closeTok :: rest)) :=
      hp'.of_cons.of_cons.of_cons.of_append.of_cons
    simp [checkPeek, checkCur, next_cons hp', next_cons hp'.of_cons, parseColumnIdents_reads hcs hp'.of_cons.of_cons, next_cons hp2,
      next_cons hp2.of_cons, parseColumnIdents_reads hrcs hp2.of_cons.of_cons, hon, Constraint.name, ← hrn.1]
  | check n e => exact h1.elim

/-! ## No panics -/

theorem L.noPanic {t : Token} (h : L t) : t.type ≠ .PANIC := by
  rcases h with ⟨_, _, h⟩ | ⟨h, _⟩ | ⟨h, _⟩ | ⟨h, _⟩ | ⟨h, _⟩ | ⟨c, h, _⟩
  · intro e
    rw [e] at h
    rcases h with h | ⟨h, _⟩
    · have : ∀ p ∈ keywords .postgres, p.2 ≠ .PANIC := by decide
      exact this _ h rfl
    · cases h
  all_goals first | (rw [h]; decide) | skip
  have : ∀ p ∈ symbols, p.2 ≠ .PANIC := by decide
  exact this _ h

theorem AllTok.noPanic {ts : List Token} (h : AllTok L ts) : NoPanic ts := fun t ht => L.noPanic (h t ht)

theorem noPanic_append {a b : List Token} (ha : NoPanic a) (hb : NoPanic b) : NoPanic (a ++ b) := by
  intro t ht
  rcases List.mem_append.1 ht with h | h
  · exact ha t h
  · exact hb t h

theorem noPanic_cons {t : Token} {b : List Token} (ha : t.type ≠ .PANIC) (hb : NoPanic b) : NoPanic (t :: b) := by
  intro x hx
  rcases List.mem_cons.1 hx with rfl | h
  · exact ha
  · exact hb x h

theorem noPanic_nil : NoPanic [] := by simp [NoPanic]

theorem isCmp.noPanic {t : TokType} (h : isCmp t) : t ≠ .PANIC := by
  intro e; subst e; simp [isCmp] at h

theorem Grp.noPanic {g : List Word} (h : Grp g) : NoPanic (toks g) := by
  induction h with
  | close => exact noPanic_cons (by decide) noPanic_nil
  | opened a b _ _ iha ihb =>
    have := noPanic_append iha ihb
    rw [← toks_append] at this
    exact noPanic_cons (by decide) this
  | cmp x r hx _ _ _ ih => exact noPanic_cons hx.noPanic ih
  | cmp2 x y r _ _ _ _ hx hy _ ih => exact noPanic_cons hx.noPanic (noPanic_cons hy.noPanic ih)
  | other t r ht _ _ _ ih => exact noPanic_cons ht.noPanic ih

theorem Dft.noPanic {f : Bool} {g : List Word} (h : Dft f g) : NoPanic (toks g) := by
  induction h with
  | nil => exact noPanic_nil
  | group f g r hg _ ih =>
    have := noPanic_append hg.noPanic ih
    rw [← toks_append] at this
    exact noPanic_cons (by decide) this
  | ident f t r ht _ _ ih => exact noPanic_cons ht.noPanic ih
  | reserved f t r ht _ _ ih => exact noPanic_cons ht.noPanic ih
  | operator f t r ht _ _ ih => exact noPanic_cons ht.noPanic ih
  | dataType t r ht _ _ ih => exact noPanic_cons ht.noPanic ih

theorem ColOk.noPanic {c : Column} {ts : List Token} (h : ColOk c ts) : NoPanic ts := by
  obtain ⟨_, us, g, ⟨ws, as, _, h1, _, _, h2, _, rfl⟩, h3, rfl⟩ := h
  refine noPanic_cons (by simp) (noPanic_append (noPanic_append (AllTok.noPanic h1) ?_) (noPanic_append ?_ ?_))
  · unfold argToks
    split
    · exact noPanic_nil
    · exact noPanic_cons (by decide) (noPanic_append (AllTok.noPanic h2) (noPanic_cons (by decide) noPanic_nil))
  · unfold dftToks
    split
    · exact noPanic_nil
    · rcases h3 with ⟨_, rfl⟩ | ⟨_, h3⟩
      · contradiction
      · exact noPanic_cons (by decide) h3.noPanic
  · unfold nnToks
    split
    · exact noPanic_cons (by decide) (noPanic_cons (by decide) noPanic_nil)
    · exact noPanic_nil

theorem colToks_noPanic : ∀ l : List Ident, NoPanic (colToks l)
  | [] => noPanic_nil
  | [i] => noPanic_cons (by simp) noPanic_nil
  | i :: j :: r => noPanic_cons (by simp) (noPanic_cons (by decide) (colToks_noPanic (j :: r)))

theorem conToks_noPanic (c : Constraint) : NoPanic (conToks c) := by
  refine noPanic_cons (by decide) (noPanic_cons (by simp) ?_)
  have hc : NoPanic [closeTok] := noPanic_cons (by decide) noPanic_nil
  cases c with
  | primaryKey n cs =>
    exact noPanic_cons (by simp) (noPanic_cons (by simp) (noPanic_cons (by simp) (noPanic_append (colToks_noPanic cs) hc)))
  | unique n cs => exact noPanic_cons (by simp) (noPanic_cons (by simp) (noPanic_append (colToks_noPanic cs) hc))
  | foreignKey n cs r rcs act =>
    exact noPanic_cons (by simp) (noPanic_cons (by simp) (noPanic_cons (by simp) (noPanic_append (colToks_noPanic cs)
      (noPanic_cons (by simp) (noPanic_cons (by simp) (noPanic_cons (by simp) (noPanic_cons (by simp)
        (noPanic_append (colToks_noPanic rcs) hc))))))))
  | check n e => exact noPanic_nil

/-! ## The list of columns and constraints -/

/-- The items, each behind a comma. -/
def tailToks : List (List Token) → List Token
  | [] => []
  | x :: l => commaTok :: (x ++ tailToks l)

/-- The items, separated by commas. -/
def sepToks : List (List Token) → List Token
  | [] => []
  | x :: l => x ++ tailToks l

theorem tailToks_noPanic {l : List (List Token)} (h : ∀ x ∈ l, NoPanic x) : NoPanic (tailToks l) := by
  induction l with
  | nil => exact noPanic_nil
  | cons x l ih =>
    exact noPanic_cons (by decide) (noPanic_append (h x (by simp)) (ih fun y hy => h y (by simp [hy])))

theorem sepToks_noPanic {l : List (List Token)} (h : ∀ x ∈ l, NoPanic x) : NoPanic (sepToks l) := by
  cases l with
  | nil => exact noPanic_nil
  | cons x l => exact noPanic_append (h x (by simp)) (tailToks_noPanic fun y hy => h y (by simp [hy]))

theorem tailToks_append (a b : List (List Token)) : tailToks (a ++ b) = tailToks a ++ tailToks b := by
  induction a with
  | nil => rfl
  | cons x a ih => simp [tailToks, ih]

theorem tailToks_curT (l : List (List Token)) (rest : List Token) :
    curT (tailToks l ++ closeTok :: rest) ∈ [.COMMA, .CLOSE_PAREN] := by
  cases l <;> simp [tailToks]

theorem itemLines_append (a b : List Str) :
    itemLines (if b = [] then s%"\n" else s%",\n") a ++ itemLines s%"\n" b = itemLines s%"\n" (a ++ b) := by
  cases b with
  | nil => simp [itemLines]
  | cons y b =>
    simp only [List.cons_ne_nil, if_false]
    induction a with
    | nil => simp [itemLines]
    | cons x a ih =>
      cases a with
      | nil => simp [itemLines]
      | cons z a =>
        simp only [itemLines, List.cons_append, List.append_assoc] at ih ⊢
        rw [ih]

theorem lex_itemLines (l : List (Str × List Token))
    (h : ∀ p ∈ l, ∀ s, Start s → lex .postgres (p.1 ++ s) = p.2 ++ lex .postgres s) (s : Str) :
    lex .postgres (itemLines s%"\n" (l.map (·.1)) ++ s) = sepToks (l.map (·.2)) ++ lex .postgres s := by
  have hind : ∀ r, lex .postgres (indent ++ r) = lex .postgres r := by
    intro r
    rw [lex_lit (d := .postgres) (by decide) (by decide) (by decide)]
    rfl
  have hcomma : ∀ r, lex .postgres (s%",\n" ++ r) = commaTok :: lex .postgres r := by
    intro r
    rw [lex_lit (d := .postgres) (by decide) (by decide) (by decide)]
    rfl
  have hnl : ∀ r, lex .postgres (s%"\n" ++ r) = lex .postgres r := fun r => lex_ws .postgres '\n' r rfl
  induction l with
  | nil => rfl
  | cons p l ih =>
    cases l with
    | nil =>
      simp only [List.map_cons, List.map_nil, itemLines, sepToks, tailToks, List.append_nil, List.append_assoc]
      have hs : Start (s%"\n" ++ s) := start_cons (by decide)
      rw [hind, h p (by simp) _ hs, hnl]
    | cons q l =>
      simp only [List.map_cons, itemLines, sepToks, tailToks, List.append_assoc] at ih ⊢
      have hs : ∀ r, Start (s%",\n" ++ r) := fun r => start_cons (by decide)
      rw [hind, h p (by simp) _ (hs _), hcomma, ih fun x hx => h x (by simp [hx])]
      simp

theorem appendConstraint_new {cs : List Constraint} {c : Constraint} (h : ∀ x ∈ cs, x.name.name ≠ c.name.name) :
    appendConstraint cs c = cs ++ [c] := by
  induction cs with
  | nil => rfl
  | cons x cs ih =>
    rw [appendConstraint, if_neg (h x (by simp)), ih fun y hy => h y (by simp [hy])]
    rfl

theorem foldl_append_new : ∀ (l cs : List Constraint), NodupNames (cs ++ l) → l.foldl appendConstraint cs = cs ++ l := by
  intro l
  induction l with
  | nil => intro cs _; simp
  | cons c l ih =>
    intro cs h
    have happ : appendConstraint cs c = cs ++ [c] := by
      refine appendConstraint_new ?_
      unfold NodupNames at h
      rw [List.map_append, List.nodup_append] at h
      intro x hx e
      exact h.2.2 _ (List.mem_map_of_mem hx) _ (List.mem_map_of_mem (List.mem_cons_self ..)) e
    rw [List.foldl_cons, happ, ih _ (by simpa using h)]
    simp

theorem conItems_reads {tbl : Ident} : ∀ (l : List Constraint) (cols : List Column) (cs : List Constraint) (n : Nat) (rest : List Token),
    (∀ c ∈ l, ConOk c ∧ c.NoCheckNoAction) → curT rest = .SEMICOLON → NoPanic rest →
    (tailToks (l.map conToks)).length + 2 ≤ n →
    tableLoop tbl n cols cs (tailToks (l.map conToks) ++ closeTok :: rest) =
      .ok (cols, l.foldl appendConstraint cs, closeTok :: rest) := by
  intro l
  induction l with
  | nil =>
    intro cols cs n rest _ hr _ hn
    obtain ⟨n, rfl⟩ : ∃ k, n = k + 1 := ⟨n - 1, by omega⟩
    simp [tailToks, tableLoop, isConstraint, peekT_cons, hr]
  | cons c l ih =>
    intro cols cs n rest h hr hp hn
    obtain ⟨n, rfl⟩ : ∃ k, n = k + 2 := ⟨n - 2, by omega⟩
    have hnp : NoPanic (conToks c ++ (tailToks (l.map conToks) ++ closeTok :: rest)) :=
      noPanic_append (conToks_noPanic c) (noPanic_append (tailToks_noPanic (by simpa using fun c _ => conToks_noPanic c))
        (noPanic_cons (by decide) hp))
    have hnp' : NoPanic (commaTok :: (conToks c ++ (tailToks (l.map conToks) ++ closeTok :: rest))) :=
      noPanic_cons (by decide) hnp
    obtain ⟨h1, h2⟩ := h c (by simp)
    simp only [List.map_cons, tailToks, List.cons_append, List.append_assoc, List.length_cons, List.length_append] at hn ⊢
    rw [tableLoop]
    simp only [curT_cons, commaTok_type, next_cons hnp', bind_ok]
    rw [if_neg (by decide), if_neg (by decide), if_pos trivial, tableLoop]
    rw [if_neg (by simp [conToks, constraintTok]), if_pos (by simp [conToks, constraintTok, isConstraint]),
      parseTableConstraint_reads h1 h2 (tailToks_curT _ _) hnp]
    simp only [bind_ok]
    rw [ih cols _ n rest (fun x hx => h x (by simp [hx])) hr hp (by
      simp [conToks] at hn; omega)]
    simp

/-- The tokens with which the column is printed. -/
noncomputable def printToks (c : Column) : List Token := by
  classical exact if h : ∃ us, ColOk c us then h.choose else []

theorem printToks_ok {c : Column} (h : ∃ us, ColOk c us) : ColOk c (printToks c) := by
  unfold printToks
  rw [dif_pos h]
  exact h.choose_spec

theorem colItems_reads {tbl : Ident} (con : List Constraint) (hcon : ∀ c ∈ con, ConOk c ∧ c.NoCheckNoAction)
    {rest : List Token} (hr : curT rest = .SEMICOLON) (hp : NoPanic rest) :
    ∀ (l cols : List Column) (n : Nat), (∀ c ∈ l, ∃ us, ColOk c us) →
    (tailToks (l.map printToks ++ con.map conToks)).length + 2 ≤ n →
    tableLoop tbl n cols [] (tailToks (l.map printToks ++ con.map conToks) ++ closeTok :: rest) =
      .ok (cols ++ l, con.foldl appendConstraint [], closeTok :: rest) := by
  intro l
  induction l with
  | nil =>
    intro cols n _ hn
    simp only [List.map_nil, List.nil_append, List.append_nil] at hn ⊢
    simpa using conItems_reads con cols [] n rest hcon hr hp hn
  | cons c l ih =>
    intro cols n h hn
    obtain ⟨n, rfl⟩ : ∃ k, n = k + 2 := ⟨n - 2, by omega⟩
    have hc := printToks_ok (h c (by simp))
    have hall : ∀ x ∈ l.map printToks ++ con.map conToks, NoPanic x := by
      intro x hx
      rcases List.mem_append.1 hx with hx | hx <;> obtain ⟨y, hy, rfl⟩ := List.mem_map.1 hx
      · exact (printToks_ok (h y (by simp [hy]))).noPanic
      · exact conToks_noPanic y
    have hnp : NoPanic (printToks c ++ (tailToks (l.map printToks ++ con.map conToks) ++ closeTok :: rest)) :=
      noPanic_append hc.noPanic (noPanic_append (tailToks_noPanic hall) (noPanic_cons (by decide) hp))
    have hnp' := noPanic_cons (t := commaTok) (by decide) hnp
    have hlen : 1 ≤ (printToks c).length ∧ ∀ r, curT (printToks c ++ r) = .IDENT := by
      obtain ⟨_, us, g, _, _, e⟩ := hc
      rw [e]
      simp
    simp only [List.map_cons, List.cons_append, tailToks, List.append_assoc, List.length_cons, List.length_append] at hn ⊢
    rw [tableLoop]
    simp only [curT_cons, commaTok_type, next_cons hnp', bind_ok]
    rw [if_neg (by decide), if_neg (by decide), if_pos trivial, tableLoop, if_pos (hlen.2 _), parseColumn_reads hc (tailToks_curT _ _) hnp]
    simp only [bind_ok, List.foldl_nil]
    rw [ih (cols ++ [c]) n (fun x hx => h x (by simp [hx])) (by have := hlen.1; omega)]
    simp

theorem items_read {tbl : Ident} {cols : List Column} {con : List Constraint} (hcols : ∀ c ∈ cols, ∃ us, ColOk c us)
    (hcon : ∀ c ∈ con, ConOk c ∧ c.NoCheckNoAction)
    {rest : List Token} (hr : curT rest = .SEMICOLON) (hp : NoPanic rest) {n : Nat}
    (hn : (sepToks (cols.map printToks ++ con.map conToks)).length + 2 ≤ n) :
    tableLoop tbl n [] [] (sepToks (cols.map printToks ++ con.map conToks) ++ closeTok :: rest) = .ok (cols, con.foldl appendConstraint [], closeTok :: rest) := by
  have key := colItems_reads (tbl := tbl) con hcon hr hp cols [] (n + 1) hcols
  cases e : cols.map printToks ++ con.map conToks with
  | nil =>
    rw [e] at key hn
    obtain ⟨rfl, rfl⟩ : cols = [] ∧ con = [] := by simpa using e
    obtain ⟨n, rfl⟩ : ∃ k, n = k + 1 := ⟨n - 1, by omega⟩
    simp [sepToks, tableLoop, isConstraint, peekT_cons, hr]
  | cons x l =>
    have hall : ∀ y ∈ x :: l, NoPanic y := by
      intro y hy
      rw [← e] at hy
      rcases List.mem_append.1 hy with hx | hx <;> obtain ⟨z, hz, rfl⟩ := List.mem_map.1 hx
      · exact (printToks_ok (hcols z hz)).noPanic
      · exact conToks_noPanic z
    rw [e] at key hn
    have hnp : NoPanic (commaTok :: (x ++ tailToks l ++ closeTok :: rest)) :=
      noPanic_cons (by decide) (noPanic_append (noPanic_append (hall x (by simp)) (tailToks_noPanic fun y hy => hall y (by simp [hy])))
        (noPanic_cons (by decide) hp))
    have key := key (by simp [tailToks, sepToks] at hn ⊢; omega)
    rw [tableLoop] at key
    simp only [tailToks, List.cons_append, curT_cons, commaTok_type, next_cons hnp, bind_ok] at key
    rw [if_neg (by decide), if_neg (by decide), if_pos trivial] at key
    exact key

/-! ## Tables -/

/-- The table, as it was read. -/
def TabOk (t : CreateTable) : Prop :=
  t.comment = [] ∧ t.options = [] ∧ (∃ raw, L ⟨.IDENT, raw⟩ ∧ t.name = newObjectName .postgres raw) ∧
  (∀ c ∈ t.columns, c.default ≠ some ⟨none⟩ → ∃ us, ColOk c us) ∧ ∀ c ∈ t.constraints, ConOk c

/-- The index, as it was read. -/
def IdxOk (i : CreateIndex) : Prop :=
  i.comment = [] ∧ NameOk i.name ∧ (∃ raw, L ⟨.IDENT, raw⟩ ∧ i.tableName = newObjectName .postgres raw) ∧
  (i.using_ = [] ∨ ∃ t, L t ∧ i.using_ = [newIdent t.lit [] t.lit]) ∧ ∀ c ∈ i.columns, NameOk c

theorem tableLoop_post {tbl : Ident} : ∀ (n : Nat) (cols : List Column) (cs : List Constraint) (ts : List Token), AllTok L ts →
    (∀ c ∈ cols, c.default ≠ some ⟨none⟩ → ∃ us, ColOk c us) → (∀ c ∈ cs, ConOk c) →
    Post (fun r => (∀ c ∈ r.1, c.default ≠ some ⟨none⟩ → ∃ us, ColOk c us) ∧ (∀ c ∈ r.2.1, ConOk c) ∧ AllTok L r.2.2)
      (tableLoop tbl n cols cs ts) := by
  intro n
  induction n with
  | zero => intros; exact trivial
  | succ n ih =>
    intro cols cs ts hL hcols hcs
    unfold tableLoop
    split
    · refine (parseColumn_post hL).bind ?_
      rintro ⟨col, ccs, ts₁⟩ ⟨h1, h2, h3⟩
      refine ih _ _ _ h3 ?_ ?_
      · intro c hc
        rcases List.mem_append.1 hc with hc | hc
        · exact hcols c hc
        · simp only [List.mem_singleton] at hc
          subst hc
          exact h1
      · intro c hc
        rcases foldl_append_mem c hc with h | h
        · exact hcs c h
        · exact h2 c h
    split
    · refine (parseTableConstraint_post hL).bind ?_
      rintro ⟨c, ts₁⟩ ⟨h1, h2⟩
      refine ih _ _ _ h2 hcols ?_
      intro x hx
      rcases appendConstraint_mem x hx with h | rfl
      · exact hcs x h
      · exact h1
    split
    · exact Post.next_bind (ih _ _ _ hL.tail hcols hcs)
    split
    · split
      · exact Post.ok ⟨hcols, hcs, hL⟩
      · exact trivial
    · exact trivial

theorem parseCreateTable_post {ts : List Token} (hL : AllTok L ts) :
    Post (fun r => TabOk r.1 ∧ AllTok L r.2) (parseCreateTable ts) := by
  unfold parseCreateTable
  refine (parseIfNotExists_post hL).bind ?_
  rintro ⟨ine, ts₁⟩ h1
  refine Post.next_bind (Post.checkCur_bind (fun hc => Post.next_bind (Post.checkCur_bind (fun _ => Post.next_bind ?_))))
  simp only [List.mem_singleton] at hc
  refine (tableLoop_post _ [] [] _ (AllTok.tail (AllTok.tail (AllTok.tail h1))) (by simp) (by simp)).bind ?_
  rintro ⟨cols, cs, ts₂⟩ ⟨h2, h3, h4⟩
  exact Post.ok ⟨⟨rfl, rfl, ⟨_, (AllTok.tail h1).ident hc (by decide), rfl⟩, h2, h3⟩, h4⟩

theorem parseUsing_post {ts : List Token} (hL : AllTok L ts) :
    Post (fun r => (r.1 = [] ∨ (∃ t, L t ∧ r.1 = [newIdent t.lit [] t.lit]) ∨ r.2 = []) ∧ AllTok L r.2) (parseUsing ts) := by
  unfold parseUsing
  split
  · refine Post.next_bind (Post.next_bind (Post.ok ⟨?_, hL.tail.tail⟩))
    right
    cases e : ts.tail with
    | nil => exact Or.inr rfl
    | cons t r => exact Or.inl ⟨t, hL.tail t (by simp [e]), rfl⟩
  · exact Post.ok ⟨Or.inl rfl, hL⟩

theorem parseCreateIndex_post {ts : List Token} (hL : AllTok L ts) :
    Post (fun r => IdxOk r.1 ∧ AllTok L r.2) (parseCreateIndex ts) := by
  have huq : Post (fun r => AllTok L r.2) (parseUnique ts) := by
    unfold parseUnique
    split
    · exact Post.next_bind (Post.ok hL.tail)
    · exact Post.ok hL
  unfold parseCreateIndex
  refine huq.bind ?_
  rintro ⟨uq, ts₀⟩ h0
  refine (parseIfNotExists_post h0).bind ?_
  rintro ⟨ine, ts₁⟩ h1
  refine Post.next_bind (Post.checkCur_bind (fun hc => Post.next_bind (Post.checkCur_bind (fun _ => Post.next_bind
    (Post.checkCur_bind (fun hc2 => Post.next_bind ?_))))))
  simp only [List.mem_singleton] at hc hc2
  have h1' : AllTok L ts₁.tail := AllTok.tail h1
  have h4 : AllTok L ts₁.tail.tail.tail.tail := h1'.tail.tail.tail
  generalize ts₁.tail.tail.tail.tail = us at h4
  refine (parseUsing_post h4).bind ?_
  rintro ⟨u, ts₅⟩ ⟨hu, h5⟩
  refine Post.checkCur_bind (fun hc5 => ?_)
  refine (parseColumnIdents_post h5).bind ?_
  rintro ⟨ids, ts₆⟩ ⟨h6, h7⟩
  refine Post.ok ⟨⟨rfl, nameOk_cur h1' hc, ⟨_, h1'.tail.tail.ident hc2 (by decide), rfl⟩, ?_, h6⟩, h7⟩
  rcases hu with hu | hu | hu
  · exact Or.inl hu
  · exact Or.inr hu
  · simp only at hu
    subst hu
    exact absurd hc5 (by decide)

/-- The statement, as it was read. -/
def StmtOk : PStmt → Prop
  | .createTable t => TabOk t
  | .createIndex i => IdxOk i
  | _ => False

theorem parseCreate_post {ts : List Token} (hL : AllTok L ts) : Post (fun r => StmtOk r.1 ∧ AllTok L r.2) (parseCreate ts) := by
  unfold parseCreate
  refine Post.next_bind ?_
  split
  · refine (parseCreateTable_post hL.tail).bind ?_
    rintro ⟨t, ts₁⟩ h
    exact Post.ok h
  split
  · refine (parseCreateIndex_post hL.tail).bind ?_
    rintro ⟨t, ts₁⟩ h
    exact Post.ok h
  · exact trivial

theorem parseLoop_post : ∀ (n : Nat) (ts : List Token), AllTok L ts →
    Post (fun l => ∀ s ∈ l, StmtOk s) (parseLoop parseCreate n ts) := by
  intro n
  induction n with
  | zero => intros; exact trivial
  | succ n ih =>
    intro ts hL
    unfold parseLoop
    split
    · refine (parseCreate_post hL).bind ?_
      rintro ⟨s, ts₁⟩ ⟨h1, h2⟩
      refine Post.next_bind ((ih _ (AllTok.tail h2)).bind ?_)
      intro l hl
      refine Post.ok ?_
      intro x hx
      rcases List.mem_cons.1 hx with rfl | hx
      · exact h1
      · exact hl x hx
    split
    · exact Post.next_bind (ih _ hL.tail)
    split
    · exact Post.ok (by simp)
    · exact trivial

theorem parse_post {s : Str} (hL : AllTok L (lex .postgres s)) {l : List PStmt} (h : parse s = .ok l) : ∀ x ∈ l, StmtOk x := by
  unfold parse parseTokens start at h
  split at h
  · cases h
  · exact (parseLoop_post _ _ hL).get h

/-! ## Reading the printed statements -/

def semiTok : Token := ⟨.SEMICOLON, s%";"⟩
def createTok : Token := ⟨.CREATE, s%"CREATE"⟩
def ineToks (b : Bool) : List Token := if b then [⟨.IF, s%"IF"⟩, notTok, ⟨.EXISTS, s%"EXISTS"⟩] else []

@[simp] theorem notTok_type : notTok.type = .NOT := rfl
@[simp] theorem semiTok_type : semiTok.type = .SEMICOLON := rfl
@[simp] theorem createTok_type : createTok.type = .CREATE := rfl

/-- The tokens of a table. -/
noncomputable def tabToks (t : CreateTable) : List Token :=
  createTok :: ⟨.TABLE, s%"TABLE"⟩ :: (ineToks t.ifNotExists ++ ⟨.IDENT, t.name.str⟩ :: openTok ::
    (sepToks (t.columns.map printToks ++ t.constraints.map conToks) ++ [closeTok, semiTok]))

/-- The tokens behind `USING`. -/
def usingToks (u : List Ident) (t : Token) : List Token := if u = [] then [] else [⟨.USING, s%"USING"⟩, t]

/-- The tokens of an index; `u` is the token behind `USING`. -/
def idxToks (i : CreateIndex) (u : Token) : List Token :=
  createTok :: ((if i.isUnique then [⟨.UNIQUE, s%"UNIQUE"⟩] else []) ++ ⟨.INDEX, s%"INDEX"⟩ :: (ineToks i.ifNotExists ++
    nameTok i.name :: ⟨.ON, s%"ON"⟩ :: ⟨.IDENT, i.tableName.str⟩ :: (usingToks i.using_ u ++ openTok :: (colToks i.columns ++
      [closeTok, semiTok]))))

theorem objName_ok {n : ObjectName} (h : ∃ raw, L ⟨.IDENT, raw⟩ ∧ n = newObjectName .postgres raw) :
    L ⟨.IDENT, n.str⟩ ∧ n = newObjectName .postgres n.str := by
  obtain ⟨raw, h, rfl⟩ := h
  rw [objectName_str h]
  exact ⟨h, rfl⟩

theorem ine_lex (b : Bool) (r : Str) :
    lex .postgres ((if b then s%"IF NOT EXISTS " else []) ++ r) = ineToks b ++ lex .postgres r := by
  cases b with
  | false => rfl
  | true =>
    simp only [if_true]
    rw [lex_lit (d := .postgres) (by decide) (by decide) (by decide)]
    rfl

theorem lex_tok {t : Token} (h : L t) {s : Str} (hs : Start s) : lex .postgres (t.lit ++ s) = t :: lex .postgres s :=
  lex_lx h hs.apart

theorem ineToks_read (b : Bool) {k t : Token} {rest : List Token} (ht : t.type ≠ .IF) (hp : NoPanic (k :: (ineToks b ++ t :: rest))) :
    ∃ k', parseIfNotExists (k :: (ineToks b ++ t :: rest)) = .ok (b, k' :: t :: rest) ∧ NoPanic (k' :: t :: rest) := by
  cases b with
  | false =>
    refine ⟨k, ?_, hp⟩
    simp [parseIfNotExists, ineToks, peekT_cons, ht]
  | true =>
    simp only [ineToks, if_true, List.cons_append, List.nil_append] at hp ⊢
    refine ⟨⟨.EXISTS, s%"EXISTS"⟩, ?_, hp.of_cons.of_cons.of_cons⟩
    simp [parseIfNotExists, peekT_cons, checkPeek, next_cons hp, next_cons hp.of_cons, next_cons hp.of_cons.of_cons]

theorem lex_createTable {t : CreateTable} (h : TabOk t) (hR : t.Rereadable) (s : Str) :
    lex .postgres (t.str ++ s) = tabToks t ++ lex .postgres s := by
  obtain ⟨hcom, hopt, hname, hcols, hcons⟩ := h
  have hn := objName_ok hname
  have op : ∀ r, Start (s%" (\n" ++ r) := fun r => start_cons (by decide)
  have hitems := lex_itemLines (t.columns.map (fun c => (c.str, printToks c)) ++ t.constraints.map (fun c => (c.str, conToks c))) (by
    intro p hp s hs
    rcases List.mem_append.1 hp with hp | hp <;> obtain ⟨c, hc, rfl⟩ := List.mem_map.1 hp
    · exact lex_column (printToks_ok (hcols c hc (hR.2 c hc))) hs
    · exact lex_constraint (hcons c hc) (hR.1 c hc).1 (hR.1 c hc).2)
  simp only [List.map_append, List.map_map, Function.comp_def] at hitems
  unfold CreateTable.str tabToks
  rw [hcom, hopt]
  simp only [commentStr, if_true, List.nil_append, List.append_nil, List.append_assoc]
  have hlast : (if t.constraints = [] then s%"\n" else s%",\n") = if t.constraints.map Constraint.str = [] then s%"\n" else s%",\n" := by
    simp
  rw [hlast, ← List.append_assoc (itemLines _ _), itemLines_append]
  rw [lex_lit (d := .postgres) (by decide) (by decide) (by decide), ine_lex, lex_tok hn.1 (op _),
    lex_lit (d := .postgres) (by decide) (by decide) (by decide), hitems,
    lex_lit (d := .postgres) (by decide) (by decide) (by decide),
    lex_lit (d := .postgres) (by decide) (by decide) (by decide)]
  simp only [List.append_assoc, List.cons_append, List.nil_append]
  rfl

theorem ineToks_noPanic (b : Bool) : NoPanic (ineToks b) := by
  cases b
  · exact noPanic_nil
  · exact noPanic_cons (by decide) (noPanic_cons (by decide) (noPanic_cons (by decide) noPanic_nil))

theorem tabToks_noPanic {t : CreateTable} (hcols : ∀ c ∈ t.columns, ∃ us, ColOk c us) : NoPanic (tabToks t) := by
  refine noPanic_cons (by decide) (noPanic_cons (by decide) (noPanic_append (ineToks_noPanic _) (noPanic_cons (by simp)
    (noPanic_cons (by decide) (noPanic_append (sepToks_noPanic ?_) (noPanic_cons (by decide) (noPanic_cons (by decide) noPanic_nil)))))))
  intro y hy
  rcases List.mem_append.1 hy with hx | hx <;> obtain ⟨z, hz, rfl⟩ := List.mem_map.1 hx
  · exact (printToks_ok (hcols z hz)).noPanic
  · exact conToks_noPanic z

theorem parseCreate_readsTable {t : CreateTable} (h : TabOk t) (hR : t.Rereadable)
    {rest : List Token} (hp : NoPanic rest) :
    parseCreate (tabToks t ++ rest) =
      .ok (.createTable { t with constraints := t.constraints.foldl appendConstraint [] }, closeTok :: semiTok :: rest) := by
  obtain ⟨hcom, hopt, hname, hcols, hcons⟩ := h
  have hn := objName_ok hname
  have hcols' : ∀ c ∈ t.columns, ∃ us, ColOk c us := fun c hc => hcols c hc (hR.2 c hc)
  have hp0 := noPanic_append (tabToks_noPanic hcols') hp
  unfold tabToks at hp0 ⊢
  simp only [List.cons_append, List.append_assoc, List.nil_append] at hp0 ⊢
  have hp1 := hp0.of_cons
  obtain ⟨k, e, hk⟩ := ineToks_read t.ifNotExists (by simp) hp1
  have hs : NoPanic (semiTok :: rest) := noPanic_cons (by decide) hp
  have hit := items_read (tbl := t.name.name) hcols' (fun c hc => ⟨hcons c hc, (hR.1 c hc).1⟩) (rest := semiTok :: rest) (by simp) hs
    (n := (sepToks (t.columns.map printToks ++ t.constraints.map conToks) ++ closeTok :: semiTok :: rest).length + 1) (by simp)
  unfold parseCreate
  simp only [next_cons hp0, bind_ok, curT_cons, if_true]
  unfold parseCreateTable
  simp only [e, bind_ok, next_cons hk, next_cons hk.of_cons, next_cons hk.of_cons.of_cons, checkCur, curT_cons, List.mem_singleton, if_true,
    openTok_type, curL_cons, ← hn.2, hit]
  obtain ⟨c, i, n, cols, cs, o⟩ := t
  simp only at hcom hopt
  subst hcom hopt
  rfl

/-! ## Indexes -/

theorem idxToks_noPanic {i : CreateIndex} {u : Token} (hu : i.using_ = [] ∨ L u) : NoPanic (idxToks i u) := by
  refine noPanic_cons (by decide) (noPanic_append ?_ (noPanic_cons (by decide) (noPanic_append (ineToks_noPanic _) (noPanic_cons (by simp)
    (noPanic_cons (by decide) (noPanic_cons (by simp) (noPanic_append ?_ (noPanic_cons (by decide) (noPanic_append (colToks_noPanic _)
      (noPanic_cons (by decide) (noPanic_cons (by decide) noPanic_nil)))))))))))
  · split
    · exact noPanic_cons (by decide) noPanic_nil
    · exact noPanic_nil
  · unfold usingToks
    split
    · exact noPanic_nil
    · rcases hu with h | h
      · contradiction
      · exact noPanic_cons (by decide) (noPanic_cons h.noPanic noPanic_nil)

theorem parseCreate_readsIndex {i : CreateIndex} (h : IdxOk i) {u : Token}
    (hu : i.using_ = [] ∨ (L u ∧ i.using_ = [newIdent u.lit [] u.lit])) {rest : List Token} (hp : NoPanic rest) :
    parseCreate (idxToks i u ++ rest) = .ok (.createIndex i, semiTok :: rest) := by
  obtain ⟨hcom, hname, htbl, _, hcols⟩ := h
  have hn := objName_ok htbl
  have hp0 := noPanic_append (idxToks_noPanic (i := i) (u := u) (hu.imp_right (·.1))) hp
  unfold idxToks at hp0 ⊢
  simp only [List.cons_append, List.append_assoc, List.nil_append] at hp0 ⊢
  have hp1 := hp0.of_cons
  have huq : ∀ r, NoPanic ((if i.isUnique then [⟨.UNIQUE, s%"UNIQUE"⟩] else []) ++ ⟨.INDEX, s%"INDEX"⟩ :: r) →
      parseUnique ((if i.isUnique then [⟨.UNIQUE, s%"UNIQUE"⟩] else []) ++ ⟨.INDEX, s%"INDEX"⟩ :: r) =
        .ok (i.isUnique, ⟨.INDEX, s%"INDEX"⟩ :: r) ∧
      curT ((if i.isUnique then [⟨.UNIQUE, s%"UNIQUE"⟩] else []) ++ (⟨.INDEX, s%"INDEX"⟩ : Token) :: r) ∈ [.INDEX, .UNIQUE] := by
    intro r hr
    revert hr
    cases i.isUnique with
    | false => simp [parseUnique]
    | true =>
      simp only [if_true, List.cons_append, List.nil_append]
      intro hr
      simp [parseUnique, next_cons hr]
  obtain ⟨k, e, hk⟩ := ineToks_read i.ifNotExists (by simp) hp1.of_append
  have husing : ∀ r, NoPanic (⟨.IDENT, i.tableName.str⟩ :: (usingToks i.using_ u ++ openTok :: r)) →
      parseUsing (usingToks i.using_ u ++ openTok :: r) = .ok (i.using_, openTok :: r) := by
    intro r hr
    rcases hu with hu | ⟨_, hu⟩
    · simp [hu, usingToks, parseUsing]
    · simp only [hu, usingToks, List.cons_ne_nil, if_false, List.cons_append, List.nil_append] at hr ⊢
      simp [parseUsing, next_cons hr.of_cons, next_cons hr.of_cons.of_cons]
  obtain ⟨hu1, hu2⟩ := huq _ hp1
  unfold parseCreate
  simp only [next_cons hp0, bind_ok]
  rw [if_neg, if_pos]
  rotate_left
  · simpa using hu2
  · intro e
    rw [e] at hu2
    simp at hu2
  unfold parseCreateIndex
  simp only [hu1, e, bind_ok, next_cons hk, next_cons hk.of_cons, next_cons hk.of_cons.of_cons, next_cons hk.of_cons.of_cons.of_cons,
    checkCur, curT_cons, List.mem_singleton, if_true, nameTok_type, nameTok_lit,
    openTok_type, curL_cons, ← hn.2, ← hname.1, husing _ hk.of_cons.of_cons.of_cons]
  rw [parseColumnIdents_reads hcols hk.of_cons.of_cons.of_cons.of_cons.of_append]
  obtain ⟨c, q, ine, n, tn, us, cols⟩ := i
  simp only at hcom
  subst hcom
  rfl

theorem lex_createIndex {i : CreateIndex} (h : IdxOk i) {u : Token}
    (hu : i.using_ = [] ∨ (L u ∧ i.using_ = [newIdent u.lit [] u.lit])) (s : Str) :
    lex .postgres (i.str ++ s) = idxToks i u ++ lex .postgres s := by
  obtain ⟨hcom, hname, htbl, _, hcols⟩ := h
  have hn := objName_ok htbl
  have on : ∀ r, Start (s%" ON " ++ r) := fun r => start_cons (by decide)
  have op : ∀ r, Start (s%" (" ++ r) := fun r => start_cons (by decide)
  have cl : ∀ r, Start (s%");\n" ++ r) := fun r => start_cons (by decide)
  have huq : ∀ r, lex .postgres ((if i.isUnique then s%"UNIQUE " else []) ++ r) =
      (if i.isUnique then [⟨.UNIQUE, s%"UNIQUE"⟩] else []) ++ lex .postgres r := by
    intro r
    cases i.isUnique with
    | false => rfl
    | true =>
      simp only [if_true]
      rw [lex_lit (d := .postgres) (by decide) (by decide) (by decide)]
      rfl
  have husing : ∀ r, Start r → Start ((if i.using_ = [] then [] else s%" USING " ++ join s%" " (i.using_.map Ident.str)) ++ r) ∧
      lex .postgres ((if i.using_ = [] then [] else s%" USING " ++ join s%" " (i.using_.map Ident.str)) ++ r) =
      usingToks i.using_ u ++ lex .postgres r := by
    intro r hr
    rcases hu with hu | ⟨hL, hu⟩
    · simp [hu, usingToks, hr]
    · simp only [hu, usingToks, List.cons_ne_nil, if_false, List.map_cons, List.map_nil, join, Ident.str, List.append_assoc]
      refine ⟨start_cons (by decide), ?_⟩
      rw [lex_lit (d := .postgres) (by decide) (by decide) (by decide)]
      have : (newIdent u.lit [] u.lit).raw = u.lit := rfl
      rw [this, lex_tok hL hr]
      rfl
  unfold CreateIndex.str idxToks
  rw [hcom]
  simp only [commentStr, if_true, List.nil_append, List.append_assoc, Ident.str]
  rw [lex_lit (d := .postgres) (by decide) (by decide) (by decide), huq,
    lex_lit (d := .postgres) (by decide) (by decide) (by decide), ine_lex, lex_name hname (on _),
    lex_lit (d := .postgres) (by decide) (by decide) (by decide), lex_tok hn.1 (husing _ (op _)).1, (husing _ (op _)).2,
    lex_lit (d := .postgres) (by decide) (by decide) (by decide), lex_columnsStr (cl _) _ hcols,
    lex_lit (d := .postgres) (by decide) (by decide) (by decide)]
  simp only [List.append_assoc, List.cons_append, List.nil_append]
  rfl

/-! ## Statement lists -/

/-- What is needed of a statement so that it is read again. -/
def Again : PStmt → Prop
  | .createTable t => TabOk t ∧ t.Rereadable ∧ NodupNames t.constraints
  | .createIndex i => IdxOk i
  | _ => False

/-- The printed statement has tokens, which are read as the statement. -/
theorem stmt_again {sd : Str → Str → Str} {x : PStmt} (h : Again x) :
    ∃ us, (∀ s, lex .postgres (stmtStr (ops sd) x ++ s) = us ++ lex .postgres s) ∧ NoPanic us ∧ (∀ r, curT (us ++ r) = .CREATE) ∧
      2 ≤ us.length ∧ ∀ rest, NoPanic rest → ∃ k r, parseCreate (us ++ rest) = .ok (x, k :: r) ∧ NoPanic (k :: r) ∧
        (r = rest ∨ r = semiTok :: rest) := by
  cases x with
  | createTable t =>
    obtain ⟨h1, h2, h3⟩ := h
    refine ⟨tabToks t, lex_createTable h1 h2, tabToks_noPanic fun c hc => h1.2.2.2.1 c hc (h2.2 c hc), fun r => rfl, by simp [tabToks], ?_⟩
    intro rest hp
    have e := parseCreate_readsTable h1 h2 hp
    rw [foldl_append_new _ [] (by simpa using h3), List.nil_append] at e
    exact ⟨_, _, e, noPanic_cons (by decide) (noPanic_cons (by decide) hp), Or.inr rfl⟩
  | createIndex i =>
    obtain ⟨u, hu⟩ : ∃ u, i.using_ = [] ∨ (L u ∧ i.using_ = [newIdent u.lit [] u.lit]) := by
      rcases h.2.2.2.1 with h | ⟨u, h⟩
      · exact ⟨semiTok, Or.inl h⟩
      · exact ⟨u, Or.inr h⟩
    refine ⟨idxToks i u, lex_createIndex h hu, idxToks_noPanic (hu.imp_right (·.1)), fun r => rfl, by simp [idxToks]; omega, ?_⟩
    intro rest hp
    exact ⟨_, _, parseCreate_readsIndex h hu hp, noPanic_cons (by decide) hp, Or.inl rfl⟩
  | alterTable a => exact h.elim
  | dropTable => exact h.elim
  | dropIndex => exact h.elim

theorem stmts_again {sd : Str → Str → Str} : ∀ l : List PStmt, (∀ x ∈ l, Again x) →
    NoPanic (lex .postgres (ddlStr (ops sd) l)) ∧
      ∀ n, (lex .postgres (ddlStr (ops sd) l)).length + 1 ≤ n → parseLoop parseCreate n (lex .postgres (ddlStr (ops sd) l)) = .ok l := by
  intro l
  induction l with
  | nil =>
    intro _
    refine ⟨noPanic_nil, ?_⟩
    intro n hn
    obtain ⟨n, rfl⟩ : ∃ k, n = k + 1 := ⟨n - 1, by omega⟩
    rfl
  | cons x l ih =>
    intro h
    obtain ⟨hp, ih⟩ := ih fun y hy => h y (by simp [hy])
    obtain ⟨us, h1, h2, h3, h4, h5⟩ := stmt_again (sd := sd) (h x (by simp))
    have e : lex .postgres (ddlStr (ops sd) (x :: l)) = us ++ lex .postgres (ddlStr (ops sd) l) := by
      rw [← h1]
      rfl
    rw [e]
    refine ⟨noPanic_append h2 hp, ?_⟩
    intro n hn
    rw [List.length_append] at hn
    obtain ⟨n, rfl⟩ : ∃ k, n = k + 2 := ⟨n - 2, by omega⟩
    obtain ⟨k, r, e1, e2, e3⟩ := h5 _ hp
    rw [parseLoop, if_pos (h3 _), e1]
    simp only [bind_ok, next_cons e2]
    rcases e3 with rfl | rfl
    · rw [ih _ (by omega)]
      rfl
    · rw [parseLoop, if_neg (by simp), if_pos (by simp), next_cons e2.of_cons]
      simp only [bind_ok]
      rw [ih _ (by omega)]
      rfl

theorem parse_again {sd : Str → Str → Str} {l : List PStmt} (h : ∀ x ∈ l, Again x) :
    parse (ddlStr (ops sd) l) = .ok l := by
  obtain ⟨h1, h2⟩ := stmts_again (sd := sd) l h
  unfold parse parseTokens
  rw [h1.start]
  exact h2 _ (by omega)

/-- Reading one printed table, also if constraint names occur several times. -/
theorem parse_table {t : CreateTable} (h : TabOk t) (hR : t.Rereadable) :
    parse t.str = .ok [.createTable { t with constraints := t.constraints.foldl appendConstraint [] }] := by
  have e := lex_createTable h hR []
  rw [List.append_nil, show lex .postgres [] = [] from rfl, List.append_nil] at e
  have hp : NoPanic (tabToks t) := tabToks_noPanic fun c hc => h.2.2.2.1 c hc (hR.2 c hc)
  have e1 := parseCreate_readsTable h hR noPanic_nil
  rw [List.append_nil] at e1
  have hp2 : NoPanic [closeTok, semiTok] := noPanic_cons (by decide) (noPanic_cons (by decide) noPanic_nil)
  unfold parse parseTokens
  rw [e, hp.start]
  simp only [bind_ok]
  obtain ⟨n, hn⟩ : ∃ n, (tabToks t).length + 1 = n + 3 := ⟨(tabToks t).length - 2, by simp [tabToks]⟩
  rw [hn, parseLoop, if_pos (show curT (tabToks t) = .CREATE from rfl), e1]
  simp only [bind_ok, next_cons hp2]
  rw [parseLoop, if_neg (by decide), if_pos (by decide), next_cons hp2.of_cons]
  simp only [bind_ok]
  rfl

end Pg
end Ddl
