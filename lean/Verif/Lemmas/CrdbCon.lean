import Verif.Lemmas.CrdbColumn
import Verif.Lemmas.PgTable
import Verif.Crdb.Diff

/-! # CockroachDB: statements, printed and read again -/

namespace Ddl.Crdb
open Spec
set_option autoImplicit false

theorem objectName_str {raw : Str} (h : L ⟨.IDENT, raw⟩) : (newObjectName .cockroachdb raw).str = raw := by
  rcases h with ⟨h1, h2, h3⟩ | ⟨_, q, body, hq, h2, hb⟩ | ⟨h1, _⟩ | ⟨h1, _⟩ | ⟨h1, _⟩ | ⟨c, h1, _⟩
  · refine newObjectName_plain (newRawIdent_word h2) ?_
    intro a b e
    simp only at h2 e
    rw [e] at h2
    exact ⟨newRawIdent_word (fun c hc => h2 c (by simp [hc])), newRawIdent_word (fun c hc => h2 c (by simp [hc]))⟩
  · simp only at h2
    subst h2
    simp only [quotes, List.mem_cons, List.not_mem_nil, or_false] at hq
    rcases hq with rfl | rfl
    · exact newObjectName_quoted (by decide) (fun h => (hb _ h).1 rfl)
    · refine newObjectName_plain (newRawIdentQ_open ?_) ?_
      · intro q hq
        simp only [quotationMarks, List.mem_singleton] at hq
        subst hq
        left; simp
      · intro a b e
        have ha : a.head? ≠ some '"' := by
          cases a with
          | nil => simp
          | cons x r => simp at e; simp [← e.1]
        have hb' : b.getLast? ≠ some '"' := by
          have := congrArg List.getLast? e
          rw [List.getLast?_concat, List.getLast?_append, List.getLast?_cons] at this
          intro h
          rw [h] at this
          simp at this
        exact ⟨newRawIdentQ_open fun q hq => Or.inl (by simp only [quotationMarks, List.mem_singleton] at hq; exact hq ▸ ha),
          newRawIdentQ_open fun q hq => Or.inr (by simp only [quotationMarks, List.mem_singleton] at hq; exact hq ▸ hb')⟩
  · cases h1
  · cases h1
  · cases h1
  · have : ∀ p ∈ symbols, p.2 ≠ .IDENT := by decide
    exact absurd rfl (this _ h1)

/-! ## `USING` -/

def usingTok : Token := ⟨.USING, s%"USING"⟩
def withTok : Token := ⟨.WITH, s%"WITH"⟩
@[simp] theorem usingTok_type : usingTok.type = .USING := rfl
@[simp] theorem withTok_type : withTok.type = .WITH := rfl

/-- The names behind `USING`. -/
def MethodOk (v : Option Expr) (vs : List Ident) : Prop := ((v = none ∧ vs = []) ∨ (v = some vs ∧ vs ≠ [])) ∧ ∀ i ∈ vs, NameOk i

/-- What stands behind `WITH`, with its tokens. -/
def WithOk (w : Option Expr) (us : List Token) : Prop :=
  (w = none ∧ us = []) ∨ ∃ g, Grp g ∧ w = some (rawIdent s%"(" :: ids g) ∧ us = withTok :: openTok :: toks g

/-- `USING` is printed with the tokens `ts`. -/
def UsOk (u : Using) (ts : List Token) : Prop :=
  ∃ vs us, MethodOk u.value vs ∧ WithOk u.with_ us ∧ ts = usingTok :: (vs.map nameTok ++ us)

theorem usingLoop_post : ∀ (n : Nat) (v w : Option Expr) (ts : List Token), AllTok L ts → (∃ vs, MethodOk v vs) → (∃ us, WithOk w us) →
    Post (fun r => (∃ us, UsOk r.1 us) ∧ AllTok L r.2) (usingLoop n v w ts) := by
  intro n
  induction n with
  | zero => intros; exact trivial
  | succ n ih =>
    intro v w ts hL hv hw
    unfold usingLoop
    split
    · exact Post.next_bind (ih _ _ _ hL.tail hv hw)
    split
    · rename_i hc
      refine Post.next_bind (ih _ _ _ hL.tail ?_ hw)
      obtain ⟨vs, h1, h2⟩ := hv
      refine ⟨vs ++ [rawIdent (curL ts)], Or.inr ⟨?_, by simp⟩, ?_⟩
      · rcases h1 with ⟨rfl, rfl⟩ | ⟨rfl, _⟩ <;> simp [appendExpr]
      · intro i hi
        rcases List.mem_append.1 hi with hi | hi
        · exact h2 i hi
        · simp only [List.mem_singleton] at hi
          subst hi
          exact nameOk_cur hL hc
    split
    · refine Post.next_bind ((parseExpr_post hL.tail).bind ?_)
      rintro ⟨i₁, ts₁⟩ ⟨⟨g₁, hg₁, e₁⟩, h₁⟩
      exact ih _ _ _ h₁ hv ⟨_, Or.inr ⟨g₁, hg₁, congrArg some e₁, rfl⟩⟩
    split
    · obtain ⟨vs, hv⟩ := hv
      obtain ⟨us, hw⟩ := hw
      exact Post.ok ⟨⟨_, vs, us, hv, hw, rfl⟩, hL⟩
    · exact trivial

theorem parseUsingOpt_post {ts : List Token} (hL : AllTok L ts) :
    Post (fun r => (∀ u, r.1 = some u → ∃ us, UsOk u us) ∧ AllTok L r.2) (parseUsingOpt ts) := by
  unfold parseUsingOpt
  split
  · refine (usingLoop_post _ none none _ hL ⟨[], Or.inl ⟨rfl, rfl⟩, by simp⟩ ⟨[], Or.inl ⟨rfl, rfl⟩⟩).bind ?_
    rintro ⟨u, ts₁⟩ ⟨h, h₁⟩
    refine Post.next_bind (Post.ok ⟨?_, AllTok.tail h₁⟩)
    intro u' e
    cases e
    exact h
  · exact Post.ok ⟨by simp, hL⟩

theorem usingLoop_reads_with {w : Option Expr} {us : List Token} (hw : WithOk w us) {n : Nat} {v : Option Expr} {rest : List Token}
    (hn : us.length + 1 ≤ n) (hr : curT rest ∈ [.COMMA, .CLOSE_PAREN]) (hp : NoPanic (us ++ rest)) :
    usingLoop n v none (us ++ rest) = .ok (⟨v, w⟩, rest) := by
  simp only [List.mem_cons, List.not_mem_nil, or_false] at hr
  have stop : ∀ m w, usingLoop (m + 1) v w rest = .ok (⟨v, w⟩, rest) := by
    intro m w
    unfold usingLoop
    rw [if_neg (by rcases hr with h | h <;> simp [h]), if_neg (by rcases hr with h | h <;> simp [h]),
      if_neg (by rcases hr with h | h <;> simp [h]), if_pos (by rcases hr with h | h <;> simp [h])]
  obtain ⟨n, rfl⟩ : ∃ m, n = m + 1 := ⟨n - 1, by omega⟩
  rcases hw with ⟨rfl, rfl⟩ | ⟨g, hg, rfl, rfl⟩
  · exact stop _ _
  · obtain ⟨n, rfl⟩ : ∃ m, n = m + 1 := ⟨n - 1, by simp at hn; omega⟩
    simp only [List.cons_append] at hp ⊢
    rw [usingLoop, if_neg (by simp), if_neg (by simp), if_pos (by simp), next_cons hp]
    simp only [bind_ok]
    rw [parseExpr_reads hg hp.of_cons]
    simp only [bind_ok, stop]

theorem usingLoop_reads_names {w : Option Expr} {us : List Token} (hw : WithOk w us) {rest : List Token}
    (hr : curT rest ∈ [.COMMA, .CLOSE_PAREN]) : ∀ (vs : List Ident), (∀ i ∈ vs, NameOk i) → ∀ (n : Nat) (v : Option Expr),
    vs.length + us.length + 1 ≤ n → NoPanic (vs.map nameTok ++ (us ++ rest)) →
    usingLoop n v none (vs.map nameTok ++ (us ++ rest)) = .ok (⟨if vs = [] then v else some (v.getD [] ++ vs), w⟩, rest) := by
  intro vs
  induction vs with
  | nil =>
    intro _ n v hn hp
    simp only [List.map_nil, List.nil_append, if_true] at hp ⊢
    exact usingLoop_reads_with hw (by simpa using hn) hr hp
  | cons i vs ih =>
    intro h n v hn hp
    obtain ⟨n, rfl⟩ : ∃ m, n = m + 1 := ⟨n - 1, by simp at hn; omega⟩
    have hi : rawIdent i.raw = i := (h i (by simp)).1.symm
    simp only [List.map_cons, List.cons_append, List.length_cons] at hn hp ⊢
    rw [usingLoop, if_neg (by simp), if_pos (by simp), next_cons hp]
    simp only [bind_ok, curL_cons, nameTok_lit, hi]
    rw [ih (fun x hx => h x (by simp [hx])) n _ (by omega) hp.of_cons]
    simp only [appendExpr, Option.getD_some, List.cons_ne_nil, if_false]
    by_cases he : vs = []
    · simp [he]
    · simp [he]

/-- `USING` is read together with the token behind it. -/
theorem parseUsingOpt_reads {u : Using} {us : List Token} (h : UsOk u us) {t : Token} {rest : List Token}
    (hr : t.type ∈ [.COMMA, .CLOSE_PAREN]) (hp : NoPanic (us ++ t :: rest)) :
    parseUsingOpt (us ++ t :: rest) = .ok (some u, rest) := by
  obtain ⟨vs, ws, ⟨hv, hvs⟩, hw, rfl⟩ := h
  simp only [List.cons_append, List.append_assoc] at hp ⊢
  unfold parseUsingOpt
  rw [if_pos (by simp)]
  unfold parseUsing
  have e := usingLoop_reads_names hw (rest := t :: rest) (by simpa using hr) vs hvs
    ((usingTok :: (vs.map nameTok ++ (ws ++ t :: rest))).length) none (by simp) hp.of_cons
  rw [usingLoop, if_pos (by simp), next_cons hp]
  simp only [bind_ok]
  rw [e]
  have hpr : NoPanic (t :: rest) := hp.of_cons.of_append.of_append
  simp only [bind_ok, next_cons hpr]
  obtain ⟨v, w⟩ := u
  simp only at hv
  rcases hv with ⟨rfl, rfl⟩ | ⟨rfl, hne⟩
  · simp
  · simp [hne]

theorem nameOk_noCast {i : Ident} (h : NameOk i) : i.raw ∉ [s%"::", s%":::"] := by
  intro hc
  rcases h.2 with ⟨h1, h2, h3⟩ | ⟨_, q, body, hq, h2, hb⟩ | ⟨h1, _⟩ | ⟨h1, _⟩ | ⟨h1, _⟩ | ⟨c, h1, h2⟩
  · simp only [List.mem_cons, List.not_mem_nil, or_false] at hc
    rcases hc with e | e <;> (simp only [e] at h2; exact absurd (h2 ':' (by simp)) (by decide))
  · have hq' : q ≠ ':' := by rintro rfl; exact absurd hq (by decide)
    simp only at h2
    simp only [List.mem_cons, List.not_mem_nil, or_false] at hc
    rcases hc with e | e <;> (rw [e] at h2; simp at h2; exact hq' h2.1.symm)
  · cases h1
  · cases h1
  · cases h1
  · have : ∀ p ∈ symbols, p.2 ≠ .IDENT := by decide
    exact absurd rfl (this _ h1)

theorem apartCasts_names : ∀ l : List Ident, (∀ i ∈ l, NameOk i) → ApartCasts l
  | [], _ => trivial
  | [_], _ => trivial
  | i :: j :: r, h => ⟨fun e => nameOk_noCast (h i (by simp)) e.1, apartCasts_names (j :: r) fun x hx => h x (by simp [hx])⟩

theorem lex_names {vs : List Ident} (h : ∀ i ∈ vs, NameOk i) {s : Str} (hs : Start s) :
    lex .cockroachdb (exprStr vs ++ s) = vs.map nameTok ++ lex .cockroachdb s := by
  have e1 : ids (vs.map fun i => ((i, [nameTok i]) : Word)) = vs := by
    simp [ids, Function.comp_def]
  have e2 : toks (vs.map fun i => ((i, [nameTok i]) : Word)) = vs.map nameTok := by
    clear e1 h
    induction vs with
    | nil => rfl
    | cons a r ih => simp [ih]
  have := lex_exprStr hs (vs.map fun i => ((i, [nameTok i]) : Word)) (by
    intro w hw
    obtain ⟨i, hi, rfl⟩ := List.mem_map.1 hw
    exact wordOk_tok (h i hi).2 rfl) (by rw [e1]; exact apartCasts_names _ h)
  rw [e1, e2] at this
  exact this

theorem lex_using {u : Using} {us : List Token} (h : UsOk u us) (hc : ∀ e, u.with_ = some e → ApartCasts e) {s : Str} (hs : Start s) :
    Start (usingStr (some u) ++ s) ∧ lex .cockroachdb (usingStr (some u) ++ s) = us ++ lex .cockroachdb s := by
  obtain ⟨vs, ws, ⟨hv, hvs⟩, hw, rfl⟩ := h
  refine ⟨start_app (by decide), ?_⟩
  have hval : u.value.getD [] = vs := by rcases hv with ⟨h, rfl⟩ | ⟨h, _⟩ <;> simp [h]
  simp only [usingStr, Using.str, hval, List.append_assoc]
  rw [List.cons_append, lex_ws .cockroachdb ' ' _ rfl, List.nil_append, lex_lit (d := .cockroachdb) (by decide) (by decide) (by decide)]
  obtain ⟨v, w⟩ := u
  simp only at hc hw hv ⊢
  rcases hw with ⟨rfl, rfl⟩ | ⟨g, hg, rfl, rfl⟩
  · simp only [List.nil_append, List.append_nil]
    rw [lex_names hvs hs]
    simp only [List.cons_append]
    rfl
  · simp only [List.append_assoc]
    rw [lex_names hvs (start_app (by decide)), List.cons_append, lex_ws .cockroachdb ' ' _ rfl, List.nil_append,
      lex_lit (d := .cockroachdb) (by decide) (by decide) (by decide)]
    have := lex_exprStr hs ((rawIdent s%"(", [openTok]) :: g) (by
      intro w hw
      rcases List.mem_cons.1 hw with rfl | hw
      · exact openWord_ok
      · exact hg.ok w hw) (hc _ rfl)
    rw [ids_cons] at this
    rw [this]
    simp only [List.cons_append, List.append_assoc, toks_cons, List.nil_append]
    rfl

/-- The tokens with which `USING` is printed. -/
noncomputable def usToks (u : Option Using) : List Token := by
  classical exact match u with
  | none => []
  | some u => if h : ∃ us, UsOk u us then h.choose else []

theorem usToks_ok {u : Using} (h : ∃ us, UsOk u us) : UsOk u (usToks (some u)) := by
  unfold usToks
  simp only [dif_pos h]
  exact h.choose_spec

/-! ## Constraints -/

/-- The action of a foreign key consists of words. -/
def ActOk (act : Str) : Prop :=
  ∃ ws : List Token, AllTok L ws ∧ (∀ w ∈ ws, w.type ∉ [.COMMA, .CLOSE_PAREN]) ∧ act = join s%" " (ws.map (·.lit))

theorem actOk_nil : ActOk [] := ⟨[], .nil, by simp, rfl⟩

/-- The columns and referenced tables are names, and expressions are in brackets. -/
def ConOk (c : Constraint) : Prop :=
  c.name = rawIdent c.name.raw ∧
  match c with
  | .primaryKey _ cs => ∀ i ∈ cs, NameOk i.ident
  | .index _ _ pre cs post => pre = none ∧ (∀ i ∈ cs, NameOk i.ident) ∧ ∀ u, post = some u → ∃ us, UsOk u us
  | .foreignKey _ cs r rcs act => (∀ i ∈ cs, NameOk i.ident) ∧ NameOk r ∧ (∀ i ∈ rcs, NameOk i.ident) ∧ ActOk act
  | .check _ e => ∃ g, Grp g ∧ e = rawIdent s%"(" :: ids g

def constraintTok : Token := ⟨.CONSTRAINT, s%"CONSTRAINT"⟩

/-- The tokens of a constraint behind its name. -/
def conBody : Constraint → List Token
  | .primaryKey _ cs => ⟨.PRIMARY, s%"PRIMARY"⟩ :: ⟨.KEY, s%"KEY"⟩ :: openTok :: (colToks cs ++ [closeTok])
  | .foreignKey _ cs r rcs _ =>
    ⟨.FOREIGN, s%"FOREIGN"⟩ :: ⟨.KEY, s%"KEY"⟩ :: openTok :: (colToks cs ++ closeTok :: ⟨.REFERENCES, s%"REFERENCES"⟩ ::
      nameTok r :: openTok :: (colToks rcs ++ [closeTok]))
  | _ => []

/-- The tokens of `UNIQUE`. -/
def uqToks (uq : Bool) : List Token := if uq then [⟨.UNIQUE, s%"UNIQUE"⟩] else []

/-- The tokens of a constraint. -/
noncomputable def conToks : Constraint → List Token
  | .index n uq _ cs post => uqToks uq ++ ⟨.INDEX, s%"INDEX"⟩ :: nameTok n :: openTok :: (colToks cs ++ closeTok :: usToks post)
  | c => constraintTok :: nameTok c.name :: conBody c

theorem rawIdent_ok {s : Str} : rawIdent s = rawIdent (rawIdent s).raw := by simp

/-- Words of an action that were read. -/
theorem actOk_words {ts : List Token} (hL : AllTok L ts) (h0 : curT ts = .ON) (h1 : curT ts.tail ∈ [.DELETE, .UPDATE])
    (h2 : curT ts.tail.tail ∈ [.CASCADE, .NO]) :
    ActOk (curL ts ++ s%" " ++ curL ts.tail ++ s%" " ++ curL ts.tail.tail) ∧
      (curT ts.tail.tail.tail = .ACTION →
        ActOk (curL ts ++ s%" " ++ curL ts.tail ++ s%" " ++ curL ts.tail.tail ++ s%" " ++ curL ts.tail.tail.tail)) := by
  have k : ∀ (us : List Token) (T : List TokType), AllTok L us → .EOF ∉ T → .COMMA ∉ T → .CLOSE_PAREN ∉ T → curT us ∈ T →
      L (cur us) ∧ (cur us).type ∉ [.COMMA, .CLOSE_PAREN] := by
    intro us T h hE hC hP hT
    refine ⟨h.cur (by intro e; rw [e] at hT; exact hE hT), ?_⟩
    have : (cur us).type = curT us := rfl
    rw [this]
    intro hm
    simp only [List.mem_cons, List.not_mem_nil, or_false] at hm
    rcases hm with e | e <;> rw [e] at hT
    · exact hC hT
    · exact hP hT
  have k0 := k ts [.ON] hL (by decide) (by decide) (by decide) (by simp [h0])
  have k1 := k ts.tail _ hL.tail (by decide) (by decide) (by decide) h1
  have k2 := k ts.tail.tail _ hL.tail.tail (by decide) (by decide) (by decide) h2
  refine ⟨⟨[cur ts, cur ts.tail, cur ts.tail.tail], .cons k0.1 (.cons k1.1 (.cons k2.1 .nil)), ?_, ?_⟩, ?_⟩
  · intro w hw
    simp only [List.mem_cons, List.not_mem_nil, or_false] at hw
    rcases hw with rfl | rfl | rfl
    · exact k0.2
    · exact k1.2
    · exact k2.2
  · simp [join]; rfl
  · intro h3
    have k3 := k ts.tail.tail.tail [.ACTION] hL.tail.tail.tail (by decide) (by decide) (by decide) (by simp [h3])
    refine ⟨[cur ts, cur ts.tail, cur ts.tail.tail, cur ts.tail.tail.tail], .cons k0.1 (.cons k1.1 (.cons k2.1 (.cons k3.1 .nil))), ?_, ?_⟩
    · intro w hw
      simp only [List.mem_cons, List.not_mem_nil, or_false] at hw
      rcases hw with rfl | rfl | rfl | rfl
      · exact k0.2
      · exact k1.2
      · exact k2.2
      · exact k3.2
    · simp [join]; rfl

theorem columnConstraintsLoop_post {tbl col : Ident} (hcol : NameOk col) : ∀ (n : Nat) (cs : List Constraint) (ts : List Token),
    AllTok L ts → (∀ c ∈ cs, ConOk c) →
    Post (fun r => (∀ c ∈ r.1, ConOk c) ∧ AllTok L r.2) (columnConstraintsLoop tbl col n cs ts) := by
  have app : ∀ (cs : List Constraint) (c : Constraint), (∀ c ∈ cs, ConOk c) → ConOk c → ∀ x ∈ appendConstraint cs c, ConOk x := by
    intro cs c h hc x hx
    rcases appendConstraint_mem x hx with h' | rfl
    · exact h x h'
    · exact hc
  have one : ∀ i ∈ [(⟨col, none⟩ : ColumnIdent)], NameOk i.ident := by simpa using hcol
  intro n
  induction n with
  | zero => intro cs ts _ _; exact trivial
  | succ n ih =>
    intro cs ts hL hcs
    unfold columnConstraintsLoop
    split
    · refine Post.checkPeek_bind (fun _ => Post.next_bind (Post.next_bind (ih _ _ hL.tail.tail (app _ _ hcs ⟨?_, one⟩))))
      simp [Constraint.name]
    split
    · refine Post.checkPeek_bind (fun hp => Post.next_bind ?_)
      simp only [List.mem_singleton] at hp
      refine Post.next_bind ((parseColumnIdents_post hL.tail.tail).bind ?_)
      rintro ⟨i, ts₁⟩ ⟨hi, h₁⟩
      have hact : Post (fun r => ActOk r.1 ∧ AllTok L r.2) (parseOnActionColumn ts₁) := by
        unfold parseOnActionColumn
        split
        · rename_i h0
          refine Post.next_bind (Post.checkCur_bind (fun ha => Post.checkPeek_bind (fun hb => Post.next_bind ?_)))
          have := actOk_words h₁ h0 ha hb
          split
          · exact Post.checkPeek_bind (fun hd => Post.next_bind (Post.ok ⟨this.2 (List.mem_singleton.1 hd), h₁.tail.tail.tail⟩))
          · exact Post.ok ⟨this.1, h₁.tail.tail⟩
        · exact Post.ok ⟨actOk_nil, h₁⟩
      refine hact.bind ?_
      rintro ⟨act, ts₂⟩ ⟨hact, h₂⟩
      refine Post.next_bind (ih _ _ (AllTok.tail h₂) (app _ _ hcs ⟨?_, one, nameOk_cur hL.tail hp, hi, hact⟩))
      simp [Constraint.name]
    split
    · refine Post.next_bind (ih _ _ hL.tail (app _ _ hcs ⟨?_, rfl, one, by simp⟩))
      simp [Constraint.name]
    split
    · refine Post.checkPeek_bind (fun _ => Post.next_bind ((parseExpr_post hL.tail).bind ?_))
      rintro ⟨i, ts₁⟩ ⟨he, h₁⟩
      refine Post.next_bind (ih _ _ (AllTok.tail h₁) (app _ _ hcs ⟨?_, he⟩))
      simp [Constraint.name]
    split
    · exact Post.ok ⟨hcs, hL⟩
    · exact trivial

theorem parseColumn_post {tbl : Ident} {ts : List Token} (hL : AllTok L ts) :
    Post (fun r => (Valued r.1 → ∃ us, ColOk r.1 us) ∧ (∀ c ∈ r.2.1, ConOk c) ∧ AllTok L r.2.2)
      (parseColumn tbl ts) := by
  unfold parseColumn
  refine Post.checkCur_bind (fun hc => Post.next_bind ?_)
  simp only [List.mem_singleton] at hc
  have hname := nameOk_cur hL hc
  split
  · rename_i hd
    refine (parseDataType_post hL.tail hd).bind ?_
    rintro ⟨dt, ts₁⟩ ⟨⟨us, h1⟩, h2⟩
    refine Post.next_bind ((columnAttrsLoop_post _ ⟨none, false, false, none⟩ _ (AllTok.tail h2) (fun _ => ⟨[], Or.inl ⟨rfl, rfl⟩⟩)
      (fun _ => ⟨[], none, Or.inl ⟨rfl, rfl⟩⟩)).bind ?_)
    rintro ⟨a, ts₂⟩ ⟨h3, h3', h4⟩
    refine (columnConstraintsLoop_post hname _ [] _ h4 (by simp)).bind ?_
    rintro ⟨cs, ts₃⟩ ⟨h5, h6⟩
    refine Post.ok ⟨?_, ?_, h6⟩
    · intro hv
      obtain ⟨g, hg⟩ := h3 hv.1
      obtain ⟨ga, ty, hga⟩ := h3' hv.2
      exact ⟨_, hname, us, g, ga, ty, h1, hg, hga, rfl⟩
    · intro c hc
      rcases foldl_append_mem c hc with h | h
      · cases h
      · exact h5 c h
  · exact trivial

theorem parseTableConstraint_post {tbl : Ident} {ts : List Token} (hL : AllTok L ts) :
    Post (fun r => ConOk r.1 ∧ AllTok L r.2) (parseTableConstraint tbl ts) := by
  have hname : Post (fun r => (∀ i, r.1 = some i → i = rawIdent i.raw) ∧ AllTok L r.2) (parseConstraintName ts) := by
    unfold parseConstraintName
    split
    · refine Post.next_bind ?_
      split
      · exact trivial
      · refine Post.next_bind (Post.ok ⟨?_, hL.tail.tail⟩)
        intro i hi
        cases hi
        simp
    · exact Post.ok ⟨by simp, hL⟩
  unfold parseTableConstraint
  refine hname.bind ?_
  rintro ⟨cname, ts₀⟩ ⟨hn, h0⟩
  simp only at hn h0 ⊢
  have hget : ∀ s : Str, cname.getD (rawIdent s) = rawIdent (cname.getD (rawIdent s)).raw := by
    intro s
    cases cname with
    | none => simp
    | some i => exact hn i rfl
  split
  · refine Post.checkPeek_bind (fun _ => Post.next_bind (Post.checkPeek_bind (fun _ => Post.next_bind
      ((parseColumnIdents_post h0.tail.tail).bind ?_))))
    rintro ⟨i, ts₁⟩ ⟨hi, h₁⟩
    exact Post.ok ⟨⟨hget _, hi⟩, h₁⟩
  split
  · refine Post.checkPeek_bind (fun _ => Post.next_bind (Post.checkPeek_bind (fun _ => Post.next_bind
      ((parseColumnIdents_post h0.tail.tail).bind ?_))))
    rintro ⟨i, ts₁⟩ ⟨hi, h₁⟩
    refine Post.checkCur_bind (fun _ => Post.next_bind (Post.checkCur_bind (fun hr => Post.next_bind ?_)))
    simp only [List.mem_singleton] at hr
    refine (parseColumnIdents_post (AllTok.tail (AllTok.tail h₁))).bind ?_
    rintro ⟨i₂, ts₂⟩ ⟨hi₂, h₂⟩
    have hact : Post (fun r => ActOk r.1 ∧ AllTok L r.2) (parseOnActionTable ts₂) := by
      unfold parseOnActionTable
      split
      · rename_i h0
        refine Post.next_bind (Post.checkCur_bind (fun ha => Post.checkPeek_bind (fun hb => Post.next_bind ?_)))
        have := actOk_words h₂ h0 ha hb
        split
        · rename_i hd
          exact Post.next_bind (Post.ok ⟨this.2 hd.2, AllTok.tail (AllTok.tail (AllTok.tail h₂))⟩)
        · exact Post.ok ⟨this.1, AllTok.tail (AllTok.tail h₂)⟩
      · exact Post.ok ⟨actOk_nil, h₂⟩
    refine hact.bind ?_
    rintro ⟨act, ts₃⟩ ⟨hact, h₃⟩
    exact Post.ok ⟨⟨hget _, hi, nameOk_cur (AllTok.tail h₁) hr, hi₂, hact⟩, h₃⟩
  split
  · have rest : ∀ (uq : Bool) (ts₁ : List Token), AllTok L ts₁ → Post (fun r => ConOk r.1 ∧ AllTok L r.2) (do
        let ts ← next ts₁
        checkCur [.IDENT] ts
        checkPeek [.OPEN_PAREN] ts
        let ts' ← next ts
        let (ids, ts') ← parseColumnIdents ts'
        let (us, ts') ← parseUsingOpt ts'
        .ok (.index (rawIdent (curL ts)) uq none ids us, ts')) := by
      intro uq ts₁ h₁
      refine Post.next_bind (Post.checkCur_bind (fun hc => Post.checkPeek_bind (fun _ => Post.next_bind ?_)))
      refine (parseColumnIdents_post h₁.tail.tail).bind ?_
      rintro ⟨i, ts₂⟩ ⟨hi, h₂⟩
      refine (parseUsingOpt_post h₂).bind ?_
      rintro ⟨u, ts₃⟩ ⟨hu, h₃⟩
      exact Post.ok ⟨⟨by simp [Constraint.name], rfl, hi, hu⟩, h₃⟩
    split
    · refine Post.checkPeek_bind (fun _ => Post.next_bind ?_)
      exact rest true _ h0.tail
    · exact rest false _ h0
  · exact trivial

theorem lex_constraint {c : Constraint} (h : ConOk c) (hR : c.Rereadable) {s : Str} (hs : Start s) :
    lex .cockroachdb (c.str ++ s) = conToks c ++ lex .cockroachdb s := by
  have hn : NameOk c.name := ⟨h.1, isName_lx hR.1⟩
  have sp : ∀ r, Start (s%" " ++ r) := fun r => start_cons (by decide)
  have hclose : ∀ r, lex .cockroachdb (s%")" ++ r) = closeTok :: lex .cockroachdb r :=
    fun r => lex_symbol .cockroachdb ')' .CLOSE_PAREN r (by decide) (by simp)
  have hopen : ∀ r, lex .cockroachdb (s%" (" ++ r) = openTok :: lex .cockroachdb r := by
    intro r
    rw [List.cons_append, lex_ws .cockroachdb ' ' _ rfl]
    exact lex_symbol .cockroachdb '(' .OPEN_PAREN r (by decide) (by simp)
  have hopen' : ∀ r, lex .cockroachdb (s%"(" ++ r) = openTok :: lex .cockroachdb r :=
    fun r => lex_symbol .cockroachdb '(' .OPEN_PAREN r (by decide) (by simp)
  have hblank : ∀ r, lex .cockroachdb (s%" " ++ r) = lex .cockroachdb r := fun r => lex_ws .cockroachdb ' ' r rfl
  have cl : ∀ r, Start (s%")" ++ r) := fun r => start_cons (by decide)
  have op : ∀ r, Start (s%" (" ++ r) := fun r => start_cons (by decide)
  cases c with
  | primaryKey n cs =>
    have hn' : NameOk n := hn
    have hcs : ∀ i ∈ cs, NameOk i.ident := h.2
    simp only [Constraint.str, Ident.str, List.append_assoc, conToks, conBody]
    rw [lex_lit (d := .cockroachdb) (by decide) (by decide) (by decide), lex_name (i := n) hn (sp _), hblank,
      lex_lit_start (d := .cockroachdb) (by decide) (by decide) (by decide) (op _), hopen,
      lex_columnsStr (cl _) cs hcs, hclose]
    simp only [List.cons_append, List.append_assoc, List.nil_append]
    rfl
  | index n uq pre cs post =>
    have hn' : NameOk n := hn
    obtain ⟨hpre, hcs, hpost⟩ : pre = none ∧ (∀ i ∈ cs, NameOk i.ident) ∧ ∀ u, post = some u → ∃ us, UsOk u us := h.2
    subst hpre
    have hus : lex .cockroachdb (usingStr post ++ s) = usToks post ++ lex .cockroachdb s := by
      cases post with
      | none => rfl
      | some u => exact (lex_using (usToks_ok (hpost u rfl)) (hR.2 u rfl) hs).2
    have huq : ∀ r, lex .cockroachdb ((if uq then s%"UNIQUE " else []) ++ r) = uqToks uq ++ lex .cockroachdb r := by
      intro r
      cases uq with
      | false => rfl
      | true =>
        simp only [if_true, uqToks]
        rw [lex_lit (d := .cockroachdb) (by decide) (by decide) (by decide)]
        rfl
    simp only [Constraint.str, Ident.str, List.append_assoc, conToks]
    rw [huq, lex_lit (d := .cockroachdb) (by decide) (by decide) (by decide), lex_name (i := n) hn (sp _), hblank]
    simp only [usingStr, List.nil_append]
    rw [hopen', lex_columnsStr (cl _) cs hcs, hclose]
    have hus' := hus
    simp only [usingStr] at hus'
    rw [hus']
    simp only [List.cons_append, List.append_assoc, List.nil_append]
    rfl
  | foreignKey n cs r rcs act =>
    obtain ⟨hcs, hr, hrcs, _⟩ : (∀ i ∈ cs, NameOk i.ident) ∧ NameOk r ∧ (∀ i ∈ rcs, NameOk i.ident) ∧ ActOk act := h.2
    have hact : act = [] := hR.2
    subst hact
    have hn' : NameOk n := hn
    simp only [Constraint.str, Ident.str, List.append_assoc, conToks, conBody, if_true, List.append_nil]
    rw [lex_lit (d := .cockroachdb) (by decide) (by decide) (by decide), lex_name (i := n) hn (sp _), hblank,
      lex_lit_start (d := .cockroachdb) (by decide) (by decide) (by decide) (op _), hopen,
      lex_columnsStr (cl _) cs hcs, hclose,
      lex_lit (d := .cockroachdb) (by decide) (by decide) (by decide), lex_name hr (op _), hopen,
      lex_columnsStr (cl _) rcs hrcs, hclose]
    simp only [List.cons_append, List.append_assoc, List.nil_append]
    rfl
  | check n e => exact hR.2.elim

/-- A constraint is read; the token behind it is skipped behind `USING`. -/
theorem parseTableConstraint_reads {tbl : Ident} {c : Constraint} (h : ConOk c) (hR : c.Rereadable) {rest : List Token}
    (hr : curT rest ∈ [.COMMA, .CLOSE_PAREN]) (hp : NoPanic (conToks c ++ rest)) :
    ∃ r, parseTableConstraint tbl (conToks c ++ rest) = .ok (c, r) ∧ (r = rest ∨ r = rest.tail) := by
  have hname : ∀ (n : Ident) (body : List Token), n = rawIdent n.raw → NoPanic (constraintTok :: nameTok n :: body) →
      parseConstraintName (constraintTok :: nameTok n :: body) = .ok (some n, body) := by
    intro n body hn hp
    simp [parseConstraintName, constraintTok] at hp ⊢
    simp [next_cons hp, next_cons hp.of_cons, ← hn]
  have hn : c.name = rawIdent c.name.raw := h.1
  unfold parseTableConstraint
  cases c with
  | primaryKey n cs =>
    have hcs : ∀ i ∈ cs, NameOk i.ident := h.2
    refine ⟨rest, ?_, Or.inl rfl⟩
    simp only [conToks, conBody, List.cons_append, List.append_assoc, List.nil_append] at hp ⊢
    rw [hname _ _ hn hp]
    have hp' := hp.of_cons.of_cons
    simp [checkPeek, next_cons hp', next_cons hp'.of_cons, parseColumnIdents_reads hcs hp'.of_cons.of_cons, Constraint.name]
  | index n uq pre cs post =>
    obtain ⟨hpre, hcs, hpost⟩ : pre = none ∧ (∀ i ∈ cs, NameOk i.ident) ∧ ∀ u, post = some u → ∃ us, UsOk u us := h.2
    have hn' : n = rawIdent n.raw := hn
    subst hpre
    simp only [conToks, List.cons_append, List.append_assoc] at hp ⊢
    have hno : parseConstraintName (uqToks uq ++ ⟨.INDEX, s%"INDEX"⟩ :: nameTok n :: openTok :: (colToks cs ++ closeTok :: (usToks post ++ rest))) =
        .ok (none, uqToks uq ++ ⟨.INDEX, s%"INDEX"⟩ :: nameTok n :: openTok :: (colToks cs ++ closeTok :: (usToks post ++ rest))) := by
      cases uq <;> simp [parseConstraintName, uqToks]
    rw [hno]
    simp only [bind_ok]
    rw [if_neg (by cases uq <;> simp [uqToks]), if_neg (by cases uq <;> simp [uqToks]), if_pos (by cases uq <;> simp [uqToks])]
    have hp1 : NoPanic (⟨.INDEX, s%"INDEX"⟩ :: nameTok n :: openTok :: (colToks cs ++ closeTok :: (usToks post ++ rest))) := hp.of_append
    have key : ∀ (uq : Bool), (do
        let ts ← next (⟨.INDEX, s%"INDEX"⟩ :: nameTok n :: openTok :: (colToks cs ++ closeTok :: (usToks post ++ rest)))
        checkCur [.IDENT] ts
        checkPeek [.OPEN_PAREN] ts
        let ts' ← next ts
        let (ids, ts') ← parseColumnIdents ts'
        let (us, ts') ← parseUsingOpt ts'
        Res.ok (Constraint.index (rawIdent (curL ts)) uq none ids us, ts')) = (do
        let (us, ts') ← parseUsingOpt (usToks post ++ rest)
        Res.ok (Constraint.index n uq none cs us, ts')) := by
      intro uq
      simp only [bind_ok, next_cons hp1, checkCur, curT_cons, nameTok_type, List.mem_singleton, if_true, checkPeek, peekT_cons, openTok_type,
        next_cons hp1.of_cons, parseColumnIdents_reads hcs hp1.of_cons.of_cons, curL_cons, nameTok_lit, ← hn']
    have goal : (∃ r, (do
        let (us, ts') ← parseUsingOpt (usToks post ++ rest)
        Res.ok (Constraint.index n uq none cs us, ts')) = .ok (.index n uq none cs post, r) ∧ (r = rest ∨ r = rest.tail)) := by
      have hp2 : NoPanic (usToks post ++ rest) := hp1.of_cons.of_cons.of_cons.of_append.of_cons
      cases post with
      | none =>
        refine ⟨rest, ?_, Or.inl rfl⟩
        simp only [usToks, List.nil_append]
        simp only [List.mem_cons, List.not_mem_nil, or_false] at hr
        unfold parseUsingOpt
        rw [if_neg (by rcases hr with h | h <;> simp [h])]
        simp only [bind_ok]
      | some u =>
        refine ⟨rest.tail, ?_, Or.inr rfl⟩
        obtain ⟨t, rest, rfl⟩ : ∃ t r, rest = t :: r := by
          cases rest with
          | nil => simp at hr; rcases hr with h | h <;> cases h
          | cons t r => exact ⟨t, r, rfl⟩
        rw [parseUsingOpt_reads (usToks_ok (hpost u rfl)) (by simpa using hr) hp2]
        simp only [bind_ok, List.tail_cons]
    cases uq with
    | false =>
      simp only [uqToks, Bool.false_eq_true, if_false, List.nil_append] at hp ⊢
      have k := key false
      simp only [curT_cons, reduceCtorEq, if_false]
      simp only [bind_ok] at k ⊢
      rw [k]
      exact goal
    | true =>
      simp only [uqToks, if_true, List.cons_append, List.nil_append] at hp ⊢
      simp only [curT_cons, if_true, checkPeek, peekT_cons, List.mem_singleton, bind_ok, next_cons hp]
      exact (key true).symm ▸ goal
  | foreignKey n cs r rcs act =>
    obtain ⟨hcs, hrn, hrcs, _⟩ : (∀ i ∈ cs, NameOk i.ident) ∧ NameOk r ∧ (∀ i ∈ rcs, NameOk i.ident) ∧ ActOk act := h.2
    have hact : act = [] := hR.2
    subst hact
    refine ⟨rest, ?_, Or.inl rfl⟩
    have hon : parseOnActionTable rest = .ok ([], rest) := by
      simp only [List.mem_cons, List.not_mem_nil, or_false] at hr
      unfold parseOnActionTable
      rcases hr with h | h <;> simp [h]
    simp only [conToks, conBody, List.cons_append, List.append_assoc, List.nil_append] at hp ⊢
    rw [hname _ _ hn hp]
    have hp' := hp.of_cons.of_cons
    have hp2 : NoPanic (⟨.REFERENCES, s%"REFERENCES"⟩ :: nameTok r :: openTok :: (colToks rcs ++ closeTok :: rest)) :=
      hp'.of_cons.of_cons.of_cons.of_append.of_cons
    simp [checkPeek, checkCur, next_cons hp', next_cons hp'.of_cons, parseColumnIdents_reads hcs hp'.of_cons.of_cons, next_cons hp2,
      next_cons hp2.of_cons, parseColumnIdents_reads hrcs hp2.of_cons.of_cons, hon, Constraint.name, ← hrn.1]
  | check n e => exact hR.2.elim

end Ddl.Crdb
