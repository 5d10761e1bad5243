import Verif.Lemmas.SpColumn
import Verif.Lemmas.PgTable
import Verif.Lemmas.TableDiff
import Verif.Sp.Diff

/-! # Spanner: statements, printed and read again -/

namespace Ddl.Sp
open Spec
set_option autoImplicit false

theorem objectName_str {raw : Str} (h : L ⟨.IDENT, raw⟩) : (newObjectName .spanner raw).str = raw := by
  rcases h with ⟨h1, h2, h3⟩ | ⟨_, q, body, hq, h2, hb⟩ | ⟨h1, _⟩ | ⟨h1, _⟩ | ⟨h1, _⟩ | ⟨c, h1, _⟩
  · refine newObjectName_plain (newRawIdent_word h2) ?_
    intro a b e
    simp only at h2 e
    rw [e] at h2
    exact ⟨newRawIdent_word (fun c hc => h2 c (by simp [hc])), newRawIdent_word (fun c hc => h2 c (by simp [hc]))⟩
  · simp only at h2
    subst h2
    simp only [quotes, List.mem_cons, List.not_mem_nil, or_false] at hq
    rcases hq with rfl | rfl | rfl
    all_goals exact newObjectName_quoted (by decide) (fun h => (hb _ h).1 rfl)
  · cases h1
  · cases h1
  · cases h1
  · have : ∀ p ∈ symbols, p.2 ≠ .IDENT := by decide
    exact absurd rfl (this _ h1)

/-! ## Constraints -/

/-- The columns and referenced tables are names, and expressions are in brackets. -/
def ConOk : Constraint → Prop
  | .foreignKey n cs r rcs => n = rawIdent n.raw ∧ (∀ i ∈ cs, NameOk i.ident) ∧ NameOk r ∧ ∀ i ∈ rcs, NameOk i.ident
  | .check n e => (∀ i, n = some i → i = rawIdent i.raw) ∧ ∃ g, Grp g ∧ e = rawIdent s%"(" :: ids g

def constraintTok : Token := ⟨.CONSTRAINT, s%"CONSTRAINT"⟩

/-- The words of a bracketed expression behind the first bracket. -/
noncomputable def grpWords (e : Expr) : List Word := by
  classical exact if h : ∃ g, Grp g ∧ e = rawIdent s%"(" :: ids g then h.choose else []

theorem grpWords_ok {e : Expr} (h : ∃ g, Grp g ∧ e = rawIdent s%"(" :: ids g) : Grp (grpWords e) ∧ e = rawIdent s%"(" :: ids (grpWords e) := by
  unfold grpWords
  rw [dif_pos h]
  exact h.choose_spec

/-- The tokens of `UNIQUE`. -/
def uqToks (uq : Bool) : List Token := if uq then [⟨.UNIQUE, s%"UNIQUE"⟩] else []

/-- The tokens of `CONSTRAINT name`. -/
def cnToks : Option Ident → List Token
  | some n => [constraintTok, nameTok n]
  | none => []

/-- The tokens of a constraint. -/
noncomputable def conToks : Constraint → List Token
  | .foreignKey n cs r rcs =>
    constraintTok :: nameTok n :: ⟨.FOREIGN, s%"FOREIGN"⟩ :: ⟨.KEY, s%"KEY"⟩ :: openTok :: (colToks cs ++ closeTok ::
      ⟨.REFERENCES, s%"REFERENCES"⟩ :: nameTok r :: openTok :: (colToks rcs ++ [closeTok]))
  | .check n e => cnToks n ++ ⟨.CHECK, s%"CHECK"⟩ :: openTok :: toks (grpWords e)

/-- At most one constraint, or all have names. -/
def Chain (cs : List Constraint) : Prop := cs.length ≤ 1 ∨ Named cs

theorem appendConstraint_post : ∀ (cs : List Constraint) (c : Constraint),
    Post (fun r => (∀ x ∈ r, x ∈ cs ∨ x = c) ∧ (cs ≠ [] → c.name ≠ none ∧ ∀ y, cs.head? = some y → y.name ≠ none) ∧
      (cs = [] → r = [c])) (appendConstraint cs c) := by
  intro cs
  induction cs with
  | nil => intro c; exact Post.ok ⟨by simp, by simp, by simp⟩
  | cons x r ih =>
    intro c
    unfold appendConstraint
    cases hx : x.nameStr with
    | ok a =>
      cases hc : c.nameStr with
      | ok b =>
        have n1 : x.name ≠ none := by rw [ne_eq, ← Option.map_eq_none_iff (f := (·.name)), nameStr_some hx]; simp
        have n2 : c.name ≠ none := by rw [ne_eq, ← Option.map_eq_none_iff (f := (·.name)), nameStr_some hc]; simp
        simp only [bind_ok]
        split
        · exact Post.ok ⟨by simp; tauto, fun _ => ⟨n2, by simpa using n1⟩, by simp⟩
        · refine (ih c).bind ?_
          rintro l ⟨h, _⟩
          refine Post.ok ⟨?_, fun _ => ⟨n2, by simpa using n1⟩, by simp⟩
          intro y hy
          rcases List.mem_cons.1 hy with rfl | hy
          · simp
          · rcases h y hy with h | h
            · simp [h]
            · exact Or.inr h
      | err => exact trivial
      | panic => exact trivial
      | outOfFuel => exact trivial
    | err => exact trivial
    | panic => exact trivial
    | outOfFuel => exact trivial

/-- What holds of the constraints read so far. -/
def ConsOk (cs : List Constraint) : Prop := (∀ c ∈ cs, ConOk c) ∧ Chain cs

theorem consOk_append {cs : List Constraint} {c : Constraint} (h : ConsOk cs) (hc : ConOk c) : Post ConsOk (appendConstraint cs c) := by
  refine (appendConstraint_post cs c).imp ?_
  rintro r ⟨h1, h2, h3⟩
  refine ⟨?_, ?_⟩
  · intro x hx
    rcases h1 x hx with h' | rfl
    · exact h.1 x h'
    · exact hc
  · cases cs with
    | nil => rw [h3 rfl]; exact Or.inl (by simp)
    | cons y cs =>
      obtain ⟨n1, n2⟩ := h2 (by simp)
      refine Or.inr ?_
      intro x hx
      rcases h1 x hx with h' | rfl
      · rcases h.2 with h4 | h4
        · simp only [List.length_cons] at h4
          have : cs = [] := List.length_eq_zero_iff.1 (by omega)
          subst this
          simp only [List.mem_singleton] at h'
          subst h'
          exact n2 _ rfl
        · exact h4 x h'
      · exact n1

theorem consOk_appendAll : ∀ (l cs : List Constraint), ConsOk cs → (∀ c ∈ l, ConOk c) → Post ConsOk (appendAll cs l) := by
  intro l
  induction l with
  | nil => intro cs h _; exact Post.ok h
  | cons c l ih =>
    intro cs h hl
    unfold appendAll
    refine (consOk_append h (hl c (by simp))).bind ?_
    intro r hr
    exact ih r hr fun x hx => hl x (by simp [hx])

theorem consOk_nil : ConsOk [] := ⟨by simp, Or.inl (by simp)⟩

theorem columnConstraintsLoop_post {tbl col : Ident} (hcol : NameOk col) : ∀ (n : Nat) (cs : List Constraint) (ts : List Token),
    AllTok L ts → ConsOk cs →
    Post (fun r => ConsOk r.1 ∧ AllTok L r.2) (columnConstraintsLoop tbl col n cs ts) := by
  have one : ∀ i ∈ [(⟨col, none⟩ : ColumnIdent)], NameOk i.ident := by simpa using hcol
  intro n
  induction n with
  | zero => intro cs ts _ _; exact trivial
  | succ n ih =>
    intro cs ts hL hcs
    unfold columnConstraintsLoop
    split
    · refine Post.checkPeek_bind (fun hp => Post.next_bind ?_)
      simp only [List.mem_singleton] at hp
      refine Post.next_bind ((parseColumnIdents_post hL.tail.tail).bind ?_)
      rintro ⟨i, ts₁⟩ ⟨hi, h₁⟩
      refine (consOk_append hcs ?_).bind ?_
      · exact ⟨by simp, one, nameOk_cur hL.tail hp, hi⟩
      intro cs' hcs'
      exact Post.next_bind (ih _ _ (AllTok.tail h₁) hcs')
    split
    · refine Post.checkPeek_bind (fun _ => Post.next_bind ((parseExpr_post hL.tail).bind ?_))
      rintro ⟨i, ts₁⟩ ⟨he, h₁⟩
      refine (consOk_append hcs ?_).bind ?_
      · exact ⟨by simp, he⟩
      intro cs' hcs'
      exact Post.next_bind (ih _ _ (AllTok.tail h₁) hcs')
    split
    · exact Post.ok ⟨hcs, hL⟩
    · exact trivial

theorem parseColumn_post {tbl : Ident} {ts : List Token} (hL : AllTok L ts) :
    Post (fun r => (r.1.default ≠ some ⟨none⟩ → ∃ us, ColOk r.1 us) ∧ (∀ c ∈ r.2.1, ConOk c) ∧ AllTok L r.2.2)
      (parseColumn tbl ts) := by
  unfold parseColumn
  refine Post.checkCur_bind (fun hc => Post.next_bind ?_)
  simp only [List.mem_singleton] at hc
  have hname := nameOk_cur hL hc
  split
  · rename_i hd
    refine (parseDataType_post hL.tail hd).bind ?_
    rintro ⟨dt, ts₁⟩ ⟨⟨ud, h1⟩, h2⟩
    refine Post.next_bind ((columnAttrsLoop_post _ none false _ (AllTok.tail h2) (fun _ => ⟨[], Or.inl ⟨rfl, rfl⟩⟩)).bind ?_)
    rintro ⟨d, nn, ts₂⟩ ⟨h3, h4⟩
    refine (columnConstraintsLoop_post hname _ [] _ h4 consOk_nil).bind ?_
    rintro ⟨cs, ts₃⟩ ⟨h5, h6⟩
    refine (consOk_appendAll cs [] consOk_nil h5.1).bind ?_
    intro cs' h5'
    refine (parseColumnOptions_post h6).bind ?_
    rintro ⟨o, ts₄⟩ ⟨⟨uo, h7⟩, h8⟩
    refine Post.ok ⟨?_, h5'.1, h8⟩
    intro hv
    obtain ⟨g, hg⟩ := h3 hv
    exact ⟨_, hname, ud, g, uo, h1, hg, h7, rfl⟩
  · exact trivial

theorem parseTableConstraint_post {tbl : Ident} {ts : List Token} (hL : AllTok L ts) :
    Post (fun r => ConOk r.1 ∧ AllTok L r.2) (parseTableConstraint tbl ts) := by
  have hname : Post (fun r => (∀ i, r.1 = some i → i = rawIdent i.raw) ∧ AllTok L r.2) (parseConstraintName ts) := by
    unfold parseConstraintName
    split
    · refine Post.next_bind ?_
      split
      · exact trivial
      · refine Post.next_bind (Post.ok ⟨?_, hL.tail.tail⟩)
        intro i hi
        cases hi
        simp
    · exact Post.ok ⟨by simp, hL⟩
  unfold parseTableConstraint
  refine hname.bind ?_
  rintro ⟨cname, ts₀⟩ ⟨hn, h0⟩
  simp only at hn h0 ⊢
  have hget : ∀ s : Str, cname.getD (rawIdent s) = rawIdent (cname.getD (rawIdent s)).raw := by
    intro s
    cases cname with
    | none => simp
    | some i => exact hn i rfl
  split
  · refine Post.checkPeek_bind (fun _ => Post.next_bind (Post.checkPeek_bind (fun _ => Post.next_bind
      ((parseColumnIdents_post h0.tail.tail).bind ?_))))
    rintro ⟨i, ts₁⟩ ⟨hi, h₁⟩
    refine Post.checkCur_bind (fun _ => Post.next_bind (Post.checkCur_bind (fun hr => Post.next_bind ?_)))
    simp only [List.mem_singleton] at hr
    refine (parseColumnIdents_post (AllTok.tail (AllTok.tail h₁))).bind ?_
    rintro ⟨i₂, ts₂⟩ ⟨hi₂, h₂⟩
    exact Post.ok ⟨⟨hget _, hi, nameOk_cur (AllTok.tail h₁) hr, hi₂⟩, h₂⟩
  split
  · refine Post.checkPeek_bind (fun _ => Post.next_bind ((parseExpr_post h0.tail).bind ?_))
    rintro ⟨i, ts₁⟩ ⟨he, h₁⟩
    exact Post.ok ⟨⟨hn, he⟩, h₁⟩
  · exact trivial

theorem lex_constraint {c : Constraint} (h : ConOk c) (hR : c.Rereadable) {s : Str} (hs : Start s) :
    lex .spanner (c.str ++ s) = conToks c ++ lex .spanner s := by
  have sp : ∀ r, Start (s%" " ++ r) := fun r => start_cons (by decide)
  have hclose : ∀ r, lex .spanner (s%")" ++ r) = closeTok :: lex .spanner r :=
    fun r => lex_symbol .spanner ')' .CLOSE_PAREN r (by decide) (by simp)
  have hopen : ∀ r, lex .spanner (s%" (" ++ r) = openTok :: lex .spanner r := by
    intro r
    rw [List.cons_append, lex_ws .spanner ' ' _ rfl]
    exact lex_symbol .spanner '(' .OPEN_PAREN r (by decide) (by simp)
  have hblank : ∀ r, lex .spanner (s%" " ++ r) = lex .spanner r := fun r => lex_ws .spanner ' ' r rfl
  have cl : ∀ r, Start (s%")" ++ r) := fun r => start_cons (by decide)
  have op : ∀ r, Start (s%" (" ++ r) := fun r => start_cons (by decide)
  cases c with
  | foreignKey n cs r rcs =>
    obtain ⟨h1, hcs, hr, hrcs⟩ : n = rawIdent n.raw ∧ (∀ i ∈ cs, NameOk i.ident) ∧ NameOk r ∧ (∀ i ∈ rcs, NameOk i.ident) := h
    have hn : NameOk n := ⟨h1, isName_lx (hR n rfl)⟩
    simp only [Constraint.str, Ident.str, List.append_assoc, conToks]
    rw [lex_lit (d := .spanner) (by decide) (by decide) (by decide), lex_name (i := n) hn (sp _), hblank,
      lex_lit_start (d := .spanner) (by decide) (by decide) (by decide) (op _), hopen,
      lex_columnsStr (cl _) cs hcs, hclose,
      lex_lit (d := .spanner) (by decide) (by decide) (by decide), lex_name hr (op _), hopen,
      lex_columnsStr (cl _) rcs hrcs, hclose]
    simp only [List.cons_append, List.append_assoc, List.nil_append]
    rfl
  | check n e =>
    obtain ⟨hg, he⟩ := grpWords_ok h.2
    have hex := lex_exprStr hs ((rawIdent s%"(", [openTok]) :: grpWords e) (by
      intro w hw
      rcases List.mem_cons.1 hw with rfl | hw
      · exact openWord_ok
      · exact hg.ok w hw)
    rw [ids_cons, ← he] at hex
    cases n with
    | none =>
      simp only [Constraint.str, List.append_assoc, conToks, cnToks, List.nil_append]
      rw [lex_lit (d := .spanner) (by decide) (by decide) (by decide), hex]
      simp only [List.cons_append, List.append_assoc, List.nil_append, toks_cons]
      rfl
    | some n =>
      have hn : NameOk n := ⟨h.1 n rfl, isName_lx (hR n rfl)⟩
      simp only [Constraint.str, Ident.str, List.append_assoc, conToks, cnToks]
      rw [lex_lit (d := .spanner) (by decide) (by decide) (by decide), lex_name (i := n) hn (sp _), hblank,
        lex_lit (d := .spanner) (by decide) (by decide) (by decide), hex]
      simp only [List.cons_append, List.append_assoc, List.nil_append, toks_cons]
      rfl

/-- A constraint is read. -/
theorem parseTableConstraint_reads {tbl : Ident} {c : Constraint} (h : ConOk c) {rest : List Token} (hp : NoPanic (conToks c ++ rest)) :
    parseTableConstraint tbl (conToks c ++ rest) = .ok (c, rest) := by
  have hname : ∀ (n : Ident) (body : List Token), n = rawIdent n.raw → NoPanic (constraintTok :: nameTok n :: body) →
      parseConstraintName (constraintTok :: nameTok n :: body) = .ok (some n, body) := by
    intro n body hn hp
    simp [parseConstraintName, constraintTok] at hp ⊢
    simp [next_cons hp, next_cons hp.of_cons, ← hn]
  unfold parseTableConstraint
  cases c with
  | foreignKey n cs r rcs =>
    obtain ⟨hn, hcs, hrn, hrcs⟩ : n = rawIdent n.raw ∧ (∀ i ∈ cs, NameOk i.ident) ∧ NameOk r ∧ (∀ i ∈ rcs, NameOk i.ident) := h
    simp only [conToks, List.cons_append, List.append_assoc, List.nil_append] at hp ⊢
    rw [hname _ _ hn hp]
    have hp' := hp.of_cons.of_cons
    have hp2 : NoPanic (⟨.REFERENCES, s%"REFERENCES"⟩ :: nameTok r :: openTok :: (colToks rcs ++ closeTok :: rest)) :=
      hp'.of_cons.of_cons.of_cons.of_append.of_cons
    simp [checkPeek, checkCur, next_cons hp', next_cons hp'.of_cons, parseColumnIdents_reads hcs hp'.of_cons.of_cons, next_cons hp2,
      next_cons hp2.of_cons, parseColumnIdents_reads hrcs hp2.of_cons.of_cons, ← hrn.1]
  | check n e =>
    obtain ⟨hn, hg⟩ : (∀ i, n = some i → i = rawIdent i.raw) ∧ ∃ g, Grp g ∧ e = rawIdent s%"(" :: ids g := h
    obtain ⟨hg, he⟩ := grpWords_ok hg
    cases n with
    | none =>
      simp only [conToks, cnToks, List.cons_append, List.append_assoc, List.nil_append] at hp ⊢
      have hno : ∀ r, parseConstraintName (⟨.CHECK, s%"CHECK"⟩ :: r) = .ok (none, ⟨.CHECK, s%"CHECK"⟩ :: r) := by
        intro r; simp [parseConstraintName]
      rw [hno]
      simp [checkPeek, next_cons hp, parseExpr_reads hg hp.of_cons, ← he]
    | some n =>
      simp only [conToks, cnToks, List.cons_append, List.append_assoc, List.nil_append] at hp ⊢
      rw [hname _ _ (hn n rfl) hp]
      have hp' := hp.of_cons.of_cons
      simp [checkPeek, next_cons hp', parseExpr_reads hg hp'.of_cons, ← he]

/-! ## No panics -/

theorem L.noPanic {t : Token} (h : L t) : t.type ≠ .PANIC := by
  rcases h with ⟨_, _, h⟩ | ⟨h, _⟩ | ⟨h, _⟩ | ⟨h, _⟩ | ⟨h, _⟩ | ⟨c, h, _⟩
  · intro e
    rw [e] at h
    rcases h with h | ⟨h, _⟩
    · have : ∀ p ∈ keywords .spanner, p.2 ≠ .PANIC := by decide
      exact this _ h rfl
    · cases h
  all_goals first | (rw [h]; decide) | skip
  have : ∀ p ∈ symbols, p.2 ≠ .PANIC := by decide
  exact this _ h

theorem AllTok.noPanic {ts : List Token} (h : AllTok L ts) : NoPanic ts := fun t ht => L.noPanic (h t ht)

theorem noPanic_append {a b : List Token} (ha : NoPanic a) (hb : NoPanic b) : NoPanic (a ++ b) := by
  intro t ht
  rcases List.mem_append.1 ht with h | h
  · exact ha t h
  · exact hb t h

theorem noPanic_cons {t : Token} {b : List Token} (ha : t.type ≠ .PANIC) (hb : NoPanic b) : NoPanic (t :: b) := by
  intro x hx
  rcases List.mem_cons.1 hx with rfl | h
  · exact ha
  · exact hb x h

theorem noPanic_nil : NoPanic [] := by simp [NoPanic]

theorem isCmp.noPanic {t : TokType} (h : isCmp t) : t ≠ .PANIC := by
  intro e; subst e; simp [isCmp] at h

theorem Grp.noPanic {g : List Word} (h : Grp g) : NoPanic (toks g) := by
  induction h with
  | close => exact noPanic_cons (by decide) noPanic_nil
  | opened a b _ _ iha ihb =>
    have := noPanic_append iha ihb
    rw [← toks_append] at this
    exact noPanic_cons (by decide) this
  | cmp x r hx _ _ _ ih => exact noPanic_cons hx.noPanic ih
  | cmp2 x y r _ _ _ _ hx hy _ ih => exact noPanic_cons hx.noPanic (noPanic_cons hy.noPanic ih)
  | other t r ht _ _ _ ih => exact noPanic_cons ht.noPanic ih

theorem Dft.noPanic {g : List Word} (h : Dft g) : NoPanic (toks g) := by
  induction h with
  | nil => exact noPanic_nil
  | group g r hg _ ih =>
    have := noPanic_append hg.noPanic ih
    rw [← toks_append] at this
    exact noPanic_cons (by decide) this
  | ident t r ht _ _ ih => exact noPanic_cons ht.noPanic ih
  | reserved t r ht _ _ ih => exact noPanic_cons ht.noPanic ih

theorem ordToks_noPanic : ∀ o : Option Bool, NoPanic (ordToks o)
  | none => noPanic_nil
  | some true => noPanic_cons (by decide) noPanic_nil
  | some false => noPanic_cons (by decide) noPanic_nil

theorem ColOk.noPanic {c : Column} {ts : List Token} (h : ColOk c ts) : NoPanic ts := by
  obtain ⟨_, ud, g, uo, ⟨w, as, h1, _, _, _, _, h2, _, rfl⟩, h5, h6, rfl⟩ := h
  refine noPanic_cons (by simp) (noPanic_append (noPanic_cons h1.noPanic ?_) (noPanic_append ?_ (noPanic_append ?_ ?_)))
  · unfold argToks
    split
    · exact noPanic_nil
    · exact noPanic_cons (by decide) (noPanic_append (AllTok.noPanic h2) (noPanic_cons (by decide) noPanic_nil))
  · unfold nnToks
    split
    · exact noPanic_cons (by decide) (noPanic_cons (by decide) noPanic_nil)
    · exact noPanic_nil
  · unfold dftToks
    split
    · exact noPanic_nil
    · rcases h5 with ⟨_, rfl⟩ | ⟨_, h5, _⟩
      · contradiction
      · exact noPanic_cons (by decide) h5.noPanic
  · rcases h6 with ⟨_, rfl⟩ | ⟨g, hg, _, rfl⟩
    · exact noPanic_nil
    · exact noPanic_cons (by decide) (noPanic_cons (by decide) hg.noPanic)

theorem colToks_noPanic : ∀ l : List ColumnIdent, NoPanic (colToks l)
  | [] => noPanic_nil
  | [i] => noPanic_cons (by simp) (ordToks_noPanic i.order)
  | i :: j :: r => noPanic_cons (by simp) (noPanic_append (ordToks_noPanic i.order) (noPanic_cons (by decide) (colToks_noPanic (j :: r))))

theorem uqToks_noPanic (b : Bool) : NoPanic (uqToks b) := by
  cases b
  · exact noPanic_nil
  · exact noPanic_cons (by decide) noPanic_nil

theorem conToks_noPanic {c : Constraint} (h : ConOk c) : NoPanic (conToks c) := by
  have hc : NoPanic [closeTok] := noPanic_cons (by decide) noPanic_nil
  cases c with
  | foreignKey n cs r rcs =>
    exact noPanic_cons (by decide) (noPanic_cons (by simp) (noPanic_cons (by simp) (noPanic_cons (by simp) (noPanic_cons (by simp)
      (noPanic_append (colToks_noPanic cs) (noPanic_cons (by simp) (noPanic_cons (by simp) (noPanic_cons (by simp) (noPanic_cons (by simp)
        (noPanic_append (colToks_noPanic rcs) hc))))))))))
  | check n e =>
    refine noPanic_append ?_ (noPanic_cons (by simp) (noPanic_cons (by simp) (grpWords_ok h.2).1.noPanic))
    cases n with
    | none => exact noPanic_nil
    | some n => exact noPanic_cons (by decide) (noPanic_cons (by simp) noPanic_nil)

/-! ## The list of columns and constraints -/

/-- The items, each behind a comma. -/
def tailToks : List (List Token) → List Token
  | [] => []
  | x :: l => commaTok :: (x ++ tailToks l)

/-- The items, separated by commas. -/
def sepToks : List (List Token) → List Token
  | [] => []
  | x :: l => x ++ tailToks l

theorem tailToks_noPanic {l : List (List Token)} (h : ∀ x ∈ l, NoPanic x) : NoPanic (tailToks l) := by
  induction l with
  | nil => exact noPanic_nil
  | cons x l ih =>
    exact noPanic_cons (by decide) (noPanic_append (h x (by simp)) (ih fun y hy => h y (by simp [hy])))

theorem sepToks_noPanic {l : List (List Token)} (h : ∀ x ∈ l, NoPanic x) : NoPanic (sepToks l) := by
  cases l with
  | nil => exact noPanic_nil
  | cons x l => exact noPanic_append (h x (by simp)) (tailToks_noPanic fun y hy => h y (by simp [hy]))

theorem tailToks_append (a b : List (List Token)) : tailToks (a ++ b) = tailToks a ++ tailToks b := by
  induction a with
  | nil => rfl
  | cons x a ih => simp [tailToks, ih]

theorem tailToks_curT (l : List (List Token)) (rest : List Token) :
    curT (tailToks l ++ closeTok :: rest) ∈ [.COMMA, .CLOSE_PAREN] := by
  cases l <;> simp [tailToks]

theorem itemLines_append (a b : List Str) :
    itemLines (if b = [] then s%"\n" else s%",\n") a ++ itemLines s%"\n" b = itemLines s%"\n" (a ++ b) := by
  cases b with
  | nil => simp [itemLines]
  | cons y b =>
    simp only [List.cons_ne_nil, if_false]
    induction a with
    | nil => simp [itemLines]
    | cons x a ih =>
      cases a with
      | nil => simp [itemLines]
      | cons z a =>
        simp only [itemLines, List.cons_append, List.append_assoc] at ih ⊢
        rw [ih]

theorem lex_itemLines (l : List (Str × List Token))
    (h : ∀ p ∈ l, ∀ s, Start s → lex .spanner (p.1 ++ s) = p.2 ++ lex .spanner s) (s : Str) :
    lex .spanner (itemLines s%"\n" (l.map (·.1)) ++ s) = sepToks (l.map (·.2)) ++ lex .spanner s := by
  have hind : ∀ r, lex .spanner (indent ++ r) = lex .spanner r := by
    intro r
    rw [lex_lit (d := .spanner) (by decide) (by decide) (by decide)]
    rfl
  have hcomma : ∀ r, lex .spanner (s%",\n" ++ r) = commaTok :: lex .spanner r := by
    intro r
    rw [lex_lit (d := .spanner) (by decide) (by decide) (by decide)]
    rfl
  have hnl : ∀ r, lex .spanner (s%"\n" ++ r) = lex .spanner r := fun r => lex_ws .spanner '\n' r rfl
  induction l with
  | nil => rfl
  | cons p l ih =>
    cases l with
    | nil =>
      simp only [List.map_cons, List.map_nil, itemLines, sepToks, tailToks, List.append_nil, List.append_assoc]
      have hs : Start (s%"\n" ++ s) := start_cons (by decide)
      rw [hind, h p (by simp) _ hs, hnl]
    | cons q l =>
      simp only [List.map_cons, itemLines, sepToks, tailToks, List.append_assoc] at ih ⊢
      have hs : ∀ r, Start (s%",\n" ++ r) := fun r => start_cons (by decide)
      rw [hind, h p (by simp) _ (hs _), hcomma, ih fun x hx => h x (by simp [hx])]
      simp

theorem appendConstraint_new {cs : List Constraint} {c : Constraint} (hn : Named cs) (hc : cs = [] ∨ c.name ≠ none)
    (h : ∀ x ∈ cs, x.name.map (·.name) ≠ c.name.map (·.name)) : appendConstraint cs c = .ok (cs ++ [c]) := by
  induction cs with
  | nil => rfl
  | cons x cs ih =>
    have h1 := hn x (by simp)
    have h2 := hc.resolve_left (by simp)
    have h3 := h x (by simp)
    obtain ⟨a, ea⟩ := Option.ne_none_iff_exists'.1 h1
    obtain ⟨b, eb⟩ := Option.ne_none_iff_exists'.1 h2
    rw [ea, eb] at h3
    simp only [Option.map_some, ne_eq, Option.some.injEq] at h3
    unfold appendConstraint
    simp only [Constraint.nameStr, ea, eb, bind_ok, if_neg h3]
    rw [ih (fun y hy => hn y (by simp [hy])) (Or.inr h2) fun y hy => h y (by simp [hy])]
    simp

theorem append_next {cs l : List Constraint} {c : Constraint} (h : NodupNames (cs ++ c :: l)) (hc : Chain (cs ++ c :: l)) :
    appendConstraint cs c = .ok (cs ++ [c]) := by
  have hd : ∀ x ∈ cs, x.name.map (·.name) ≠ c.name.map (·.name) := by
    unfold NodupNames at h
    rw [List.map_append, List.nodup_append] at h
    intro x hx e
    exact h.2.2 _ (List.mem_map_of_mem hx) _ (List.mem_map_of_mem (List.mem_cons_self ..)) e
  rcases hc with hc | hc
  · simp only [List.length_append, List.length_cons] at hc
    have : cs = [] := List.length_eq_zero_iff.1 (by omega)
    subst this
    rfl
  · exact appendConstraint_new (fun x hx => hc x (by simp [hx])) (Or.inr (hc c (by simp))) hd

/-- The rest of the list is read up to its end. -/
theorem conItems_reads {tbl : Ident} : ∀ (l : List Constraint) (cols : List Column) (cs : List Constraint) (n : Nat) (rest : List Token),
    (∀ c ∈ l, ConOk c) → NodupNames (cs ++ l) → Chain (cs ++ l) → NoPanic rest → (tailToks (l.map conToks)).length + 1 ≤ n →
    tableLoop tbl n cols cs (tailToks (l.map conToks) ++ closeTok :: rest) = .ok (cols, cs ++ l, rest) := by
  intro l
  induction l with
  | nil =>
    intro cols cs n rest _ _ _ hp hn
    obtain ⟨n, rfl⟩ : ∃ k, n = k + 1 := ⟨n - 1, by omega⟩
    simp [tailToks, tableLoop, isConstraint, next_cons (noPanic_cons (t := closeTok) (by decide) hp)]
  | cons c l ih =>
    intro cols cs n rest h hnd hch hp hn
    have h1 := h c (by simp)
    have hnp : NoPanic (conToks c ++ (tailToks (l.map conToks) ++ closeTok :: rest)) :=
      noPanic_append (conToks_noPanic h1) (noPanic_append (tailToks_noPanic (by
        intro x hx
        obtain ⟨y, hy, rfl⟩ := List.mem_map.1 hx
        exact conToks_noPanic (h y (by simp [hy])))) (noPanic_cons (by decide) hp))
    have hnp' : NoPanic (commaTok :: (conToks c ++ (tailToks (l.map conToks) ++ closeTok :: rest))) :=
      noPanic_cons (by decide) hnp
    have hcur : curT (conToks c ++ (tailToks (l.map conToks) ++ closeTok :: rest)) ≠ .IDENT ∧
        isConstraint (curT (conToks c ++ (tailToks (l.map conToks) ++ closeTok :: rest))) = true ∧ 2 ≤ (conToks c).length := by
      cases c with
      | check n e => cases n <;> simp [conToks, cnToks, constraintTok, isConstraint]
      | _ => simp [conToks, constraintTok, isConstraint]
    have hlen := hcur.2.2
    simp only [List.map_cons, tailToks, List.cons_append, List.append_assoc, List.length_cons, List.length_append] at hn ⊢
    obtain ⟨n, rfl⟩ : ∃ k, n = k + 2 := ⟨n - 2, by omega⟩
    rw [tableLoop]
    simp only [curT_cons, commaTok_type, next_cons hnp', bind_ok]
    rw [if_neg (by decide), if_neg (by decide), if_pos trivial]
    rw [tableLoop, if_neg hcur.1, if_pos hcur.2.1, parseTableConstraint_reads h1 hnp]
    simp only [bind_ok, append_next hnd hch]
    rw [ih cols _ n rest (fun x hx => h x (by simp [hx])) (by simpa using hnd) (by simpa using hch) hp (by omega)]
    simp

/-- The tokens with which the column is printed. -/
noncomputable def printToks (c : Column) : List Token := by
  classical exact if h : ∃ us, ColOk c us then h.choose else []

theorem printToks_ok {c : Column} (h : ∃ us, ColOk c us) : ColOk c (printToks c) := by
  unfold printToks
  rw [dif_pos h]
  exact h.choose_spec

theorem colItems_reads {tbl : Ident} (con : List Constraint) (hcon : ∀ c ∈ con, ConOk c) (hnd : NodupNames con) (hch : Chain con)
    {rest : List Token} (hp : NoPanic rest) :
    ∀ (l cols : List Column) (n : Nat), (∀ c ∈ l, (∃ us, ColOk c us) ∧ c.Rereadable) →
    (tailToks (l.map printToks ++ con.map conToks)).length + 1 ≤ n →
    tableLoop tbl n cols [] (tailToks (l.map printToks ++ con.map conToks) ++ closeTok :: rest) =
      .ok (cols ++ l, con, rest) ∧
    ∀ c l', l = c :: l' → tableLoop tbl n cols [] (tailToks (l.map printToks ++ con.map conToks) ++ closeTok :: rest).tail =
      .ok (cols ++ l, con, rest) := by
  intro l
  induction l with
  | nil =>
    intro cols n _ hn
    simp only [List.map_nil, List.nil_append, List.append_nil] at hn ⊢
    exact ⟨conItems_reads con cols [] n rest hcon hnd hch hp hn, fun _ _ e => by cases e⟩
  | cons c l ih =>
    intro cols n h hn
    have hc := printToks_ok (h c (by simp)).1
    have hai := (h c (by simp)).2
    have hall : ∀ x ∈ l.map printToks ++ con.map conToks, NoPanic x := by
      intro x hx
      rcases List.mem_append.1 hx with hx | hx <;> obtain ⟨y, hy, rfl⟩ := List.mem_map.1 hx
      · exact (printToks_ok (h y (by simp [hy])).1).noPanic
      · exact conToks_noPanic (hcon y hy)
    have hnp : NoPanic (printToks c ++ (tailToks (l.map printToks ++ con.map conToks) ++ closeTok :: rest)) :=
      noPanic_append hc.noPanic (noPanic_append (tailToks_noPanic hall) (noPanic_cons (by decide) hp))
    have hnp' := noPanic_cons (t := commaTok) (by decide) hnp
    have hlen : 1 ≤ (printToks c).length ∧ ∀ r, curT (printToks c ++ r) = .IDENT := by
      obtain ⟨_, us, g, ga, _, _, _, e⟩ := hc
      rw [e]
      simp
    have step : ∀ m, (tailToks (l.map printToks ++ con.map conToks)).length + 1 ≤ m →
        tableLoop tbl (m + 1) cols [] (printToks c ++ (tailToks (l.map printToks ++ con.map conToks) ++ closeTok :: rest)) =
          .ok (cols ++ c :: l, con, rest) := by
      intro m hm
      rw [tableLoop, if_pos (hlen.2 _), parseColumn_reads hc hai (tailToks_curT _ _) hnp]
      simp only [bind_ok, appendAll]
      rw [(ih (cols ++ [c]) m (fun x hx => h x (by simp [hx])) hm).1]
      simp
    have hl := hlen.1
    simp only [List.map_cons, tailToks, List.cons_append, List.append_assoc, List.length_cons, List.length_append, List.tail_cons] at hn ⊢
    obtain ⟨n, rfl⟩ : ∃ k, n = k + 2 := ⟨n - 2, by omega⟩
    refine ⟨?_, fun _ _ _ => step (n + 1) (by omega)⟩
    rw [tableLoop]
    simp only [curT_cons, commaTok_type, next_cons hnp', bind_ok]
    rw [if_neg (by decide), if_neg (by decide), if_pos trivial]
    exact step n (by omega)

theorem items_read {tbl : Ident} {cols : List Column} {con : List Constraint} (hcols : ∀ c ∈ cols, (∃ us, ColOk c us) ∧ c.Rereadable)
    (hcon : ∀ c ∈ con, ConOk c) (hnd : NodupNames con) (hch : Chain con) {rest : List Token} (hp : NoPanic rest) {n : Nat}
    (hn : (sepToks (cols.map printToks ++ con.map conToks)).length + 2 ≤ n) :
    tableLoop tbl n [] [] (sepToks (cols.map printToks ++ con.map conToks) ++ closeTok :: rest) =
      .ok (cols, con, rest) := by
  cases cols with
  | cons c cols =>
    have := (colItems_reads (tbl := tbl) con hcon hnd hch hp (c :: cols) [] n hcols (by simp [tailToks, sepToks] at hn ⊢; omega)).2 c cols rfl
    simpa [tailToks, sepToks] using this
  | nil =>
    cases con with
    | nil =>
      have := conItems_reads (tbl := tbl) [] [] [] n rest (by simp) hnd hch hp (by simp [tailToks, sepToks] at hn ⊢; omega)
      simpa [tailToks, sepToks] using this
    | cons c con =>
      obtain ⟨n, rfl⟩ : ∃ k, n = k + 1 := ⟨n - 1, by omega⟩
      have := conItems_reads (tbl := tbl) (c :: con) [] [] (n + 2) rest hcon hnd hch hp (by simp [tailToks, sepToks] at hn ⊢; omega)
      simp only [List.map_cons, tailToks, List.cons_append] at this
      rw [tableLoop] at this
      simp only [List.map_nil, List.nil_append, List.map_cons, sepToks]
      have hnp : NoPanic (commaTok :: (conToks c ++ tailToks (con.map conToks) ++ closeTok :: rest)) :=
        noPanic_cons (by decide) (noPanic_append (noPanic_append (conToks_noPanic (hcon c (by simp))) (tailToks_noPanic (by
          intro x hx
          obtain ⟨y, hy, rfl⟩ := List.mem_map.1 hx
          exact conToks_noPanic (hcon y (by simp [hy]))))) (noPanic_cons (by decide) hp))
      simp only [curT_cons, commaTok_type, next_cons hnp, bind_ok] at this
      rw [if_neg (by decide), if_neg (by decide), if_pos trivial] at this
      exact this

/-! ## Options -/

/-- The words of the value of an option. -/
def OptWords (o : TableOption) (ws : List Word) : Prop :=
  o.value = ids ws ∧
  ((o.name = s%"PRIMARY KEY" ∧ ∃ g, Grp g ∧ ws = (rawIdent s%"(", [openTok]) :: g) ∨
   (o.name = s%"INTERLEAVE IN PARENT" ∧ ∃ i, NameOk i ∧
     (ws = [(i, [nameTok i])] ∨
      ws = [(i, [nameTok i]), (rawIdent s%"ON DELETE CASCADE", [⟨.ON, s%"ON"⟩, ⟨.DELETE, s%"DELETE"⟩, ⟨.CASCADE, s%"CASCADE"⟩])] ∨
      ws = [(i, [nameTok i]), (rawIdent s%"ON DELETE NO ACTION",
        [⟨.ON, s%"ON"⟩, ⟨.DELETE, s%"DELETE"⟩, ⟨.NO, s%"NO"⟩, ⟨.ACTION, s%"ACTION"⟩])])))

/-- The option, as it was read. -/
def TopOk (o : TableOption) : Prop := ∃ ws, OptWords o ws

open Classical in
/-- The tokens of an option. -/
noncomputable def topToks (o : TableOption) : List Token :=
  lex .spanner o.name ++ (if h : TopOk o then toks h.choose else [])

/-- The types of the tokens of a row deletion policy. -/
def rdpTypes : List TokType :=
  [.OPEN_PAREN, .OLDER_THAN, .OPEN_PAREN, .IDENT, .COMMA, .INTERVAL, .IDENT, .DAY, .CLOSE_PAREN, .CLOSE_PAREN]

/-- The tokens of a row deletion policy. -/
def RdpToks (o : TableOption) (ts : List Token) : Prop :=
  o.name = s%"ROW DELETION POLICY" ∧ AllTok L ts ∧ ts.map (·.type) = rdpTypes ∧ o.value = ts.map (fun t => rawIdent t.lit)

/-- The policy, as it was read. -/
def RdpOk (o : TableOption) : Prop := ∃ ts, RdpToks o ts

def rdpHead : List Token := [⟨.ROW, s%"ROW"⟩, ⟨.DELETION, s%"DELETION"⟩, ⟨.POLICY, s%"POLICY"⟩]

open Classical in
/-- The tokens of a row deletion policy behind a comma. -/
noncomputable def rdpToks : Option TableOption → List Token
  | none => []
  | some o => commaTok :: (rdpHead ++ if h : RdpOk o then h.choose else [])

theorem topToks_ok {o : TableOption} (h : TopOk o) : ∃ ws, OptWords o ws ∧ topToks o = lex .spanner o.name ++ toks ws := by
  refine ⟨h.choose, h.choose_spec, ?_⟩
  unfold topToks
  rw [dif_pos h]

theorem rdpToks_ok {o : TableOption} (h : RdpOk o) : ∃ ts, RdpToks o ts ∧ rdpToks (some o) = commaTok :: (rdpHead ++ ts) := by
  refine ⟨h.choose, h.choose_spec, ?_⟩
  simp only [rdpToks]
  rw [dif_pos h]

theorem expect_post {t : TokType} (ht : t ≠ .EOF) {ts : List Token} (hL : AllTok L ts) :
    Post (fun r => (∃ k, L k ∧ k.type = t ∧ r.1 = k.lit) ∧ AllTok L r.2 ∧ (t = .IDENT → NameOk (rawIdent r.1))) (expect t ts) := by
  unfold expect
  refine Post.next_bind (Post.checkCur_bind (fun hc => Post.ok ?_))
  simp only [List.mem_singleton] at hc
  refine ⟨?_, hL.tail, fun e => nameOk_cur hL.tail (hc.trans e)⟩
  have h := hL.tail
  revert hc h
  cases ts.tail with
  | nil => intro hc _; exact absurd hc.symm ht
  | cons k r => intro hc h; exact ⟨k, h k (by simp), hc, rfl⟩

theorem parseInterleaveAction_post {ts : List Token} (hL : AllTok L ts) :
    Post (fun r => (r.1 = [] ∨ r.1 = [rawIdent s%"ON DELETE CASCADE"] ∨ r.1 = [rawIdent s%"ON DELETE NO ACTION"]) ∧ AllTok L r.2)
      (parseInterleaveAction ts) := by
  unfold parseInterleaveAction
  split
  · refine Post.next_bind ((expect_post (by decide) hL.tail).bind ?_)
    rintro ⟨_, ts₁⟩ ⟨_, h, _⟩
    refine Post.next_bind ?_
    split
    · exact Post.ok ⟨by simp, AllTok.tail h⟩
    split
    · refine (expect_post (by decide) (AllTok.tail h)).bind ?_
      rintro ⟨_, ts₂⟩ ⟨_, h, _⟩
      exact Post.ok ⟨by simp, h⟩
    · exact trivial
  · exact Post.ok ⟨by simp, hL⟩

theorem parseInterleave_post {ts : List Token} (hL : AllTok L ts) :
    Post (fun r => TopOk r.1 ∧ AllTok L r.2) (parseInterleave ts) := by
  unfold parseInterleave
  refine (expect_post (by decide) hL).bind ?_
  rintro ⟨_, ts₁⟩ ⟨_, h1, _⟩
  refine (expect_post (by decide) h1).bind ?_
  rintro ⟨_, ts₂⟩ ⟨_, h2, _⟩
  refine (expect_post (by decide) h2).bind ?_
  rintro ⟨t, ts₃⟩ ⟨_, h3, hn⟩
  refine (parseInterleaveAction_post h3).bind ?_
  rintro ⟨a, ts₄⟩ ⟨ha, h4⟩
  refine Post.ok ⟨?_, h4⟩
  rcases ha with ha | ha | ha <;> simp only at ha <;> subst ha
  · exact ⟨_, rfl, Or.inr ⟨rfl, _, hn rfl, Or.inl rfl⟩⟩
  · exact ⟨_, rfl, Or.inr ⟨rfl, _, hn rfl, Or.inr (Or.inl rfl)⟩⟩
  · exact ⟨_, rfl, Or.inr ⟨rfl, _, hn rfl, Or.inr (Or.inr rfl)⟩⟩

theorem parseRowDeletionPolicy_post {ts : List Token} (hL : AllTok L ts) :
    Post (fun r => RdpOk r.1 ∧ AllTok L r.2) (parseRowDeletionPolicy ts) := by
  unfold parseRowDeletionPolicy
  refine (expect_post (by decide) hL).bind ?_
  rintro ⟨_, ts₁⟩ ⟨_, h, _⟩
  refine (expect_post (by decide) h).bind ?_
  rintro ⟨_, ts₂⟩ ⟨_, h, _⟩
  refine (expect_post (by decide) h).bind ?_
  rintro ⟨_, ts_a⟩ ⟨⟨a, La, Ta, ea⟩, h, _⟩
  simp only at ea
  subst ea
  refine (expect_post (by decide) h).bind ?_
  rintro ⟨_, ts_b⟩ ⟨⟨b, Lb, Tb, eb⟩, h, _⟩
  simp only at eb
  subst eb
  refine (expect_post (by decide) h).bind ?_
  rintro ⟨_, ts_c⟩ ⟨⟨c, Lc, Tc, ec⟩, h, _⟩
  simp only at ec
  subst ec
  refine (expect_post (by decide) h).bind ?_
  rintro ⟨_, ts_d⟩ ⟨⟨d, Ld, Td, ed⟩, h, _⟩
  simp only at ed
  subst ed
  refine (expect_post (by decide) h).bind ?_
  rintro ⟨_, ts_e⟩ ⟨⟨e, Le, Te, ee⟩, h, _⟩
  simp only at ee
  subst ee
  refine (expect_post (by decide) h).bind ?_
  rintro ⟨_, ts_f⟩ ⟨⟨f, Lf, Tf, ef⟩, h, _⟩
  simp only at ef
  subst ef
  refine (expect_post (by decide) h).bind ?_
  rintro ⟨_, ts_g⟩ ⟨⟨g, Lg, Tg, eg⟩, h, _⟩
  simp only at eg
  subst eg
  refine (expect_post (by decide) h).bind ?_
  rintro ⟨_, ts_h⟩ ⟨⟨h_, Lh, Th, eh⟩, h, _⟩
  simp only at eh
  subst eh
  refine (expect_post (by decide) h).bind ?_
  rintro ⟨_, ts_i⟩ ⟨⟨i, Li, Ti, ei⟩, h, _⟩
  simp only at ei
  subst ei
  refine (expect_post (by decide) h).bind ?_
  rintro ⟨_, ts_j⟩ ⟨⟨j, Lj, Tj, ej⟩, h, _⟩
  simp only at ej
  subst ej
  refine Post.ok ⟨⟨[a, b, c, d, e, f, g, h_, i, j], rfl, ?_, ?_, rfl⟩, h⟩
  · intro x hx
    simp only [List.mem_cons, List.not_mem_nil, or_false] at hx
    rcases hx with rfl | rfl | rfl | rfl | rfl | rfl | rfl | rfl | rfl | rfl <;> assumption
  · simp only [List.map_cons, List.map_nil, rdpTypes, Ta, Tb, Tc, Td, Te, Tf, Tg, Th, Ti, Tj]

theorem optionsLoop_post : ∀ (n : Nat) (os : List TableOption) (rdp : Option TableOption) (ts : List Token), AllTok L ts →
    (∀ o ∈ os, TopOk o) → (∀ o, rdp = some o → RdpOk o) →
    Post (fun r => (∀ o ∈ r.1, TopOk o) ∧ (∀ o, r.2.1 = some o → RdpOk o) ∧ AllTok L r.2.2) (optionsLoop n os rdp ts) := by
  have snoc : ∀ (os : List TableOption) (o : TableOption), (∀ o ∈ os, TopOk o) → TopOk o → ∀ x ∈ os ++ [o], TopOk x := by
    intro os o h ho x hx
    rcases List.mem_append.1 hx with hx | hx
    · exact h x hx
    · simp only [List.mem_singleton] at hx
      subst hx
      exact ho
  intro n
  induction n with
  | zero => intros; exact trivial
  | succ n ih =>
    intro os rdp ts hL hos hr
    unfold optionsLoop
    split
    · refine (expect_post (by decide) hL).bind ?_
      rintro ⟨_, ts₁⟩ ⟨_, h1, _⟩
      refine Post.next_bind ((parseExpr_post (AllTok.tail h1)).bind ?_)
      rintro ⟨v, ts₂⟩ ⟨⟨g, hg, e⟩, h2⟩
      exact ih _ _ _ h2 (snoc _ _ hos ⟨(rawIdent s%"(", [openTok]) :: g, e, Or.inl ⟨rfl, g, hg, rfl⟩⟩) hr
    split
    · refine (parseInterleave_post hL).bind ?_
      rintro ⟨o, ts₁⟩ ⟨ho, h1⟩
      exact Post.next_bind (ih _ _ _ (AllTok.tail h1) (snoc _ _ hos ho) hr)
    split
    · refine (parseRowDeletionPolicy_post hL).bind ?_
      rintro ⟨o, ts₁⟩ ⟨ho, h1⟩
      refine Post.next_bind (ih _ _ _ (AllTok.tail h1) hos ?_)
      intro x hx
      cases hx
      exact ho
    split
    · exact Post.next_bind (ih _ _ _ hL.tail hos hr)
    split
    · exact Post.ok ⟨hos, hr, hL⟩
    · exact trivial

theorem OptWords.ok {o : TableOption} {ws : List Word} (h : OptWords o ws) : ∀ w ∈ ws, WordOk w := by
  have name : ∀ i, NameOk i → WordOk (i, [nameTok i]) := fun i hi => wordOk_tok hi.2 rfl
  have hc : WordOk (rawIdent s%"ON DELETE CASCADE", [⟨.ON, s%"ON"⟩, ⟨.DELETE, s%"DELETE"⟩, ⟨.CASCADE, s%"CASCADE"⟩]) := by
    refine ⟨by decide, ?_⟩
    intro s hs
    have hs' : Apart .spanner s%"CASCADE" s := fun x y hx hy => hs x y (by simpa using hx) hy
    have := lex_lx (d := .spanner) (t := ⟨.CASCADE, s%"CASCADE"⟩) (Or.inl ⟨by decide, by decide, Or.inl (by decide)⟩) hs'
    have e := lex_lit (d := .spanner) (a := s%"ON DELETE ") (b := s%"CASCADE" ++ s) (by decide) (by decide) (by decide)
    simp only [rawIdent_raw]
    rw [show s%"ON DELETE CASCADE" ++ s = s%"ON DELETE " ++ (s%"CASCADE" ++ s) from rfl, e, this]
    rfl
  have hn : WordOk (rawIdent s%"ON DELETE NO ACTION",
      [⟨.ON, s%"ON"⟩, ⟨.DELETE, s%"DELETE"⟩, ⟨.NO, s%"NO"⟩, ⟨.ACTION, s%"ACTION"⟩]) := by
    refine ⟨by decide, ?_⟩
    intro s hs
    have hs' : Apart .spanner s%"ACTION" s := fun x y hx hy => hs x y (by simpa using hx) hy
    have := lex_lx (d := .spanner) (t := ⟨.ACTION, s%"ACTION"⟩) (Or.inl ⟨by decide, by decide, Or.inl (by decide)⟩) hs'
    have e := lex_lit (d := .spanner) (a := s%"ON DELETE NO ") (b := s%"ACTION" ++ s) (by decide) (by decide) (by decide)
    simp only [rawIdent_raw]
    rw [show s%"ON DELETE NO ACTION" ++ s = s%"ON DELETE NO " ++ (s%"ACTION" ++ s) from rfl, e, this]
    rfl
  intro w hw
  obtain ⟨_, ⟨_, g, hg, rfl⟩ | ⟨_, i, hi, rfl | rfl | rfl⟩⟩ := h <;>
    simp only [List.mem_cons, List.not_mem_nil, or_false] at hw
  · rcases hw with rfl | hw
    · exact openWord_ok
    · exact hg.ok w hw
  · subst hw; exact name i hi
  · rcases hw with rfl | rfl
    · exact name i hi
    · exact hc
  · rcases hw with rfl | rfl
    · exact name i hi
    · exact hn

theorem lex_option {o : TableOption} (h : TopOk o) {s : Str} (hs : Start s) : lex .spanner (o.str ++ s) = topToks o ++ lex .spanner s := by
  obtain ⟨ws, hw, e⟩ := topToks_ok h
  have hl : ∀ r, lex .spanner (o.name ++ (s%" " ++ r)) = lex .spanner o.name ++ lex .spanner r := by
    intro r
    have e1 : ∀ r, lex .spanner (s%"PRIMARY KEY" ++ (s%" " ++ r)) = lex .spanner s%"PRIMARY KEY" ++ lex .spanner r := by
      intro r
      rw [← List.append_assoc, lex_lit (d := .spanner) (by decide) (by decide) (by decide)]
      rfl
    have e2 : ∀ r, lex .spanner (s%"INTERLEAVE IN PARENT" ++ (s%" " ++ r)) = lex .spanner s%"INTERLEAVE IN PARENT" ++ lex .spanner r := by
      intro r
      rw [← List.append_assoc, lex_lit (d := .spanner) (by decide) (by decide) (by decide)]
      rfl
    obtain ⟨_, ⟨hn, _⟩ | ⟨hn, _⟩⟩ := hw
    · rw [hn, e1]
    · rw [hn, e2]
  unfold TableOption.str
  rw [List.append_assoc, List.append_assoc, hl, hw.1, lex_exprStr hs ws hw.ok, e, List.append_assoc]

theorem rdp_words : ∀ (ts : List Token), ids (ts.map (fun t => (rawIdent t.lit, [t]))) = ts.map (fun t => rawIdent t.lit) ∧
    toks (ts.map (fun t => (rawIdent t.lit, [t]))) = ts := by
  intro ts
  induction ts with
  | nil => exact ⟨rfl, rfl⟩
  | cons t ts ih =>
    simp only [List.map_cons, ids_cons, toks_cons, ih]
    simp

/-- The text of the policy behind the options. -/
def rdpStr : Option TableOption → Str
  | some o => s%",\n" ++ o.str
  | none => []

theorem createTable_str (t : CreateTable) : t.str =
    commentStr t.comment ++ s%"CREATE TABLE " ++ (if t.ifNotExists then s%"IF NOT EXISTS " else []) ++
    t.name.str ++ s%" (\n" ++
    itemLines (if t.constraints = [] then s%"\n" else s%",\n") (t.columns.map Column.str) ++
    itemLines s%"\n" (t.constraints.map Constraint.str) ++ s%")" ++
    (if t.options = [] then [] else s%" " ++ optionsStr t.options) ++ rdpStr t.rowDeletionPolicy ++ s%";\n" := by
  unfold CreateTable.str
  cases t.rowDeletionPolicy <;> rfl

theorem lex_rdp (r : Option TableOption) {s : Str} (hs : Start s) : (∀ o, r = some o → RdpOk o) →
    Start (rdpStr r ++ s) ∧ lex .spanner (rdpStr r ++ s) = rdpToks r ++ lex .spanner s := by
  intro h
  cases r with
  | none => exact ⟨hs, rfl⟩
  | some o =>
    refine ⟨start_cons (by decide), ?_⟩
    obtain ⟨ts, ⟨h1, h2, _, h4⟩, e⟩ := rdpToks_ok (h o rfl)
    rw [e]
    unfold rdpStr TableOption.str
    have hx := lex_exprStr hs (ts.map (fun t => (rawIdent t.lit, [t]))) (by
      intro w hw
      obtain ⟨t, ht, rfl⟩ := List.mem_map.1 hw
      exact wordOk_tok (h2 t ht) (rawIdent_raw _))
    rw [(rdp_words ts).1, (rdp_words ts).2, ← h4] at hx
    simp only [h1, List.append_assoc]
    rw [show s%",\n" ++ (s%"ROW DELETION POLICY" ++ (s%" " ++ (exprStr o.value ++ s))) =
      s%",\nROW DELETION POLICY " ++ (exprStr o.value ++ s) from rfl,
      lex_lit (d := .spanner) (by decide) (by decide) (by decide), hx]
    rfl

theorem lex_options {s : Str} (hs : Start s) : ∀ l : List TableOption, (∀ o ∈ l, TopOk o) →
    Start ((if l = [] then [] else s%" " ++ optionsStr l) ++ s) ∧
    lex .spanner ((if l = [] then [] else s%" " ++ optionsStr l) ++ s) = sepToks (l.map topToks) ++ lex .spanner s := by
  have hblank : ∀ r, lex .spanner (s%" " ++ r) = lex .spanner r := fun r => lex_ws .spanner ' ' r rfl
  have cm : ∀ r, Start (s%",\n" ++ r) := fun r => start_cons (by decide)
  have key : ∀ (o : TableOption) (l : List TableOption), (∀ x ∈ o :: l, TopOk x) →
      lex .spanner (optionsStr (o :: l) ++ s) = topToks o ++ (tailToks (l.map topToks) ++ lex .spanner s) := by
    intro o l
    induction l generalizing o with
    | nil =>
      intro h
      simp [optionsStr, join, tailToks, lex_option (h o (by simp)) hs]
    | cons p l ih =>
      intro h
      have ih := ih p fun x hx => h x (by simp [List.mem_cons.1 hx])
      unfold optionsStr at ih ⊢
      simp only [List.map_cons, join, List.append_assoc, tailToks] at ih ⊢
      rw [lex_option (h o (by simp)) (cm _), lex_lit (d := .spanner) (by decide) (by decide) (by decide), ih]
      simp only [List.cons_append, List.append_assoc]
      rfl
  intro l h
  cases l with
  | nil => exact ⟨hs, rfl⟩
  | cons o l =>
    refine ⟨start_cons (by decide), ?_⟩
    rw [if_neg (by simp), List.append_assoc, hblank, key o l h]
    simp [sepToks]

theorem toks_noPanic {ws : List Word} (h : ∀ w ∈ ws, ∀ t ∈ w.2, t.type ≠ .PANIC) : NoPanic (toks ws) := by
  induction ws with
  | nil => exact noPanic_nil
  | cons w ws ih =>
    rw [toks_cons]
    exact noPanic_append (h w (by simp)) (ih fun x hx => h x (by simp [hx]))

theorem topToks_noPanic {o : TableOption} (h : TopOk o) : NoPanic (topToks o) := by
  obtain ⟨ws, hw, e⟩ := topToks_ok h
  rw [e]
  obtain ⟨_, ⟨hn, g, hg, rfl⟩ | ⟨hn, i, hi, hw⟩⟩ := hw
  · rw [hn]
    exact noPanic_append (by intro t ht; revert t; decide) (noPanic_cons (by decide) hg.noPanic)
  · rw [hn]
    refine noPanic_append (by intro t ht; revert t; decide) ?_
    rcases hw with rfl | rfl | rfl
    · exact noPanic_cons (by simp) noPanic_nil
    · exact noPanic_cons (by simp) (by intro t ht; revert t; decide)
    · exact noPanic_cons (by simp) (by intro t ht; revert t; decide)

theorem rdpToks_noPanic {r : Option TableOption} (h : ∀ o, r = some o → RdpOk o) : NoPanic (rdpToks r) := by
  cases r with
  | none => exact noPanic_nil
  | some o =>
    obtain ⟨ts, ⟨_, h2, _⟩, e⟩ := rdpToks_ok (h o rfl)
    rw [e]
    exact noPanic_cons (by decide) (noPanic_append (by intro t ht; revert t; decide) (AllTok.noPanic h2))

@[simp] theorem expect_cons {a k : Token} {ts : List Token} (hp : NoPanic (a :: k :: ts)) :
    expect k.type (a :: k :: ts) = .ok (k.lit, k :: ts) := by
  simp [expect, next_cons hp, checkCur]

theorem expect_eq {a k : Token} {y : TokType} {ts : List Token} (hp : NoPanic (a :: k :: ts)) (hk : k.type = y) :
    expect y (a :: k :: ts) = .ok (k.lit, k :: ts) := by
  subst hk
  exact expect_cons hp

/-- An option is read. -/
theorem option_read {o : TableOption} (h : TopOk o) {os : List TableOption} {rdp : Option TableOption} {n : Nat} {rest : List Token}
    (hr : curT rest ≠ .ON) (hp : NoPanic (topToks o ++ rest)) :
    optionsLoop (n + 1) os rdp (topToks o ++ rest) = optionsLoop n (os ++ [o]) rdp rest := by
  obtain ⟨ws, hw, e⟩ := topToks_ok h
  rw [e] at hp ⊢
  obtain ⟨name, v⟩ := o
  have e1 : lex .spanner s%"PRIMARY KEY" = [⟨.PRIMARY, s%"PRIMARY"⟩, ⟨.KEY, s%"KEY"⟩] := by decide
  have e2 : lex .spanner s%"INTERLEAVE IN PARENT" = [⟨.INTERLEAVE, s%"INTERLEAVE"⟩, ⟨.IN, s%"IN"⟩, ⟨.PARENT, s%"PARENT"⟩] := by decide
  obtain ⟨hv, ⟨hn, g, hg, rfl⟩ | ⟨hn, i, hi, hw⟩⟩ := hw <;> simp only at hv hn <;> subst hv <;> subst hn
  · simp only [e1, List.cons_append, List.nil_append, toks_cons, ids_cons] at hp ⊢
    rw [optionsLoop, if_pos (by simp), expect_eq hp rfl]
    simp only [bind_ok, next_cons hp.of_cons]
    rw [parseExpr_reads hg hp.of_cons.of_cons]
    rfl
  · have hstep : ∀ (us : List Token) (act : Expr), NoPanic (⟨.INTERLEAVE, s%"INTERLEAVE"⟩ :: ⟨.IN, s%"IN"⟩ :: ⟨.PARENT, s%"PARENT"⟩ :: nameTok i :: us) →
        (∃ k, parseInterleaveAction (nameTok i :: us) = .ok (act, k :: rest) ∧ NoPanic (k :: rest)) →
        optionsLoop (n + 1) os rdp (⟨.INTERLEAVE, s%"INTERLEAVE"⟩ :: ⟨.IN, s%"IN"⟩ :: ⟨.PARENT, s%"PARENT"⟩ :: nameTok i :: us) =
          optionsLoop n (os ++ [⟨s%"INTERLEAVE IN PARENT", i :: act⟩]) rdp rest := by
      rintro us act hp ⟨k, ek, hk⟩
      rw [optionsLoop, if_neg (by simp), if_pos (by simp)]
      unfold parseInterleave
      rw [expect_eq hp rfl]
      simp only [bind_ok]
      rw [expect_eq hp.of_cons rfl]
      simp only [bind_ok]
      rw [expect_eq hp.of_cons.of_cons (by simp)]
      simp only [bind_ok, ek, next_cons hk, nameTok_lit, ← hi.1]
    rcases hw with rfl | rfl | rfl <;> simp only [e2, List.cons_append, List.nil_append, toks_cons, ids_cons, toks_nil, ids_nil] at hp ⊢
    · refine hstep _ _ hp ⟨nameTok i, ?_, hp.of_cons.of_cons.of_cons⟩
      unfold parseInterleaveAction
      rw [if_neg]
      simpa [peekT] using hr
    · refine hstep _ _ hp ⟨⟨.CASCADE, s%"CASCADE"⟩, ?_, hp.of_cons.of_cons.of_cons.of_cons.of_cons.of_cons⟩
      have hq := hp.of_cons.of_cons.of_cons
      unfold parseInterleaveAction
      rw [if_pos (by simp)]
      simp only [next_cons hq, bind_ok]
      rw [expect_eq hq.of_cons rfl]
      simp only [bind_ok, next_cons hq.of_cons.of_cons]
      rfl
    · refine hstep _ _ hp ⟨⟨.ACTION, s%"ACTION"⟩, ?_, hp.of_cons.of_cons.of_cons.of_cons.of_cons.of_cons.of_cons⟩
      have hq := hp.of_cons.of_cons.of_cons
      unfold parseInterleaveAction
      rw [if_pos (by simp)]
      simp only [next_cons hq, bind_ok]
      rw [expect_eq hq.of_cons rfl]
      simp only [bind_ok, next_cons hq.of_cons.of_cons]
      rw [if_neg (by simp), if_pos (by simp), expect_eq hq.of_cons.of_cons.of_cons rfl]
      rfl

theorem comma_read {os : List TableOption} {rdp : Option TableOption} {n : Nat} {rest : List Token} (hp : NoPanic (commaTok :: rest)) :
    optionsLoop (n + 1) os rdp (commaTok :: rest) = optionsLoop n os rdp rest := by
  rw [optionsLoop, if_neg (by simp), if_neg (by simp), if_neg (by simp), if_pos (by simp)]
  simp only [bind_ok, next_cons hp]

/-- The policy is read. -/
theorem rdp_read {r : Option TableOption} (h : ∀ o, r = some o → RdpOk o) {os : List TableOption} {n : Nat} {rest : List Token}
    (hr : curT rest = .SEMICOLON) (hn : (rdpToks r).length + 1 ≤ n) (hp : NoPanic (rdpToks r ++ rest)) :
    optionsLoop n os none (rdpToks r ++ rest) = .ok (os, r, rest) := by
  have hend : ∀ n r, optionsLoop (n + 1) os r rest = .ok (os, r, rest) := by
    intro n r
    simp [optionsLoop, hr]
  cases r with
  | none =>
    obtain ⟨n, rfl⟩ : ∃ k, n = k + 1 := ⟨n - 1, by omega⟩
    exact hend n none
  | some o =>
    obtain ⟨ts, ⟨h1, h2, h3, h4⟩, e⟩ := rdpToks_ok (h o rfl)
    obtain ⟨name, v⟩ := o
    simp only at h1 h4
    subst h1
    rw [e] at hn hp ⊢
    simp only [List.length_cons, List.length_append, rdpHead, List.length_nil] at hn
    obtain ⟨n, rfl⟩ : ∃ k, n = k + 3 := ⟨n - 3, by omega⟩
    simp only [rdpHead, List.cons_append, List.nil_append] at hp ⊢
    rw [comma_read hp]
    replace hp := hp.of_cons
    unfold rdpTypes at h3
    obtain ⟨a, r_a, rfl, Ta, h3⟩ := map_type_cons h3
    obtain ⟨b, r_b, rfl, Tb, h3⟩ := map_type_cons h3
    obtain ⟨c, r_c, rfl, Tc, h3⟩ := map_type_cons h3
    obtain ⟨d, r_d, rfl, Td, h3⟩ := map_type_cons h3
    obtain ⟨e_, r_e, rfl, Te, h3⟩ := map_type_cons h3
    obtain ⟨f, r_f, rfl, Tf, h3⟩ := map_type_cons h3
    obtain ⟨g, r_g, rfl, Tg, h3⟩ := map_type_cons h3
    obtain ⟨h_, r_h, rfl, Th, h3⟩ := map_type_cons h3
    obtain ⟨i, r_i, rfl, Ti, h3⟩ := map_type_cons h3
    obtain ⟨j, r_j, rfl, Tj, h3⟩ := map_type_cons h3
    simp only [List.map_eq_nil_iff] at h3
    subst h3
    simp only [List.cons_append, List.nil_append, List.map_cons, List.map_nil] at hp h4 ⊢
    subst h4
    rw [optionsLoop, if_neg (by simp), if_neg (by simp), if_pos (by simp)]
    unfold parseRowDeletionPolicy
    have q0 := hp
    rw [expect_eq q0 rfl]
    simp only [bind_ok]
    have q1 := q0.of_cons
    rw [expect_eq q1 rfl]
    simp only [bind_ok]
    have q2 := q1.of_cons
    rw [expect_eq q2 Ta]
    simp only [bind_ok]
    have q3 := q2.of_cons
    rw [expect_eq q3 Tb]
    simp only [bind_ok]
    have q4 := q3.of_cons
    rw [expect_eq q4 Tc]
    simp only [bind_ok]
    have q5 := q4.of_cons
    rw [expect_eq q5 Td]
    simp only [bind_ok]
    have q6 := q5.of_cons
    rw [expect_eq q6 Te]
    simp only [bind_ok]
    have q7 := q6.of_cons
    rw [expect_eq q7 Tf]
    simp only [bind_ok]
    have q8 := q7.of_cons
    rw [expect_eq q8 Tg]
    simp only [bind_ok]
    have q9 := q8.of_cons
    rw [expect_eq q9 Th]
    simp only [bind_ok]
    have q10 := q9.of_cons
    rw [expect_eq q10 Ti]
    simp only [bind_ok]
    have q11 := q10.of_cons
    rw [expect_eq q11 Tj]
    simp only [bind_ok]
    simp only [next_cons q11.of_cons, bind_ok]
    exact hend _ _

theorem topToks_ne {o : TableOption} (h : TopOk o) : topToks o ≠ [] := by
  obtain ⟨ws, ⟨_, ⟨hn, _⟩ | ⟨hn, _⟩⟩, e⟩ := topToks_ok h <;> rw [e, hn] <;> (intro e; exact absurd (List.append_eq_nil_iff.1 e).1 (by decide))

theorem tail_not_on {r : Option TableOption} (h : ∀ o, r = some o → RdpOk o) {rest : List Token} (hr : curT rest = .SEMICOLON)
    (l : List TableOption) : curT (tailToks (l.map topToks) ++ (rdpToks r ++ rest)) ≠ .ON := by
  cases l with
  | cons o l => simp [tailToks]
  | nil =>
    cases r with
    | none => simp [tailToks, rdpToks, hr]
    | some o =>
      obtain ⟨ts, _, e⟩ := rdpToks_ok (h o rfl)
      simp [tailToks, e]

/-- All options are read. -/
theorem tailOptions_read {r : Option TableOption} (h : ∀ o, r = some o → RdpOk o) {rest : List Token} (hr : curT rest = .SEMICOLON) :
    ∀ (l os : List TableOption) (n : Nat), (∀ o ∈ l, TopOk o) → (tailToks (l.map topToks)).length + (rdpToks r).length + 1 ≤ n →
    NoPanic (tailToks (l.map topToks) ++ (rdpToks r ++ rest)) →
    optionsLoop n os none (tailToks (l.map topToks) ++ (rdpToks r ++ rest)) = .ok (os ++ l, r, rest) := by
  intro l
  induction l with
  | nil =>
    intro os n _ hn hp
    rw [List.append_nil]
    exact rdp_read h hr (by simpa [tailToks] using hn) hp
  | cons o l ih =>
    intro os n ho hn hp
    have hlen : 1 ≤ (topToks o).length := List.length_pos_iff.2 (topToks_ne (ho o (by simp)))
    simp only [List.map_cons, tailToks, List.cons_append, List.append_assoc, List.length_cons, List.length_append] at hn hp ⊢
    obtain ⟨n, rfl⟩ : ∃ k, n = k + 2 := ⟨n - 2, by omega⟩
    rw [comma_read hp, option_read (ho o (by simp)) (tail_not_on h hr l) hp.of_cons,
      ih _ n (fun x hx => ho x (by simp [hx])) (by omega) hp.of_cons.of_append]
    simp

theorem optionsLoop_reads {r : Option TableOption} (h : ∀ o, r = some o → RdpOk o) {rest : List Token} (hr : curT rest = .SEMICOLON)
    (l : List TableOption) (ho : ∀ o ∈ l, TopOk o) {n : Nat} (hn : (sepToks (l.map topToks)).length + (rdpToks r).length + 1 ≤ n)
    (hp : NoPanic (sepToks (l.map topToks) ++ (rdpToks r ++ rest))) :
    optionsLoop n [] none (sepToks (l.map topToks) ++ (rdpToks r ++ rest)) = .ok (l, r, rest) := by
  cases l with
  | nil => exact tailOptions_read h hr [] [] n (by simp) (by simpa [tailToks, sepToks] using hn) (by simpa [tailToks, sepToks] using hp)
  | cons o l =>
    have hlen : 1 ≤ (topToks o).length := List.length_pos_iff.2 (topToks_ne (ho o (by simp)))
    simp only [List.map_cons, sepToks, List.append_assoc, List.length_append] at hn hp ⊢
    obtain ⟨n, rfl⟩ : ∃ k, n = k + 1 := ⟨n - 1, by omega⟩
    rw [option_read (ho o (by simp)) (tail_not_on h hr l) hp,
      tailOptions_read h hr l _ n (fun x hx => ho x (by simp [hx])) (by omega) hp.of_append]
    simp

/-! ## Tables -/

/-- The value of the default was read. -/
def Valued (c : Column) : Prop := c.default ≠ some ⟨none⟩

/-- The table, as it was read. -/
def TabOk (t : CreateTable) : Prop :=
  t.comment = [] ∧ (∃ raw, L ⟨.IDENT, raw⟩ ∧ t.name = newObjectName .spanner raw) ∧
  (∀ c ∈ t.columns, Valued c → ∃ us, ColOk c us) ∧ ConsOk t.constraints ∧ (∀ o ∈ t.options, TopOk o) ∧ ∀ o, t.rowDeletionPolicy = some o → RdpOk o

/-- The index, as it was read. -/
def IdxOk (i : CreateIndex) : Prop :=
  i.comment = [] ∧ (∃ raw, L ⟨.IDENT, raw⟩ ∧ i.name = newObjectName .spanner raw) ∧
  (∃ raw, L ⟨.IDENT, raw⟩ ∧ i.tableName = newObjectName .spanner raw) ∧
  (i.using_ = [] ∨ ∃ t, L t ∧ i.using_ = [newIdent t.lit [] t.lit]) ∧ ∀ c ∈ i.columns, NameOk c.ident

theorem tableLoop_post {tbl : Ident} : ∀ (n : Nat) (cols : List Column) (cs : List Constraint) (ts : List Token), AllTok L ts →
    (∀ c ∈ cols, Valued c → ∃ us, ColOk c us) → ConsOk cs →
    Post (fun r => (∀ c ∈ r.1, Valued c → ∃ us, ColOk c us) ∧ ConsOk r.2.1 ∧ AllTok L r.2.2)
      (tableLoop tbl n cols cs ts) := by
  intro n
  induction n with
  | zero => intros; exact trivial
  | succ n ih =>
    intro cols cs ts hL hcols hcs
    unfold tableLoop
    split
    · refine (parseColumn_post hL).bind ?_
      rintro ⟨col, ccs, ts₁⟩ ⟨h1, h2, h3⟩
      refine (consOk_appendAll _ _ hcs h2).bind ?_
      intro cs' hcs'
      refine ih _ _ _ h3 ?_ hcs'
      intro c hc
      rcases List.mem_append.1 hc with hc | hc
      · exact hcols c hc
      · simp only [List.mem_singleton] at hc
        subst hc
        exact h1
    split
    · refine (parseTableConstraint_post hL).bind ?_
      rintro ⟨c, ts₁⟩ ⟨h1, h2⟩
      refine (consOk_append hcs h1).bind ?_
      intro cs' hcs'
      exact ih _ _ _ h2 hcols hcs'
    split
    · exact Post.next_bind (ih _ _ _ hL.tail hcols hcs)
    split
    · exact Post.next_bind (Post.ok ⟨hcols, hcs, hL.tail⟩)
    · exact trivial

theorem parseCreateTable_post {ts : List Token} (hL : AllTok L ts) :
    Post (fun r => TabOk r.1 ∧ AllTok L r.2) (parseCreateTable ts) := by
  unfold parseCreateTable
  refine (parseIfNotExists_post hL).bind ?_
  rintro ⟨ine, ts₁⟩ h1
  refine Post.next_bind (Post.checkCur_bind (fun hc => Post.next_bind (Post.checkCur_bind (fun _ => Post.next_bind ?_))))
  simp only [List.mem_singleton] at hc
  refine (tableLoop_post _ [] [] _ (AllTok.tail (AllTok.tail (AllTok.tail h1))) (by simp) consOk_nil).bind ?_
  rintro ⟨cols, cs, ts₂⟩ ⟨h2, h3, h4⟩
  refine (optionsLoop_post _ [] none _ h4 (by simp) (by simp)).bind ?_
  rintro ⟨opts, rdp, ts₃⟩ ⟨h5, h6, h7⟩
  exact Post.ok ⟨⟨rfl, ⟨_, (AllTok.tail h1).ident hc (by decide), rfl⟩, h2, h3, h5, h6⟩, h7⟩

theorem parseUsing_post {ts : List Token} (hL : AllTok L ts) :
    Post (fun r => (r.1 = [] ∨ (∃ t, L t ∧ r.1 = [newIdent t.lit [] t.lit]) ∨ r.2 = []) ∧ AllTok L r.2) (parseUsing ts) := by
  unfold parseUsing
  split
  · refine Post.next_bind (Post.next_bind (Post.ok ⟨?_, hL.tail.tail⟩))
    right
    cases e : ts.tail with
    | nil => exact Or.inr rfl
    | cons t r => exact Or.inl ⟨t, hL.tail t (by simp [e]), rfl⟩
  · exact Post.ok ⟨Or.inl rfl, hL⟩

theorem parseCreateIndex_post {ts : List Token} (hL : AllTok L ts) :
    Post (fun r => IdxOk r.1 ∧ AllTok L r.2) (parseCreateIndex ts) := by
  have huq : Post (fun r => AllTok L r.2) (parseUnique ts) := by
    unfold parseUnique
    split
    · exact Post.next_bind (Post.ok hL.tail)
    · exact Post.ok hL
  unfold parseCreateIndex
  refine huq.bind ?_
  rintro ⟨uq, ts₀⟩ h0
  refine (parseIfNotExists_post h0).bind ?_
  rintro ⟨ine, ts₁⟩ h1
  refine Post.next_bind (Post.checkCur_bind (fun hc => Post.next_bind (Post.checkCur_bind (fun _ => Post.next_bind
    (Post.checkCur_bind (fun hc2 => Post.next_bind ?_))))))
  simp only [List.mem_singleton] at hc hc2
  have h1' : AllTok L ts₁.tail := AllTok.tail h1
  have h4 : AllTok L ts₁.tail.tail.tail.tail := h1'.tail.tail.tail
  generalize ts₁.tail.tail.tail.tail = us at h4
  refine (parseUsing_post h4).bind ?_
  rintro ⟨u, ts₅⟩ ⟨hu, h5⟩
  refine Post.checkCur_bind (fun hc5 => ?_)
  refine (parseColumnIdents_post h5).bind ?_
  rintro ⟨ids, ts₆⟩ ⟨h6, h7⟩
  refine Post.ok ⟨⟨rfl, ⟨_, h1'.ident hc (by decide), rfl⟩, ⟨_, h1'.tail.tail.ident hc2 (by decide), rfl⟩, ?_, h6⟩, h7⟩
  rcases hu with hu | hu | hu
  · exact Or.inl hu
  · exact Or.inr hu
  · simp only at hu
    subst hu
    exact absurd hc5 (by decide)

/-- The statement, as it was read. -/
def StmtOk : SStmt → Prop
  | .createTable t => TabOk t
  | .createIndex i => IdxOk i
  | _ => False

theorem parseCreate_post {ts : List Token} (hL : AllTok L ts) : Post (fun r => StmtOk r.1 ∧ AllTok L r.2) (parseCreate ts) := by
  unfold parseCreate
  refine Post.next_bind ?_
  split
  · refine (parseCreateTable_post hL.tail).bind ?_
    rintro ⟨t, ts₁⟩ h
    exact Post.ok h
  split
  · refine (parseCreateIndex_post hL.tail).bind ?_
    rintro ⟨t, ts₁⟩ h
    exact Post.ok h
  · exact trivial

theorem parseLoop_post : ∀ (n : Nat) (ts : List Token), AllTok L ts →
    Post (fun l => ∀ s ∈ l, StmtOk s) (parseLoop parseCreate n ts) := by
  intro n
  induction n with
  | zero => intros; exact trivial
  | succ n ih =>
    intro ts hL
    unfold parseLoop
    split
    · refine (parseCreate_post hL).bind ?_
      rintro ⟨s, ts₁⟩ ⟨h1, h2⟩
      refine Post.next_bind ((ih _ (AllTok.tail h2)).bind ?_)
      intro l hl
      refine Post.ok ?_
      intro x hx
      rcases List.mem_cons.1 hx with rfl | hx
      · exact h1
      · exact hl x hx
    split
    · exact Post.next_bind (ih _ hL.tail)
    split
    · exact Post.ok (by simp)
    · exact trivial

theorem parse_post {s : Str} (hL : AllTok L (lex .spanner s)) {l : List SStmt} (h : parse s = .ok l) : ∀ x ∈ l, StmtOk x := by
  unfold parse parseTokens start at h
  split at h
  · cases h
  · exact (parseLoop_post _ _ hL).get h

/-! ## Reading the printed statements -/

def semiTok : Token := ⟨.SEMICOLON, s%";"⟩
def createTok : Token := ⟨.CREATE, s%"CREATE"⟩
def ineToks (b : Bool) : List Token := if b then [⟨.IF, s%"IF"⟩, notTok, ⟨.EXISTS, s%"EXISTS"⟩] else []

@[simp] theorem notTok_type : notTok.type = .NOT := rfl
@[simp] theorem semiTok_type : semiTok.type = .SEMICOLON := rfl
@[simp] theorem createTok_type : createTok.type = .CREATE := rfl

/-- The tokens of a table. -/
noncomputable def tabToks (t : CreateTable) : List Token :=
  createTok :: ⟨.TABLE, s%"TABLE"⟩ :: (ineToks t.ifNotExists ++ ⟨.IDENT, t.name.str⟩ :: openTok ::
    (sepToks (t.columns.map printToks ++ t.constraints.map conToks) ++ closeTok :: (sepToks (t.options.map topToks) ++ (rdpToks t.rowDeletionPolicy ++ [semiTok]))))

/-- The tokens of the method of an index. -/
def usingToks (u : List Ident) (t : Token) : List Token := if u = [] then [] else [⟨.USING, s%"USING"⟩, t]

/-- The tokens of an index, with the method `u`. -/
def idxToks (i : CreateIndex) (u : Token) : List Token :=
  createTok :: (uqToks i.isUnique ++ ⟨.INDEX, s%"INDEX"⟩ :: (ineToks i.ifNotExists ++
    ⟨.IDENT, i.name.str⟩ :: ⟨.ON, s%"ON"⟩ :: ⟨.IDENT, i.tableName.str⟩ :: (usingToks i.using_ u ++ openTok :: (colToks i.columns ++
      [closeTok, semiTok]))))

theorem Column.Rereadable.valued {c : Column} (h : c.Rereadable) : Valued c := fun e => (h _ e).1 rfl

theorem objName_ok {n : ObjectName} (h : ∃ raw, L ⟨.IDENT, raw⟩ ∧ n = newObjectName .spanner raw) :
    L ⟨.IDENT, n.str⟩ ∧ n = newObjectName .spanner n.str := by
  obtain ⟨raw, h, rfl⟩ := h
  rw [objectName_str h]
  exact ⟨h, rfl⟩

theorem ine_lex (b : Bool) (r : Str) :
    lex .spanner ((if b then s%"IF NOT EXISTS " else []) ++ r) = ineToks b ++ lex .spanner r := by
  cases b with
  | false => rfl
  | true =>
    simp only [if_true]
    rw [lex_lit (d := .spanner) (by decide) (by decide) (by decide)]
    rfl

theorem lex_tok {t : Token} (h : L t) {s : Str} (hs : Start s) : lex .spanner (t.lit ++ s) = t :: lex .spanner s :=
  lex_lx h hs.apart

theorem ineToks_read (b : Bool) {k t : Token} {rest : List Token} (ht : t.type ≠ .IF) (hp : NoPanic (k :: (ineToks b ++ t :: rest))) :
    ∃ k', parseIfNotExists (k :: (ineToks b ++ t :: rest)) = .ok (b, k' :: t :: rest) ∧ NoPanic (k' :: t :: rest) := by
  cases b with
  | false =>
    refine ⟨k, ?_, hp⟩
    simp [parseIfNotExists, ineToks, peekT_cons, ht]
  | true =>
    simp only [ineToks, if_true, List.cons_append, List.nil_append] at hp ⊢
    refine ⟨⟨.EXISTS, s%"EXISTS"⟩, ?_, hp.of_cons.of_cons.of_cons⟩
    simp [parseIfNotExists, peekT_cons, checkPeek, next_cons hp, next_cons hp.of_cons, next_cons hp.of_cons.of_cons]

theorem lex_createTable {t : CreateTable} (h : TabOk t) (hR : t.Rereadable) (s : Str) :
    lex .spanner (t.str ++ s) = tabToks t ++ lex .spanner s := by
  obtain ⟨hcom, hname, hcols, ⟨hcons, hch⟩, hopt, hrdp⟩ := h
  have hn := objName_ok hname
  have op : ∀ r, Start (s%" (\n" ++ r) := fun r => start_cons (by decide)
  have hitems := lex_itemLines (t.columns.map (fun c => (c.str, printToks c)) ++ t.constraints.map (fun c => (c.str, conToks c))) (by
    intro p hp s hs
    rcases List.mem_append.1 hp with hp | hp <;> obtain ⟨c, hc, rfl⟩ := List.mem_map.1 hp
    · exact lex_column (printToks_ok (hcols c hc (hR.1 c hc).valued)) hs
    · exact lex_constraint (hcons c hc) (hR.2 c hc) hs)
  simp only [List.map_append, List.map_map, Function.comp_def] at hitems
  have hr := lex_rdp t.rowDeletionPolicy (s := s%";\n" ++ s) (start_cons (by decide)) hrdp
  have hopts := lex_options hr.1 t.options hopt
  unfold tabToks
  rw [createTable_str, hcom]
  simp only [commentStr, if_true, List.nil_append, List.append_assoc]
  have hlast : (if t.constraints = [] then s%"\n" else s%",\n") = if t.constraints.map Constraint.str = [] then s%"\n" else s%",\n" := by
    simp
  rw [hlast, ← List.append_assoc (itemLines _ _), itemLines_append]
  rw [lex_lit (d := .spanner) (by decide) (by decide) (by decide), ine_lex, lex_tok hn.1 (op _),
    lex_lit (d := .spanner) (by decide) (by decide) (by decide), hitems,
    lex_lit_start (d := .spanner) (by decide) (by decide) (by decide) hopts.1, hopts.2, hr.2,
    lex_lit (d := .spanner) (by decide) (by decide) (by decide)]
  simp only [List.append_assoc, List.cons_append, List.nil_append]
  rfl

theorem ineToks_noPanic (b : Bool) : NoPanic (ineToks b) := by
  cases b
  · exact noPanic_nil
  · exact noPanic_cons (by decide) (noPanic_cons (by decide) (noPanic_cons (by decide) noPanic_nil))

theorem options_noPanic {l : List TableOption} (h : ∀ o ∈ l, TopOk o) : NoPanic (sepToks (l.map topToks)) := by
  refine sepToks_noPanic ?_
  intro y hy
  obtain ⟨o, ho, rfl⟩ := List.mem_map.1 hy
  exact topToks_noPanic (h o ho)

theorem tabToks_noPanic {t : CreateTable} (hcols : ∀ c ∈ t.columns, ∃ us, ColOk c us) (hcon : ∀ c ∈ t.constraints, ConOk c)
    (hopt : ∀ o ∈ t.options, TopOk o) (hrdp : ∀ o, t.rowDeletionPolicy = some o → RdpOk o) : NoPanic (tabToks t) := by
  refine noPanic_cons (by decide) (noPanic_cons (by decide) (noPanic_append (ineToks_noPanic _) (noPanic_cons (by simp)
    (noPanic_cons (by decide) (noPanic_append (sepToks_noPanic ?_) (noPanic_cons (by decide) (noPanic_append (options_noPanic hopt)
      (noPanic_append (rdpToks_noPanic hrdp) (noPanic_cons (by decide) noPanic_nil)))))))))
  intro y hy
  rcases List.mem_append.1 hy with hx | hx <;> obtain ⟨z, hz, rfl⟩ := List.mem_map.1 hx
  · exact (printToks_ok (hcols z hz)).noPanic
  · exact conToks_noPanic (hcon z hz)

theorem parseCreate_readsTable {t : CreateTable} (h : TabOk t) (hR : t.Rereadable) (hnd : NodupNames t.constraints)
    {rest : List Token} (hp : NoPanic rest) :
    parseCreate (tabToks t ++ rest) =
      .ok (.createTable t, semiTok :: rest) := by
  obtain ⟨hcom, hname, hcols, ⟨hcons, hch⟩, hopt, hrdp⟩ := h
  have hn := objName_ok hname
  have hcols' : ∀ c ∈ t.columns, ∃ us, ColOk c us := fun c hc => hcols c hc (hR.1 c hc).valued
  have hp0 := noPanic_append (tabToks_noPanic hcols' hcons hopt hrdp) hp
  unfold tabToks at hp0 ⊢
  simp only [List.cons_append, List.append_assoc, List.nil_append] at hp0 ⊢
  have hp1 := hp0.of_cons
  obtain ⟨k, e, hk⟩ := ineToks_read t.ifNotExists (by simp) hp1
  have hs : NoPanic (sepToks (t.options.map topToks) ++ (rdpToks t.rowDeletionPolicy ++ semiTok :: rest)) :=
    noPanic_append (options_noPanic hopt) (noPanic_append (rdpToks_noPanic hrdp) (noPanic_cons (by decide) hp))
  have hit := items_read (tbl := t.name.name) (fun c hc => ⟨hcols' c hc, hR.1 c hc⟩) hcons hnd hch hs
    (n := (sepToks (t.columns.map printToks ++ t.constraints.map conToks) ++ closeTok ::
      (sepToks (t.options.map topToks) ++ (rdpToks t.rowDeletionPolicy ++ semiTok :: rest))).length + 1)
    (by simp)
  have hopts := optionsLoop_reads hrdp (rest := semiTok :: rest) (by simp) t.options hopt
    (n := (sepToks (t.options.map topToks) ++ (rdpToks t.rowDeletionPolicy ++ semiTok :: rest)).length + 1) (by simp) hs
  unfold parseCreate
  simp only [next_cons hp0, bind_ok, curT_cons, if_true]
  unfold parseCreateTable
  simp only [e, bind_ok, next_cons hk, next_cons hk.of_cons, next_cons hk.of_cons.of_cons, checkCur, curT_cons, List.mem_singleton, if_true,
    openTok_type, curL_cons, ← hn.2, hit, hopts]
  obtain ⟨c, i, n, cols, cs, o, r⟩ := t
  simp only at hcom
  subst hcom
  rfl

/-! ## Indexes -/

theorem idxToks_noPanic {i : CreateIndex} {u : Token} (hu : i.using_ = [] ∨ L u) : NoPanic (idxToks i u) := by
  refine noPanic_cons (by decide) (noPanic_append (uqToks_noPanic _) (noPanic_cons (by decide) (noPanic_append (ineToks_noPanic _)
    (noPanic_cons (by simp) (noPanic_cons (by decide) (noPanic_cons (by simp) (noPanic_append ?_ (noPanic_cons (by decide)
      (noPanic_append (colToks_noPanic _) (noPanic_cons (by decide) (noPanic_cons (by decide) noPanic_nil)))))))))))
  unfold usingToks
  split
  · exact noPanic_nil
  · rename_i hne
    exact noPanic_cons (by decide) (noPanic_cons (hu.resolve_left hne).noPanic noPanic_nil)

theorem parseCreate_readsIndex {i : CreateIndex} (h : IdxOk i) {u : Token}
    (hu : i.using_ = [] ∨ (L u ∧ i.using_ = [newIdent u.lit [] u.lit])) {rest : List Token} (hp : NoPanic rest) :
    parseCreate (idxToks i u ++ rest) = .ok (.createIndex i, semiTok :: rest) := by
  obtain ⟨hcom, hname, htbl, _, hcols⟩ := h
  have hn := objName_ok htbl
  have hnm := objName_ok hname
  have hp0 := noPanic_append (idxToks_noPanic (i := i) (u := u) (hu.imp_right (·.1))) hp
  unfold idxToks at hp0 ⊢
  simp only [List.cons_append, List.append_assoc, List.nil_append] at hp0 ⊢
  have hp1 := hp0.of_cons
  have huq : ∀ r, NoPanic (uqToks i.isUnique ++ ⟨.INDEX, s%"INDEX"⟩ :: r) →
      parseUnique (uqToks i.isUnique ++ ⟨.INDEX, s%"INDEX"⟩ :: r) = .ok (i.isUnique, ⟨.INDEX, s%"INDEX"⟩ :: r) ∧
      curT (uqToks i.isUnique ++ (⟨.INDEX, s%"INDEX"⟩ : Token) :: r) ∈ [.INDEX, .UNIQUE] := by
    intro r hr
    revert hr
    cases i.isUnique with
    | false => simp [parseUnique, uqToks]
    | true =>
      simp only [uqToks, if_true, List.cons_append, List.nil_append]
      intro hr
      simp [parseUnique, next_cons hr]
  obtain ⟨k, e, hk⟩ := ineToks_read i.ifNotExists (by simp) hp1.of_append
  have husing : ∀ r, NoPanic (⟨.IDENT, i.tableName.str⟩ :: (usingToks i.using_ u ++ openTok :: r)) →
      parseUsing (usingToks i.using_ u ++ openTok :: r) = .ok (i.using_, openTok :: r) := by
    intro r hr
    rcases hu with hu | ⟨_, hu⟩
    · simp [hu, usingToks, parseUsing]
    · simp only [hu, usingToks, List.cons_ne_nil, if_false, List.cons_append, List.nil_append] at hr ⊢
      simp [parseUsing, next_cons hr.of_cons, next_cons hr.of_cons.of_cons]
  obtain ⟨hu1, hu2⟩ := huq _ hp1
  unfold parseCreate
  simp only [next_cons hp0, bind_ok]
  rw [if_neg, if_pos]
  rotate_left
  · simpa using hu2
  · intro e
    rw [e] at hu2
    simp at hu2
  unfold parseCreateIndex
  simp only [hu1, e, bind_ok, next_cons hk, next_cons hk.of_cons, next_cons hk.of_cons.of_cons, next_cons hk.of_cons.of_cons.of_cons,
    checkCur, curT_cons, List.mem_singleton, if_true,
    openTok_type, curL_cons, ← hn.2, ← hnm.2, husing _ hk.of_cons.of_cons.of_cons]
  rw [parseColumnIdents_reads hcols hk.of_cons.of_cons.of_cons.of_cons.of_append]
  obtain ⟨c, q, ine, n, tn, us, cols⟩ := i
  simp only at hcom
  subst hcom
  rfl

theorem lex_createIndex {i : CreateIndex} (h : IdxOk i) {u : Token}
    (hu : i.using_ = [] ∨ (L u ∧ i.using_ = [newIdent u.lit [] u.lit])) (s : Str) :
    lex .spanner (i.str ++ s) = idxToks i u ++ lex .spanner s := by
  obtain ⟨hcom, hname, htbl, _, hcols⟩ := h
  have hn := objName_ok htbl
  have hnm := objName_ok hname
  have on : ∀ r, Start (s%" ON " ++ r) := fun r => start_cons (by decide)
  have op : ∀ r, Start (s%" (" ++ r) := fun r => start_cons (by decide)
  have cl : ∀ r, Start (s%");\n" ++ r) := fun r => start_cons (by decide)
  have huq : ∀ r, lex .spanner ((if i.isUnique then s%"UNIQUE " else []) ++ r) =
      uqToks i.isUnique ++ lex .spanner r := by
    intro r
    cases i.isUnique with
    | false => rfl
    | true =>
      simp only [if_true]
      rw [lex_lit (d := .spanner) (by decide) (by decide) (by decide)]
      rfl
  have husing : ∀ r, Start r → Start ((if i.using_ = [] then [] else s%" USING " ++ join s%" " (i.using_.map Ident.str)) ++ r) ∧
      lex .spanner ((if i.using_ = [] then [] else s%" USING " ++ join s%" " (i.using_.map Ident.str)) ++ r) =
      usingToks i.using_ u ++ lex .spanner r := by
    intro r hr
    rcases hu with hu | ⟨hL, hu⟩
    · simp [hu, usingToks, hr]
    · simp only [hu, usingToks, List.cons_ne_nil, if_false, List.map_cons, List.map_nil, join, Ident.str, List.append_assoc]
      refine ⟨start_cons (by decide), ?_⟩
      rw [lex_lit (d := .spanner) (by decide) (by decide) (by decide)]
      have : (newIdent u.lit [] u.lit).raw = u.lit := rfl
      rw [this, lex_tok hL hr]
      rfl
  unfold CreateIndex.str idxToks
  rw [hcom]
  simp only [commentStr, if_true, List.nil_append, List.append_assoc, Ident.str]
  rw [lex_lit (d := .spanner) (by decide) (by decide) (by decide), huq,
    lex_lit (d := .spanner) (by decide) (by decide) (by decide), ine_lex, lex_tok hnm.1 (on _),
    lex_lit (d := .spanner) (by decide) (by decide) (by decide), lex_tok hn.1 (husing _ (op _)).1, (husing _ (op _)).2,
    lex_lit (d := .spanner) (by decide) (by decide) (by decide), lex_columnsStr (cl _) _ hcols,
    lex_lit (d := .spanner) (by decide) (by decide) (by decide)]
  simp only [List.append_assoc, List.cons_append, List.nil_append]
  rfl

/-! ## Statement lists -/

/-- What is needed of a statement so that it is read again. -/
def Again : SStmt → Prop
  | .createTable t => TabOk t ∧ t.Rereadable ∧ NodupNames t.constraints
  | .createIndex i => IdxOk i
  | _ => False

/-- The printed statement has tokens, which are read as the statement. -/
theorem stmt_again {sd : Str → Str → Str} {x : SStmt} (h : Again x) :
    ∃ us, (∀ s, lex .spanner (stmtStr (ops sd) x ++ s) = us ++ lex .spanner s) ∧ NoPanic us ∧ (∀ r, curT (us ++ r) = .CREATE) ∧
      2 ≤ us.length ∧ ∀ rest, NoPanic rest → parseCreate (us ++ rest) = .ok (x, semiTok :: rest) := by
  cases x with
  | createTable t =>
    obtain ⟨h1, h2, h3⟩ := h
    refine ⟨tabToks t, lex_createTable h1 h2, tabToks_noPanic (fun c hc => h1.2.2.1 c hc (h2.1 c hc).valued) h1.2.2.2.1.1 h1.2.2.2.2.1 h1.2.2.2.2.2,
      fun r => rfl, by simp [tabToks], ?_⟩
    intro rest hp
    exact parseCreate_readsTable h1 h2 h3 hp
  | createIndex i =>
    obtain ⟨u, hu⟩ : ∃ u, i.using_ = [] ∨ (L u ∧ i.using_ = [newIdent u.lit [] u.lit]) := by
      rcases h.2.2.2.1 with h | ⟨t, ht⟩
      · exact ⟨semiTok, Or.inl h⟩
      · exact ⟨t, Or.inr ht⟩
    exact ⟨idxToks i u, lex_createIndex h hu, idxToks_noPanic (hu.imp_right (·.1)), fun r => rfl, by simp [idxToks]; omega,
      fun rest hp => parseCreate_readsIndex h hu hp⟩
  | alterTable a => exact h.elim
  | dropTable => exact h.elim
  | dropIndex => exact h.elim

theorem stmts_again {sd : Str → Str → Str} : ∀ l : List SStmt, (∀ x ∈ l, Again x) →
    NoPanic (lex .spanner (ddlStr (ops sd) l)) ∧
      ∀ n, (lex .spanner (ddlStr (ops sd) l)).length + 1 ≤ n → parseLoop parseCreate n (lex .spanner (ddlStr (ops sd) l)) = .ok l := by
  intro l
  induction l with
  | nil =>
    intro _
    refine ⟨noPanic_nil, ?_⟩
    intro n hn
    obtain ⟨n, rfl⟩ : ∃ k, n = k + 1 := ⟨n - 1, by omega⟩
    rfl
  | cons x l ih =>
    intro h
    obtain ⟨hp, ih⟩ := ih fun y hy => h y (by simp [hy])
    obtain ⟨us, h1, h2, h3, h4, h5⟩ := stmt_again (sd := sd) (h x (by simp))
    have e : lex .spanner (ddlStr (ops sd) (x :: l)) = us ++ lex .spanner (ddlStr (ops sd) l) := by
      rw [← h1]
      rfl
    rw [e]
    refine ⟨noPanic_append h2 hp, ?_⟩
    intro n hn
    rw [List.length_append] at hn
    obtain ⟨n, rfl⟩ : ∃ k, n = k + 1 := ⟨n - 1, by omega⟩
    rw [parseLoop, if_pos (h3 _), h5 _ hp]
    simp only [bind_ok, next_cons (noPanic_cons (t := semiTok) (by decide) hp)]
    rw [ih _ (by omega)]
    rfl

theorem parse_again {sd : Str → Str → Str} {l : List SStmt} (h : ∀ x ∈ l, Again x) :
    parse (ddlStr (ops sd) l) = .ok l := by
  obtain ⟨h1, h2⟩ := stmts_again (sd := sd) l h
  unfold parse parseTokens
  rw [h1.start]
  exact h2 _ (by omega)

end Ddl.Sp
