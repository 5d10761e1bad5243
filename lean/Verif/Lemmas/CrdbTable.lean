import Verif.Lemmas.CrdbCon

/-! # CockroachDB: tables and indexes, printed and read again -/

namespace Ddl.Crdb
open Spec
set_option autoImplicit false

/-! ## No panics -/

theorem L.noPanic {t : Token} (h : L t) : t.type ≠ .PANIC := by
  rcases h with ⟨_, _, h⟩ | ⟨h, _⟩ | ⟨h, _⟩ | ⟨h, _⟩ | ⟨h, _⟩ | ⟨c, h, _⟩
  · intro e
    rw [e] at h
    rcases h with h | ⟨h, _⟩
    · have : ∀ p ∈ keywords .cockroachdb, p.2 ≠ .PANIC := by decide
      exact this _ h rfl
    · cases h
  all_goals first | (rw [h]; decide) | skip
  have : ∀ p ∈ symbols, p.2 ≠ .PANIC := by decide
  exact this _ h

theorem AllTok.noPanic {ts : List Token} (h : AllTok L ts) : NoPanic ts := fun t ht => L.noPanic (h t ht)

theorem noPanic_append {a b : List Token} (ha : NoPanic a) (hb : NoPanic b) : NoPanic (a ++ b) := by
  intro t ht
  rcases List.mem_append.1 ht with h | h
  · exact ha t h
  · exact hb t h

theorem noPanic_cons {t : Token} {b : List Token} (ha : t.type ≠ .PANIC) (hb : NoPanic b) : NoPanic (t :: b) := by
  intro x hx
  rcases List.mem_cons.1 hx with rfl | h
  · exact ha
  · exact hb x h

theorem noPanic_nil : NoPanic [] := by simp [NoPanic]

theorem isCmp.noPanic {t : TokType} (h : isCmp t) : t ≠ .PANIC := by
  intro e; subst e; simp [isCmp] at h

theorem Grp.noPanic {g : List Word} (h : Grp g) : NoPanic (toks g) := by
  induction h with
  | close => exact noPanic_cons (by decide) noPanic_nil
  | opened a b _ _ iha ihb =>
    have := noPanic_append iha ihb
    rw [← toks_append] at this
    exact noPanic_cons (by decide) this
  | cmp x r hx _ _ _ ih => exact noPanic_cons hx.noPanic ih
  | cmp2 x y r _ _ _ _ hx hy _ ih => exact noPanic_cons hx.noPanic (noPanic_cons hy.noPanic ih)
  | other t r ht _ _ _ ih => exact noPanic_cons ht.noPanic ih

theorem Dft.noPanic {f : Bool} {g : List Word} (h : Dft f g) : NoPanic (toks g) := by
  induction h with
  | nil => exact noPanic_nil
  | group f g r hg _ ih =>
    have := noPanic_append hg.noPanic ih
    rw [← toks_append] at this
    exact noPanic_cons (by decide) this
  | ident f t r ht _ _ ih => exact noPanic_cons ht.noPanic ih
  | reserved f t r ht _ _ ih => exact noPanic_cons ht.noPanic ih
  | operator f t r ht _ _ ih => exact noPanic_cons ht.noPanic ih
  | dataType t r ht _ _ ih => exact noPanic_cons ht.noPanic ih

theorem ordToks_noPanic : ∀ o : Option Bool, NoPanic (ordToks o)
  | none => noPanic_nil
  | some true => noPanic_cons (by decide) noPanic_nil
  | some false => noPanic_cons (by decide) noPanic_nil

theorem ColOk.noPanic {c : Column} {ts : List Token} (h : ColOk c ts) : NoPanic ts := by
  obtain ⟨_, us, g, ga, ty, ⟨ws, as, _, h1, _, _, h2, _, rfl⟩, h3, h4, rfl⟩ := h
  refine noPanic_cons (by simp) (noPanic_append (noPanic_append (AllTok.noPanic h1) ?_) (noPanic_append ?_ (noPanic_append ?_ (noPanic_append ?_ ?_))))
  · unfold argToks
    split
    · exact noPanic_nil
    · exact noPanic_cons (by decide) (noPanic_append (AllTok.noPanic h2) (noPanic_cons (by decide) noPanic_nil))
  · unfold nvToks
    split
    · exact noPanic_cons (by decide) (noPanic_cons (by decide) noPanic_nil)
    · exact noPanic_nil
  · unfold nnToks
    split
    · exact noPanic_cons (by decide) (noPanic_cons (by decide) noPanic_nil)
    · exact noPanic_nil
  · unfold dftToks
    split
    · exact noPanic_nil
    · rcases h3 with ⟨_, rfl⟩ | ⟨_, h3⟩
      · contradiction
      · exact noPanic_cons (by decide) h3.noPanic
  · unfold asToks
    split
    · exact noPanic_nil
    · rcases h4 with ⟨_, rfl⟩ | ⟨_, h3, ht⟩
      · contradiction
      · refine noPanic_cons (by decide) (noPanic_append h3.noPanic ?_)
        rcases ht with rfl | rfl | rfl
        · exact noPanic_nil
        · exact noPanic_cons (by decide) noPanic_nil
        · exact noPanic_cons (by decide) noPanic_nil

theorem colToks_noPanic : ∀ l : List ColumnIdent, NoPanic (colToks l)
  | [] => noPanic_nil
  | [i] => noPanic_cons (by simp) (ordToks_noPanic i.order)
  | i :: j :: r => noPanic_cons (by simp) (noPanic_append (ordToks_noPanic i.order) (noPanic_cons (by decide) (colToks_noPanic (j :: r))))

theorem UsOk.noPanic {u : Using} {us : List Token} (h : UsOk u us) : NoPanic us := by
  obtain ⟨vs, ws, _, hw, rfl⟩ := h
  refine noPanic_cons (by decide) (noPanic_append ?_ ?_)
  · intro t ht
    obtain ⟨i, _, rfl⟩ := List.mem_map.1 ht
    simp
  · rcases hw with ⟨_, rfl⟩ | ⟨g, hg, _, rfl⟩
    · exact noPanic_nil
    · exact noPanic_cons (by decide) (noPanic_cons (by decide) hg.noPanic)

theorem conToks_noPanic {c : Constraint} (h : ConOk c) : NoPanic (conToks c) := by
  have hc : NoPanic [closeTok] := noPanic_cons (by decide) noPanic_nil
  cases c with
  | primaryKey n cs =>
    exact noPanic_cons (by decide) (noPanic_cons (by simp) (noPanic_cons (by simp) (noPanic_cons (by simp) (noPanic_cons (by simp)
      (noPanic_append (colToks_noPanic cs) hc)))))
  | index n uq pre cs post =>
    refine noPanic_append ?_ (noPanic_cons (by simp) (noPanic_cons (by simp) (noPanic_cons (by simp) (noPanic_append (colToks_noPanic cs)
      (noPanic_cons (by decide) ?_)))))
    · cases uq
      · exact noPanic_nil
      · exact noPanic_cons (by decide) noPanic_nil
    · cases post with
      | none => exact noPanic_nil
      | some u =>
        have h' : ∀ u', some u = some u' → ∃ us, UsOk u' us := h.2.2.2
        exact (usToks_ok (h' u rfl)).noPanic
  | foreignKey n cs r rcs act =>
    exact noPanic_cons (by decide) (noPanic_cons (by simp) (noPanic_cons (by simp) (noPanic_cons (by simp) (noPanic_cons (by simp)
      (noPanic_append (colToks_noPanic cs) (noPanic_cons (by simp) (noPanic_cons (by simp) (noPanic_cons (by simp) (noPanic_cons (by simp)
        (noPanic_append (colToks_noPanic rcs) hc))))))))))
  | check n e => exact noPanic_cons (by decide) (noPanic_cons (by simp) noPanic_nil)

/-! ## The list of columns and constraints -/

/-- The items, each behind a comma. -/
def tailToks : List (List Token) → List Token
  | [] => []
  | x :: l => commaTok :: (x ++ tailToks l)

/-- The items, separated by commas. -/
def sepToks : List (List Token) → List Token
  | [] => []
  | x :: l => x ++ tailToks l

theorem tailToks_noPanic {l : List (List Token)} (h : ∀ x ∈ l, NoPanic x) : NoPanic (tailToks l) := by
  induction l with
  | nil => exact noPanic_nil
  | cons x l ih =>
    exact noPanic_cons (by decide) (noPanic_append (h x (by simp)) (ih fun y hy => h y (by simp [hy])))

theorem sepToks_noPanic {l : List (List Token)} (h : ∀ x ∈ l, NoPanic x) : NoPanic (sepToks l) := by
  cases l with
  | nil => exact noPanic_nil
  | cons x l => exact noPanic_append (h x (by simp)) (tailToks_noPanic fun y hy => h y (by simp [hy]))

theorem tailToks_append (a b : List (List Token)) : tailToks (a ++ b) = tailToks a ++ tailToks b := by
  induction a with
  | nil => rfl
  | cons x a ih => simp [tailToks, ih]

theorem tailToks_curT (l : List (List Token)) (rest : List Token) :
    curT (tailToks l ++ closeTok :: rest) ∈ [.COMMA, .CLOSE_PAREN] := by
  cases l <;> simp [tailToks]

theorem itemLines_append (a b : List Str) :
    itemLines (if b = [] then s%"\n" else s%",\n") a ++ itemLines s%"\n" b = itemLines s%"\n" (a ++ b) := by
  cases b with
  | nil => simp [itemLines]
  | cons y b =>
    simp only [List.cons_ne_nil, if_false]
    induction a with
    | nil => simp [itemLines]
    | cons x a ih =>
      cases a with
      | nil => simp [itemLines]
      | cons z a =>
        simp only [itemLines, List.cons_append, List.append_assoc] at ih ⊢
        rw [ih]

theorem lex_itemLines (l : List (Str × List Token))
    (h : ∀ p ∈ l, ∀ s, Start s → lex .cockroachdb (p.1 ++ s) = p.2 ++ lex .cockroachdb s) (s : Str) :
    lex .cockroachdb (itemLines s%"\n" (l.map (·.1)) ++ s) = sepToks (l.map (·.2)) ++ lex .cockroachdb s := by
  have hind : ∀ r, lex .cockroachdb (indent ++ r) = lex .cockroachdb r := by
    intro r
    rw [lex_lit (d := .cockroachdb) (by decide) (by decide) (by decide)]
    rfl
  have hcomma : ∀ r, lex .cockroachdb (s%",\n" ++ r) = commaTok :: lex .cockroachdb r := by
    intro r
    rw [lex_lit (d := .cockroachdb) (by decide) (by decide) (by decide)]
    rfl
  have hnl : ∀ r, lex .cockroachdb (s%"\n" ++ r) = lex .cockroachdb r := fun r => lex_ws .cockroachdb '\n' r rfl
  induction l with
  | nil => rfl
  | cons p l ih =>
    cases l with
    | nil =>
      simp only [List.map_cons, List.map_nil, itemLines, sepToks, tailToks, List.append_nil, List.append_assoc]
      have hs : Start (s%"\n" ++ s) := start_cons (by decide)
      rw [hind, h p (by simp) _ hs, hnl]
    | cons q l =>
      simp only [List.map_cons, itemLines, sepToks, tailToks, List.append_assoc] at ih ⊢
      have hs : ∀ r, Start (s%",\n" ++ r) := fun r => start_cons (by decide)
      rw [hind, h p (by simp) _ (hs _), hcomma, ih fun x hx => h x (by simp [hx])]
      simp

theorem sortPrimaryKey_id {l : List Constraint} (h : ∀ c ∈ l.tail, c.isPrimaryKey = false) : sortPrimaryKey l = l := by
  have key : ∀ (l acc : List Constraint), (∀ c ∈ l, c.isPrimaryKey = false) →
      l.foldl (fun acc c => if c.isPrimaryKey then c :: acc else acc ++ [c]) acc = acc ++ l := by
    intro l
    induction l with
    | nil => simp
    | cons c l ih =>
      intro acc h
      rw [List.foldl_cons, if_neg (by simp [h c (by simp)]), ih _ fun x hx => h x (by simp [hx])]
      simp
  cases l with
  | nil => rfl
  | cons c l =>
    unfold sortPrimaryKey
    rw [List.foldl_cons]
    have : (if c.isPrimaryKey = true then [c] else [] ++ [c]) = [c] := by split <;> rfl
    rw [this, key l _ h]
    rfl

theorem replaceConstraint_new {cs : List Constraint} {c : Constraint} (h : ∀ x ∈ cs, x.name.name ≠ c.name.name) :
    replaceConstraint cs c = none := by
  induction cs with
  | nil => rfl
  | cons x cs ih =>
    rw [replaceConstraint, if_neg (h x (by simp)), ih fun y hy => h y (by simp [hy])]
    rfl

theorem foldl_append_new : ∀ (l cs : List Constraint), NodupNames (cs ++ l) → (∀ c ∈ (cs ++ l).tail, c.isPrimaryKey = false) →
    l.foldl appendConstraint cs = cs ++ l := by
  intro l
  induction l with
  | nil => intro cs _ _; simp
  | cons c l ih =>
    intro cs h hpk
    have happ : appendConstraint cs c = cs ++ [c] := by
      unfold appendConstraint
      rw [replaceConstraint_new]
      · refine sortPrimaryKey_id ?_
        intro x hx
        refine hpk x ?_
        cases cs with
        | nil => simp at hx
        | cons y cs =>
          simp only [List.cons_append, List.tail_cons, List.mem_append, List.mem_cons, List.not_mem_nil, or_false] at hx ⊢
          tauto
      unfold NodupNames at h
      rw [List.map_append, List.nodup_append] at h
      intro x hx e
      exact h.2.2 _ (List.mem_map_of_mem hx) _ (List.mem_map_of_mem (List.mem_cons_self ..)) e
    rw [List.foldl_cons, happ, ih _ (by simpa using h) (by simpa using hpk)]
    simp

/-- The rest of the list is read up to its end, whether or not the token before it was already skipped. -/
theorem conItems_reads {tbl : Ident} : ∀ (l : List Constraint) (cols : List Column) (cs : List Constraint) (n : Nat) (rest : List Token),
    (∀ c ∈ l, ConOk c ∧ c.Rereadable) → curT rest = .SEMICOLON → NoPanic rest →
    (tailToks (l.map conToks)).length + 2 ≤ n → ∀ r, (r = tailToks (l.map conToks) ++ closeTok :: rest ∨
      r = (tailToks (l.map conToks) ++ closeTok :: rest).tail) →
    ∃ k, tableLoop tbl n cols cs r = .ok (cols, l.foldl appendConstraint cs, k) ∧ (k = closeTok :: rest ∨ k = rest) := by
  intro l
  induction l with
  | nil =>
    intro cols cs n rest _ hr _ hn r hk
    obtain ⟨n, rfl⟩ : ∃ k, n = k + 1 := ⟨n - 1, by omega⟩
    rcases hk with rfl | rfl
    · exact ⟨_, by simp [tailToks, tableLoop, isConstraint, peekT_cons, hr], Or.inl rfl⟩
    · exact ⟨_, by simp [tailToks, tableLoop, isConstraint, hr], Or.inr rfl⟩
  | cons c l ih =>
    intro cols cs n rest h hr hp hn r hk
    obtain ⟨n, rfl⟩ : ∃ k, n = k + 2 := ⟨n - 2, by omega⟩
    obtain ⟨h1, h2⟩ := h c (by simp)
    have hnp : NoPanic (conToks c ++ (tailToks (l.map conToks) ++ closeTok :: rest)) :=
      noPanic_append (conToks_noPanic h1) (noPanic_append (tailToks_noPanic (by
        intro x hx
        obtain ⟨y, hy, rfl⟩ := List.mem_map.1 hx
        exact conToks_noPanic (h y (by simp [hy])).1)) (noPanic_cons (by decide) hp))
    have hnp' : NoPanic (commaTok :: (conToks c ++ (tailToks (l.map conToks) ++ closeTok :: rest))) :=
      noPanic_cons (by decide) hnp
    have hcur : curT (conToks c ++ (tailToks (l.map conToks) ++ closeTok :: rest)) ≠ .IDENT ∧
        isConstraint (curT (conToks c ++ (tailToks (l.map conToks) ++ closeTok :: rest))) = true ∧ 2 ≤ (conToks c).length := by
      cases c with
      | index n uq pre cs post => cases uq <;> simp [conToks, uqToks, isConstraint]
      | _ => simp [conToks, constraintTok, isConstraint]
    have step : ∀ m, (tailToks (l.map conToks)).length + 2 ≤ m →
        ∃ k, tableLoop tbl (m + 1) cols cs (conToks c ++ (tailToks (l.map conToks) ++ closeTok :: rest)) =
          .ok (cols, (c :: l).foldl appendConstraint cs, k) ∧ (k = closeTok :: rest ∨ k = rest) := by
      intro m hm
      obtain ⟨r', e, hr'⟩ := parseTableConstraint_reads (tbl := tbl) h1 h2 (tailToks_curT (l.map conToks) rest) hnp
      rw [tableLoop, if_neg hcur.1, if_pos hcur.2.1, e]
      simp only [bind_ok]
      exact ih cols _ m rest (fun x hx => h x (by simp [hx])) hr hp hm r' hr'
    have hlen := hcur.2.2
    simp only [List.map_cons, tailToks, List.cons_append, List.append_assoc, List.length_cons, List.length_append, List.tail_cons] at hn hk
    rcases hk with rfl | rfl
    · obtain ⟨k, hk⟩ := step n (by omega)
      refine ⟨k, ?_, hk.2⟩
      rw [tableLoop]
      simp only [curT_cons, commaTok_type, next_cons hnp', bind_ok]
      rw [if_neg (by decide), if_neg (by decide), if_pos trivial]
      exact hk.1
    · exact step (n + 1) (by omega)

/-- The tokens with which the column is printed. -/
noncomputable def printToks (c : Column) : List Token := by
  classical exact if h : ∃ us, ColOk c us then h.choose else []

theorem printToks_ok {c : Column} (h : ∃ us, ColOk c us) : ColOk c (printToks c) := by
  unfold printToks
  rw [dif_pos h]
  exact h.choose_spec

theorem colItems_reads {tbl : Ident} (con : List Constraint) (hcon : ∀ c ∈ con, ConOk c ∧ c.Rereadable)
    {rest : List Token} (hr : curT rest = .SEMICOLON) (hp : NoPanic rest) :
    ∀ (l cols : List Column) (n : Nat), (∀ c ∈ l, (∃ us, ColOk c us) ∧ c.Rereadable) →
    (tailToks (l.map printToks ++ con.map conToks)).length + 2 ≤ n →
    ∀ r, (r = tailToks (l.map printToks ++ con.map conToks) ++ closeTok :: rest ∨
      r = (tailToks (l.map printToks ++ con.map conToks) ++ closeTok :: rest).tail) →
    ∃ k, tableLoop tbl n cols [] r = .ok (cols ++ l, con.foldl appendConstraint [], k) ∧ (k = closeTok :: rest ∨ k = rest) := by
  intro l
  induction l with
  | nil =>
    intro cols n _ hn r hk
    simp only [List.map_nil, List.nil_append, List.append_nil] at hn hk ⊢
    simpa using conItems_reads con cols [] n rest hcon hr hp hn r hk
  | cons c l ih =>
    intro cols n h hn r hk
    obtain ⟨n, rfl⟩ : ∃ k, n = k + 2 := ⟨n - 2, by omega⟩
    have hc := printToks_ok (h c (by simp)).1
    have hone : c.default = none ∨ c.as_ = none := by
      have := (h c (by simp)).2.2.1
      cases e : c.default with
      | none => exact Or.inl rfl
      | some d => exact Or.inr (this d e).1
    have hall : ∀ x ∈ l.map printToks ++ con.map conToks, NoPanic x := by
      intro x hx
      rcases List.mem_append.1 hx with hx | hx <;> obtain ⟨y, hy, rfl⟩ := List.mem_map.1 hx
      · exact (printToks_ok (h y (by simp [hy])).1).noPanic
      · exact conToks_noPanic (hcon y hy).1
    have hnp : NoPanic (printToks c ++ (tailToks (l.map printToks ++ con.map conToks) ++ closeTok :: rest)) :=
      noPanic_append hc.noPanic (noPanic_append (tailToks_noPanic hall) (noPanic_cons (by decide) hp))
    have hnp' := noPanic_cons (t := commaTok) (by decide) hnp
    have hlen : 1 ≤ (printToks c).length ∧ ∀ r, curT (printToks c ++ r) = .IDENT := by
      obtain ⟨_, us, g, ga, ty, _, _, _, e⟩ := hc
      rw [e]
      simp
    have step : ∀ m, (tailToks (l.map printToks ++ con.map conToks)).length + 2 ≤ m →
        ∃ k, tableLoop tbl (m + 1) cols [] (printToks c ++ (tailToks (l.map printToks ++ con.map conToks) ++ closeTok :: rest)) =
          .ok (cols ++ c :: l, con.foldl appendConstraint [], k) ∧ (k = closeTok :: rest ∨ k = rest) := by
      intro m hm
      rw [tableLoop, if_pos (hlen.2 _), parseColumn_reads hc hone (tailToks_curT _ _) hnp]
      simp only [bind_ok, List.foldl_nil]
      obtain ⟨k, hk⟩ := ih (cols ++ [c]) m (fun x hx => h x (by simp [hx])) hm _ (Or.inl rfl)
      exact ⟨k, by rw [hk.1]; simp, hk.2⟩
    have hl := hlen.1
    simp only [List.map_cons, tailToks, List.cons_append, List.append_assoc, List.length_cons, List.length_append, List.tail_cons] at hn hk
    rcases hk with rfl | rfl
    · obtain ⟨k, hk⟩ := step n (by omega)
      refine ⟨k, ?_, hk.2⟩
      rw [tableLoop]
      simp only [curT_cons, commaTok_type, next_cons hnp', bind_ok]
      rw [if_neg (by decide), if_neg (by decide), if_pos trivial]
      exact hk.1
    · exact step (n + 1) (by omega)

theorem items_read {tbl : Ident} {cols : List Column} {con : List Constraint} (hcols : ∀ c ∈ cols, (∃ us, ColOk c us) ∧ c.Rereadable)
    (hcon : ∀ c ∈ con, ConOk c ∧ c.Rereadable)
    {rest : List Token} (hr : curT rest = .SEMICOLON) (hp : NoPanic rest) {n : Nat}
    (hn : (sepToks (cols.map printToks ++ con.map conToks)).length + 3 ≤ n) :
    ∃ k, tableLoop tbl n [] [] (sepToks (cols.map printToks ++ con.map conToks) ++ closeTok :: rest) =
      .ok (cols, con.foldl appendConstraint [], k) ∧ (k = closeTok :: rest ∨ k = rest) := by
  refine colItems_reads (tbl := tbl) con hcon hr hp cols [] n hcols ?_ _ ?_
  · cases e : cols.map printToks ++ con.map conToks with
    | nil => rw [e] at hn; simp [tailToks, sepToks] at hn ⊢; omega
    | cons x l => rw [e] at hn; simp [tailToks, sepToks] at hn ⊢; omega
  · cases e : cols.map printToks ++ con.map conToks with
    | nil => exact Or.inl rfl
    | cons x l => exact Or.inr rfl

/-! ## Tables -/

/-- The table, as it was read. -/
def TabOk (t : CreateTable) : Prop :=
  t.comment = [] ∧ t.options = [] ∧ (∃ raw, L ⟨.IDENT, raw⟩ ∧ t.name = newObjectName .cockroachdb raw) ∧
  (∀ c ∈ t.columns, Valued c → ∃ us, ColOk c us) ∧ ∀ c ∈ t.constraints, ConOk c

/-- The index, as it was read. -/
def IdxOk (i : CreateIndex) : Prop :=
  i.comment = [] ∧ NameOk i.name ∧ (∃ raw, L ⟨.IDENT, raw⟩ ∧ i.tableName = newObjectName .cockroachdb raw) ∧
  ∀ c ∈ i.columns, NameOk c.ident

theorem tableLoop_post {tbl : Ident} : ∀ (n : Nat) (cols : List Column) (cs : List Constraint) (ts : List Token), AllTok L ts →
    (∀ c ∈ cols, Valued c → ∃ us, ColOk c us) → (∀ c ∈ cs, ConOk c) →
    Post (fun r => (∀ c ∈ r.1, Valued c → ∃ us, ColOk c us) ∧ (∀ c ∈ r.2.1, ConOk c) ∧ AllTok L r.2.2)
      (tableLoop tbl n cols cs ts) := by
  intro n
  induction n with
  | zero => intros; exact trivial
  | succ n ih =>
    intro cols cs ts hL hcols hcs
    unfold tableLoop
    split
    · refine (parseColumn_post hL).bind ?_
      rintro ⟨col, ccs, ts₁⟩ ⟨h1, h2, h3⟩
      refine ih _ _ _ h3 ?_ ?_
      · intro c hc
        rcases List.mem_append.1 hc with hc | hc
        · exact hcols c hc
        · simp only [List.mem_singleton] at hc
          subst hc
          exact h1
      · intro c hc
        rcases foldl_append_mem c hc with h | h
        · exact hcs c h
        · exact h2 c h
    split
    · refine (parseTableConstraint_post hL).bind ?_
      rintro ⟨c, ts₁⟩ ⟨h1, h2⟩
      refine ih _ _ _ h2 hcols ?_
      intro x hx
      rcases appendConstraint_mem x hx with h | rfl
      · exact hcs x h
      · exact h1
    split
    · exact Post.next_bind (ih _ _ _ hL.tail hcols hcs)
    split
    · exact Post.ok ⟨hcols, hcs, hL⟩
    split
    · split
      · exact Post.ok ⟨hcols, hcs, hL⟩
      · exact trivial
    · exact trivial

theorem parseCreateTable_post {ts : List Token} (hL : AllTok L ts) :
    Post (fun r => TabOk r.1 ∧ AllTok L r.2) (parseCreateTable ts) := by
  unfold parseCreateTable
  refine (parseIfNotExists_post hL).bind ?_
  rintro ⟨ine, ts₁⟩ h1
  refine Post.next_bind (Post.checkCur_bind (fun hc => Post.next_bind (Post.checkCur_bind (fun _ => Post.next_bind ?_))))
  simp only [List.mem_singleton] at hc
  refine (tableLoop_post _ [] [] _ (AllTok.tail (AllTok.tail (AllTok.tail h1))) (by simp) (by simp)).bind ?_
  rintro ⟨cols, cs, ts₂⟩ ⟨h2, h3, h4⟩
  exact Post.ok ⟨⟨rfl, rfl, ⟨_, (AllTok.tail h1).ident hc (by decide), rfl⟩, h2, h3⟩, h4⟩

theorem parseCreateIndex_post {ts : List Token} (hL : AllTok L ts) :
    Post (fun r => IdxOk r.1 ∧ AllTok L r.2) (parseCreateIndex ts) := by
  have huq : Post (fun r => AllTok L r.2) (parseUnique ts) := by
    unfold parseUnique
    split
    · exact Post.next_bind (Post.ok hL.tail)
    · exact Post.ok hL
  unfold parseCreateIndex
  refine huq.bind ?_
  rintro ⟨uq, ts₀⟩ h0
  refine (parseIfNotExists_post h0).bind ?_
  rintro ⟨ine, ts₁⟩ h1
  refine Post.next_bind (Post.checkCur_bind (fun hc => Post.next_bind (Post.checkCur_bind (fun _ => Post.next_bind
    (Post.checkCur_bind (fun hc2 => Post.next_bind ?_))))))
  simp only [List.mem_singleton] at hc hc2
  have h1' : AllTok L ts₁.tail := AllTok.tail h1
  have h4 : AllTok L ts₁.tail.tail.tail.tail := h1'.tail.tail.tail
  generalize ts₁.tail.tail.tail.tail = us at h4
  refine (parseUsingOpt_post h4).bind ?_
  rintro ⟨pre, ts₅⟩ ⟨_, h5⟩
  refine Post.checkCur_bind (fun _ => ?_)
  refine (parseColumnIdents_post h5).bind ?_
  rintro ⟨ids, ts₆⟩ ⟨h6, h7⟩
  refine (parseUsingOpt_post h7).bind ?_
  rintro ⟨post, ts₈⟩ ⟨_, h8⟩
  exact Post.ok ⟨⟨rfl, nameOk_cur h1' hc, ⟨_, h1'.tail.tail.ident hc2 (by decide), rfl⟩, h6⟩, h8⟩

/-- The statement, as it was read. -/
def StmtOk : CStmt → Prop
  | .createTable t => TabOk t
  | .createIndex i => IdxOk i
  | _ => False

theorem parseCreate_post {ts : List Token} (hL : AllTok L ts) : Post (fun r => StmtOk r.1 ∧ AllTok L r.2) (parseCreate ts) := by
  unfold parseCreate
  refine Post.next_bind ?_
  split
  · refine (parseCreateTable_post hL.tail).bind ?_
    rintro ⟨t, ts₁⟩ h
    exact Post.ok h
  split
  · refine (parseCreateIndex_post hL.tail).bind ?_
    rintro ⟨t, ts₁⟩ h
    exact Post.ok h
  · exact trivial

theorem parseLoop_post : ∀ (n : Nat) (ts : List Token), AllTok L ts →
    Post (fun l => ∀ s ∈ l, StmtOk s) (parseLoop parseCreate n ts) := by
  intro n
  induction n with
  | zero => intros; exact trivial
  | succ n ih =>
    intro ts hL
    unfold parseLoop
    split
    · refine (parseCreate_post hL).bind ?_
      rintro ⟨s, ts₁⟩ ⟨h1, h2⟩
      refine Post.next_bind ((ih _ (AllTok.tail h2)).bind ?_)
      intro l hl
      refine Post.ok ?_
      intro x hx
      rcases List.mem_cons.1 hx with rfl | hx
      · exact h1
      · exact hl x hx
    split
    · exact Post.next_bind (ih _ hL.tail)
    split
    · exact Post.ok (by simp)
    · exact trivial

theorem parse_post {s : Str} (hL : AllTok L (lex .cockroachdb s)) {l : List CStmt} (h : parse s = .ok l) : ∀ x ∈ l, StmtOk x := by
  unfold parse parseTokens start at h
  split at h
  · cases h
  · exact (parseLoop_post _ _ hL).get h

/-! ## Reading the printed statements -/

def semiTok : Token := ⟨.SEMICOLON, s%";"⟩
def createTok : Token := ⟨.CREATE, s%"CREATE"⟩
def ineToks (b : Bool) : List Token := if b then [⟨.IF, s%"IF"⟩, notTok, ⟨.EXISTS, s%"EXISTS"⟩] else []

@[simp] theorem notTok_type : notTok.type = .NOT := rfl
@[simp] theorem semiTok_type : semiTok.type = .SEMICOLON := rfl
@[simp] theorem createTok_type : createTok.type = .CREATE := rfl

/-- The tokens of a table. -/
noncomputable def tabToks (t : CreateTable) : List Token :=
  createTok :: ⟨.TABLE, s%"TABLE"⟩ :: (ineToks t.ifNotExists ++ ⟨.IDENT, t.name.str⟩ :: openTok ::
    (sepToks (t.columns.map printToks ++ t.constraints.map conToks) ++ [closeTok, semiTok]))

/-- The tokens of an index. -/
def idxToks (i : CreateIndex) : List Token :=
  createTok :: (uqToks i.isUnique ++ ⟨.INDEX, s%"INDEX"⟩ :: (ineToks i.ifNotExists ++
    nameTok i.name :: ⟨.ON, s%"ON"⟩ :: ⟨.IDENT, i.tableName.str⟩ :: openTok :: (colToks i.columns ++ [closeTok, semiTok])))

theorem Column.Rereadable.valued {c : Column} (h : c.Rereadable) : Valued c := by
  refine ⟨?_, ?_⟩
  · intro e
    obtain ⟨_, x, hx, _⟩ := h.2.1 _ e
    cases hx
  · intro a ha e
    obtain ⟨x, hx, _⟩ := h.2.2 a ha
    rw [hx] at e
    cases e

theorem objName_ok {n : ObjectName} (h : ∃ raw, L ⟨.IDENT, raw⟩ ∧ n = newObjectName .cockroachdb raw) :
    L ⟨.IDENT, n.str⟩ ∧ n = newObjectName .cockroachdb n.str := by
  obtain ⟨raw, h, rfl⟩ := h
  rw [objectName_str h]
  exact ⟨h, rfl⟩

theorem ine_lex (b : Bool) (r : Str) :
    lex .cockroachdb ((if b then s%"IF NOT EXISTS " else []) ++ r) = ineToks b ++ lex .cockroachdb r := by
  cases b with
  | false => rfl
  | true =>
    simp only [if_true]
    rw [lex_lit (d := .cockroachdb) (by decide) (by decide) (by decide)]
    rfl

theorem lex_tok {t : Token} (h : L t) {s : Str} (hs : Start s) : lex .cockroachdb (t.lit ++ s) = t :: lex .cockroachdb s :=
  lex_lx h hs.apart

theorem ineToks_read (b : Bool) {k t : Token} {rest : List Token} (ht : t.type ≠ .IF) (hp : NoPanic (k :: (ineToks b ++ t :: rest))) :
    ∃ k', parseIfNotExists (k :: (ineToks b ++ t :: rest)) = .ok (b, k' :: t :: rest) ∧ NoPanic (k' :: t :: rest) := by
  cases b with
  | false =>
    refine ⟨k, ?_, hp⟩
    simp [parseIfNotExists, ineToks, peekT_cons, ht]
  | true =>
    simp only [ineToks, if_true, List.cons_append, List.nil_append] at hp ⊢
    refine ⟨⟨.EXISTS, s%"EXISTS"⟩, ?_, hp.of_cons.of_cons.of_cons⟩
    simp [parseIfNotExists, peekT_cons, checkPeek, next_cons hp, next_cons hp.of_cons, next_cons hp.of_cons.of_cons]

theorem lex_createTable {t : CreateTable} (h : TabOk t) (hR : t.Rereadable) (s : Str) :
    lex .cockroachdb (t.str ++ s) = tabToks t ++ lex .cockroachdb s := by
  obtain ⟨hcom, hopt, hname, hcols, hcons⟩ := h
  have hn := objName_ok hname
  have op : ∀ r, Start (s%" (\n" ++ r) := fun r => start_cons (by decide)
  have hitems := lex_itemLines (t.columns.map (fun c => (c.str, printToks c)) ++ t.constraints.map (fun c => (c.str, conToks c))) (by
    intro p hp s hs
    rcases List.mem_append.1 hp with hp | hp <;> obtain ⟨c, hc, rfl⟩ := List.mem_map.1 hp
    · exact lex_column (printToks_ok (hcols c hc (hR.1 c hc).valued)) (hR.1 c hc) hs
    · exact lex_constraint (hcons c hc) (hR.2.1 c hc) hs)
  simp only [List.map_append, List.map_map, Function.comp_def] at hitems
  unfold CreateTable.str tabToks
  rw [hcom, hopt]
  simp only [commentStr, if_true, List.nil_append, List.append_nil, List.append_assoc]
  have hlast : (if t.constraints = [] then s%"\n" else s%",\n") = if t.constraints.map Constraint.str = [] then s%"\n" else s%",\n" := by
    simp
  rw [hlast, ← List.append_assoc (itemLines _ _), itemLines_append]
  rw [lex_lit (d := .cockroachdb) (by decide) (by decide) (by decide), ine_lex, lex_tok hn.1 (op _),
    lex_lit (d := .cockroachdb) (by decide) (by decide) (by decide), hitems,
    lex_lit (d := .cockroachdb) (by decide) (by decide) (by decide),
    lex_lit (d := .cockroachdb) (by decide) (by decide) (by decide)]
  simp only [List.append_assoc, List.cons_append, List.nil_append]
  rfl

theorem ineToks_noPanic (b : Bool) : NoPanic (ineToks b) := by
  cases b
  · exact noPanic_nil
  · exact noPanic_cons (by decide) (noPanic_cons (by decide) (noPanic_cons (by decide) noPanic_nil))

theorem tabToks_noPanic {t : CreateTable} (hcols : ∀ c ∈ t.columns, ∃ us, ColOk c us) (hcon : ∀ c ∈ t.constraints, ConOk c) : NoPanic (tabToks t) := by
  refine noPanic_cons (by decide) (noPanic_cons (by decide) (noPanic_append (ineToks_noPanic _) (noPanic_cons (by simp)
    (noPanic_cons (by decide) (noPanic_append (sepToks_noPanic ?_) (noPanic_cons (by decide) (noPanic_cons (by decide) noPanic_nil)))))))
  intro y hy
  rcases List.mem_append.1 hy with hx | hx <;> obtain ⟨z, hz, rfl⟩ := List.mem_map.1 hx
  · exact (printToks_ok (hcols z hz)).noPanic
  · exact conToks_noPanic (hcon z hz)

theorem parseCreate_readsTable {t : CreateTable} (h : TabOk t) (hR : t.Rereadable)
    {rest : List Token} (hp : NoPanic rest) :
    ∃ k, parseCreate (tabToks t ++ rest) =
      .ok (.createTable { t with constraints := t.constraints.foldl appendConstraint [] }, k) ∧
      (k = closeTok :: semiTok :: rest ∨ k = semiTok :: rest) := by
  obtain ⟨hcom, hopt, hname, hcols, hcons⟩ := h
  have hn := objName_ok hname
  have hcols' : ∀ c ∈ t.columns, ∃ us, ColOk c us := fun c hc => hcols c hc (hR.1 c hc).valued
  have hp0 := noPanic_append (tabToks_noPanic hcols' hcons) hp
  unfold tabToks at hp0 ⊢
  simp only [List.cons_append, List.append_assoc, List.nil_append] at hp0 ⊢
  have hp1 := hp0.of_cons
  obtain ⟨k, e, hk⟩ := ineToks_read t.ifNotExists (by simp) hp1
  have hs : NoPanic (semiTok :: rest) := noPanic_cons (by decide) hp
  obtain ⟨kk, hit, hkk⟩ := items_read (tbl := t.name.name) (fun c hc => ⟨hcols' c hc, hR.1 c hc⟩) (fun c hc => ⟨hcons c hc, hR.2.1 c hc⟩) (rest := semiTok :: rest) (by simp) hs
    (n := (sepToks (t.columns.map printToks ++ t.constraints.map conToks) ++ closeTok :: semiTok :: rest).length + 1) (by simp)
  refine ⟨kk, ?_, hkk⟩
  unfold parseCreate
  simp only [next_cons hp0, bind_ok, curT_cons, if_true]
  unfold parseCreateTable
  simp only [e, bind_ok, next_cons hk, next_cons hk.of_cons, next_cons hk.of_cons.of_cons, checkCur, curT_cons, List.mem_singleton, if_true,
    openTok_type, curL_cons, ← hn.2, hit]
  obtain ⟨c, i, n, cols, cs, o⟩ := t
  simp only at hcom hopt
  subst hcom hopt
  rfl

/-! ## Indexes -/

theorem uqToks_noPanic (b : Bool) : NoPanic (uqToks b) := by
  cases b
  · exact noPanic_nil
  · exact noPanic_cons (by decide) noPanic_nil

theorem idxToks_noPanic (i : CreateIndex) : NoPanic (idxToks i) :=
  noPanic_cons (by decide) (noPanic_append (uqToks_noPanic _) (noPanic_cons (by decide) (noPanic_append (ineToks_noPanic _)
    (noPanic_cons (by simp) (noPanic_cons (by decide) (noPanic_cons (by simp) (noPanic_cons (by decide) (noPanic_append (colToks_noPanic _)
      (noPanic_cons (by decide) (noPanic_cons (by decide) noPanic_nil))))))))))

theorem parseCreate_readsIndex {i : CreateIndex} (h : IdxOk i) (hR : i.Rereadable) {rest : List Token} (hp : NoPanic rest) :
    parseCreate (idxToks i ++ rest) = .ok (.createIndex i, semiTok :: rest) := by
  obtain ⟨hcom, hname, htbl, hcols⟩ := h
  obtain ⟨hpre, hpost⟩ := hR
  have hn := objName_ok htbl
  have hp0 := noPanic_append (idxToks_noPanic i) hp
  unfold idxToks at hp0 ⊢
  simp only [List.cons_append, List.append_assoc, List.nil_append] at hp0 ⊢
  have hp1 := hp0.of_cons
  have huq : ∀ r, NoPanic (uqToks i.isUnique ++ ⟨.INDEX, s%"INDEX"⟩ :: r) →
      parseUnique (uqToks i.isUnique ++ ⟨.INDEX, s%"INDEX"⟩ :: r) = .ok (i.isUnique, ⟨.INDEX, s%"INDEX"⟩ :: r) ∧
      curT (uqToks i.isUnique ++ (⟨.INDEX, s%"INDEX"⟩ : Token) :: r) ∈ [.INDEX, .UNIQUE] := by
    intro r hr
    revert hr
    cases i.isUnique with
    | false => simp [parseUnique, uqToks]
    | true =>
      simp only [uqToks, if_true, List.cons_append, List.nil_append]
      intro hr
      simp [parseUnique, next_cons hr]
  obtain ⟨k, e, hk⟩ := ineToks_read i.ifNotExists (by simp) hp1.of_append
  have husing : ∀ t r, t.type ≠ .USING → parseUsingOpt (t :: r) = .ok (none, t :: r) := by
    intro t r ht
    simp [parseUsingOpt, ht]
  obtain ⟨hu1, hu2⟩ := huq _ hp1
  unfold parseCreate
  simp only [next_cons hp0, bind_ok]
  rw [if_neg, if_pos]
  rotate_left
  · simpa using hu2
  · intro e
    rw [e] at hu2
    simp at hu2
  unfold parseCreateIndex
  simp only [hu1, e, bind_ok, next_cons hk, next_cons hk.of_cons, next_cons hk.of_cons.of_cons, next_cons hk.of_cons.of_cons.of_cons,
    checkCur, curT_cons, List.mem_singleton, if_true, nameTok_type, nameTok_lit,
    openTok_type, curL_cons, ← hn.2, ← hname.1, husing openTok _ (by decide)]
  rw [parseColumnIdents_reads hcols hk.of_cons.of_cons.of_cons.of_cons]
  simp only [bind_ok, husing semiTok _ (by decide)]
  obtain ⟨c, q, ine, n, tn, us, cols, us'⟩ := i
  simp only at hcom hpre hpost
  subst hcom hpre hpost
  rfl

theorem lex_createIndex {i : CreateIndex} (h : IdxOk i) (hR : i.Rereadable) (s : Str) :
    lex .cockroachdb (i.str ++ s) = idxToks i ++ lex .cockroachdb s := by
  obtain ⟨hcom, hname, htbl, hcols⟩ := h
  obtain ⟨hpre, hpost⟩ := hR
  have hn := objName_ok htbl
  have on : ∀ r, Start (s%" ON " ++ r) := fun r => start_cons (by decide)
  have op : ∀ r, Start (s%" (" ++ r) := fun r => start_cons (by decide)
  have cl : ∀ r, Start (s%")" ++ r) := fun r => start_cons (by decide)
  have huq : ∀ r, lex .cockroachdb ((if i.isUnique then s%"UNIQUE " else []) ++ r) = uqToks i.isUnique ++ lex .cockroachdb r := by
    intro r
    cases i.isUnique with
    | false => rfl
    | true =>
      simp only [if_true]
      rw [lex_lit (d := .cockroachdb) (by decide) (by decide) (by decide)]
      rfl
  unfold CreateIndex.str idxToks
  rw [hcom, hpre, hpost]
  simp only [commentStr, usingStr, if_true, List.nil_append, List.append_assoc, Ident.str]
  rw [lex_lit (d := .cockroachdb) (by decide) (by decide) (by decide), huq,
    lex_lit (d := .cockroachdb) (by decide) (by decide) (by decide), ine_lex, lex_name hname (on _),
    lex_lit (d := .cockroachdb) (by decide) (by decide) (by decide), lex_tok hn.1 (op _),
    lex_lit (d := .cockroachdb) (by decide) (by decide) (by decide), lex_columnsStr (cl _) _ hcols,
    lex_lit (d := .cockroachdb) (by decide) (by decide) (by decide),
    lex_lit (d := .cockroachdb) (by decide) (by decide) (by decide)]
  simp only [List.append_assoc, List.cons_append, List.nil_append]
  rfl

/-! ## Statement lists -/

/-- What is needed of a statement so that it is read again. -/
def Again : CStmt → Prop
  | .createTable t => TabOk t ∧ t.Rereadable ∧ NodupNames t.constraints
  | .createIndex i => IdxOk i ∧ i.Rereadable
  | _ => False

/-- The printed statement has tokens, which are read as the statement. -/
theorem stmt_again {sd : Str → Str → Str} {x : CStmt} (h : Again x) :
    ∃ us, (∀ s, lex .cockroachdb (stmtStr (ops sd) x ++ s) = us ++ lex .cockroachdb s) ∧ NoPanic us ∧ (∀ r, curT (us ++ r) = .CREATE) ∧
      2 ≤ us.length ∧ ∀ rest, NoPanic rest → ∃ k r, parseCreate (us ++ rest) = .ok (x, k :: r) ∧ NoPanic (k :: r) ∧
        (r = rest ∨ r = semiTok :: rest) := by
  cases x with
  | createTable t =>
    obtain ⟨h1, h2, h3⟩ := h
    refine ⟨tabToks t, lex_createTable h1 h2, tabToks_noPanic (fun c hc => h1.2.2.2.1 c hc (h2.1 c hc).valued) h1.2.2.2.2,
      fun r => rfl, by simp [tabToks], ?_⟩
    intro rest hp
    obtain ⟨k, e, hk⟩ := parseCreate_readsTable h1 h2 hp
    rw [foldl_append_new _ [] (by simpa using h3) (by simpa using h2.2.2), List.nil_append] at e
    rcases hk with rfl | rfl
    · exact ⟨_, _, e, noPanic_cons (by decide) (noPanic_cons (by decide) hp), Or.inr rfl⟩
    · exact ⟨_, _, e, noPanic_cons (by decide) hp, Or.inl rfl⟩
  | createIndex i =>
    refine ⟨idxToks i, lex_createIndex h.1 h.2, idxToks_noPanic i, fun r => rfl, by simp [idxToks]; omega, ?_⟩
    intro rest hp
    exact ⟨_, _, parseCreate_readsIndex h.1 h.2 hp, noPanic_cons (by decide) hp, Or.inl rfl⟩
  | alterTable a => exact h.elim
  | dropTable => exact h.elim
  | dropIndex => exact h.elim

theorem stmts_again {sd : Str → Str → Str} : ∀ l : List CStmt, (∀ x ∈ l, Again x) →
    NoPanic (lex .cockroachdb (ddlStr (ops sd) l)) ∧
      ∀ n, (lex .cockroachdb (ddlStr (ops sd) l)).length + 1 ≤ n → parseLoop parseCreate n (lex .cockroachdb (ddlStr (ops sd) l)) = .ok l := by
  intro l
  induction l with
  | nil =>
    intro _
    refine ⟨noPanic_nil, ?_⟩
    intro n hn
    obtain ⟨n, rfl⟩ : ∃ k, n = k + 1 := ⟨n - 1, by omega⟩
    rfl
  | cons x l ih =>
    intro h
    obtain ⟨hp, ih⟩ := ih fun y hy => h y (by simp [hy])
    obtain ⟨us, h1, h2, h3, h4, h5⟩ := stmt_again (sd := sd) (h x (by simp))
    have e : lex .cockroachdb (ddlStr (ops sd) (x :: l)) = us ++ lex .cockroachdb (ddlStr (ops sd) l) := by
      rw [← h1]
      rfl
    rw [e]
    refine ⟨noPanic_append h2 hp, ?_⟩
    intro n hn
    rw [List.length_append] at hn
    obtain ⟨n, rfl⟩ : ∃ k, n = k + 2 := ⟨n - 2, by omega⟩
    obtain ⟨k, r, e1, e2, e3⟩ := h5 _ hp
    rw [parseLoop, if_pos (h3 _), e1]
    simp only [bind_ok, next_cons e2]
    rcases e3 with rfl | rfl
    · rw [ih _ (by omega)]
      rfl
    · rw [parseLoop, if_neg (by simp), if_pos (by simp), next_cons e2.of_cons]
      simp only [bind_ok]
      rw [ih _ (by omega)]
      rfl

theorem parse_again {sd : Str → Str → Str} {l : List CStmt} (h : ∀ x ∈ l, Again x) :
    parse (ddlStr (ops sd) l) = .ok l := by
  obtain ⟨h1, h2⟩ := stmts_again (sd := sd) l h
  unfold parse parseTokens
  rw [h1.start]
  exact h2 _ (by omega)

end Ddl.Crdb
