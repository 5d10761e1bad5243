import Verif.Spec.ColumnConstraints
import Verif.Lemmas.Grammar
import Verif.Lemmas.PgTable
/-! # Reading the constraints of a column -/
set_option autoImplicit false
namespace Ddl.Pg
open Ddl Spec

theorem balanced_tail {t : Token} {l : List Token} (h : Balanced (t :: l)) (ho : t.type ≠ .OPEN_PAREN) : Balanced l := by
  cases h with
  | word _ _ _ _ _ h => exact h
  | paren o c l r ho' _ _ _ => exact absurd ho' ho

theorem exprLoop_balanced :
    ∀ (k : Nat) (e : List Token) (c : Token), c.type = .CLOSE_PAREN → e.length ≤ k → Balanced e →
      (∀ t ∈ e, isReservedValue t.type → t.lit.map Char.toUpper = t.type.str) → ∀ (n : Nat) (rest : List Token), e.length < n →
      NoPanic (e ++ c :: rest) → ∃ x, exprLoop n (e ++ c :: rest) = .ok (x, rest) ∧
        (x.map (·.raw)).flatten.map Char.toUpper = ((e.map (·.lit)).flatten ++ c.lit).map Char.toUpper := by
  have up : ∀ t : TokType, isReservedValue t → t.str.map Char.toUpper = t.str := by intro t; cases t <;> decide
  intro k
  induction k with
  | zero =>
    intro e c hc he _ _ n rest hn hp
    obtain rfl : e = [] := List.length_eq_zero_iff.mp (by omega)
    obtain ⟨n, rfl⟩ : ∃ m', n = m' + 1 := ⟨n - 1, by omega⟩
    exact ⟨[rawIdent c.lit], by simp [exprLoop, curT_cons, curL_cons, hc, next_cons hp], by simp [rawIdent_raw]⟩
  | succ k ih =>
    intro e c hc he hb hr n rest hn hp
    obtain ⟨n, rfl⟩ : ∃ m', n = m' + 1 := ⟨n - 1, by omega⟩
    cases hb with
    | nil =>
      exact ⟨[rawIdent c.lit], by simp [exprLoop, curT_cons, curL_cons, hc, next_cons hp], by simp [rawIdent_raw]⟩
    | paren o c' l r ho hc' hl hr' =>
      simp only [List.cons_append, List.append_assoc] at hp ⊢
      simp only [List.length_cons, List.length_append] at he hn
      obtain ⟨x1, e1, u1⟩ := ih l c' hc' (by omega) hl (fun t ht => hr t (by simp [ht])) n (r ++ c :: rest) (by omega) hp.of_cons
      obtain ⟨x2, e2, u2⟩ := ih r c hc (by omega) hr' (fun t ht => hr t (by simp [ht])) n rest (by omega) (hp.of_cons.of_append.of_cons)
      refine ⟨rawIdent o.lit :: x1 ++ x2, ?_, ?_⟩
      · simp [exprLoop, curT_cons, curL_cons, ho, next_cons hp, e1, e2]
      · simp only [List.map_append, List.map_cons, List.flatten_append, List.flatten_cons, rawIdent_raw] at u1 u2 ⊢
        rw [u1, u2]
        simp
    | word t l h1 h2 h3 hl =>
      simp only [List.cons_append] at hp ⊢
      simp only [List.length_cons] at he hn
      by_cases hop : t.type = .EQUAL ∨ t.type = .GREATER ∨ t.type = .LESS
      · by_cases hop2 : curT (l ++ c :: rest) = .EQUAL ∨ curT (l ++ c :: rest) = .GREATER ∨ curT (l ++ c :: rest) = .LESS
        · cases l with
          | nil => simp [curT_cons, hc] at hop2
          | cons t2 l =>
            simp only [List.cons_append, curT_cons] at hop2 hp ⊢
            simp only [List.length_cons] at he hn
            have hl2 := balanced_tail hl (by rcases hop2 with h | h | h <;> rw [h] <;> decide)
            obtain ⟨x2, e2, u2⟩ := ih l c hc (by omega) hl2 (fun t ht => hr t (by simp [ht])) n rest (by omega) hp.of_cons.of_cons
            refine ⟨rawIdent (t.lit ++ t2.lit) :: x2, ?_, ?_⟩
            · simp [exprLoop, curT_cons, curL_cons, peekT_cons, peekL, h1, h2, hop, hop2, next_cons hp, next_cons hp.of_cons, e2]
            · simp only [List.map_append, List.map_cons, List.flatten_cons, rawIdent_raw] at u2 ⊢
              rw [u2]
              simp
        · obtain ⟨x2, e2, u2⟩ := ih l c hc (by omega) hl (fun t ht => hr t (by simp [ht])) n rest (by omega) hp.of_cons
          refine ⟨rawIdent t.lit :: x2, ?_, ?_⟩
          · have : peekT (t :: (l ++ c :: rest)) = curT (l ++ c :: rest) := rfl
            simp [exprLoop, curT_cons, curL_cons, this, h1, h2, hop, hop2, next_cons hp, e2]
          · simp only [List.map_append, List.map_cons, List.flatten_cons, rawIdent_raw] at u2 ⊢
            rw [u2]
            simp
      · obtain ⟨x2, e2, u2⟩ := ih l c hc (by omega) hl (fun t ht => hr t (by simp [ht])) n rest (by omega) hp.of_cons
        refine ⟨(if isReservedValue t.type then rawIdent t.type.str else rawIdent t.lit) :: x2, ?_, ?_⟩
        · simp [exprLoop, curT_cons, curL_cons, h1, h2, h3, hop, next_cons hp, e2]
          congr
        · simp only [List.map_append, List.map_cons, List.flatten_cons] at u2 ⊢
          rw [u2]
          split
          · rename_i hv
            rw [rawIdent_raw, up _ hv, hr t (by simp) hv]
            simp
          · simp [rawIdent_raw]

theorem parseExpr_balanced {o c : Token} {e rest : List Token} (ho : o.type = .OPEN_PAREN) (hol : o.lit = s%"(") (hc : c.type = .CLOSE_PAREN)
    (hcl : c.lit = s%")") (hb : Balanced e) (hr : ∀ t ∈ e, t.type ∈ [TokType.NULL, .TRUE, .FALSE] → t.lit.map Char.toUpper = t.type.str)
    (hp : NoPanic (o :: (e ++ c :: rest))) :
    ∃ x, parseExpr (o :: (e ++ c :: rest)) = .ok (x, rest) ∧
      (x.map (·.raw)).flatten.map Char.toUpper = (s%"(" ++ (e.map (·.lit)).flatten ++ s%")").map Char.toUpper := by
  obtain ⟨x, hx, hu⟩ := exprLoop_balanced e.length e c hc (Nat.le_refl _) hb (fun t ht h => hr t ht (by simpa [isReservedValue] using h))
    ((e ++ c :: rest).length + 1) rest (by simp; omega) hp.of_cons
  refine ⟨rawIdent o.lit :: x, ?_, ?_⟩
  · simp only [parseExpr, checkCur, curT_cons, curL_cons, ho, next_cons hp, bind_ok, hx]
    simp
  · rw [List.map_cons, List.flatten_cons, List.map_append, hu, rawIdent_raw, hol, hcl]
    simp

theorem columnIdentsLoop_names {c : Token} (hc : c.type = .CLOSE_PAREN) {cols l : List Token} (h : NameList cols l) :
    ∀ (n : Nat) (rest : List Token), l.length < n → NoPanic (l ++ c :: rest) →
      columnIdentsLoop n (l ++ c :: rest) = .ok (cols.map fun t => rawIdent t.lit, rest) := by
  induction h with
  | one t ht =>
    intro n rest hn hp
    obtain ⟨n, rfl⟩ : ∃ m', n = m' + 2 := ⟨n - 2, by simp at hn; omega⟩
    simp only [List.cons_append, List.nil_append] at hp ⊢
    simp [columnIdentsLoop, curT_cons, curL_cons, ht, hc, next_cons hp, next_cons hp.of_cons]
  | cons t k l ts ht hk _ ih =>
    intro n rest hn hp
    simp only [List.length_cons] at hn
    obtain ⟨n, rfl⟩ : ∃ m', n = m' + 2 := ⟨n - 2, by omega⟩
    simp only [List.cons_append] at hp ⊢
    simp [columnIdentsLoop, curT_cons, curL_cons, ht, hk, next_cons hp, next_cons hp.of_cons,
      ih n rest (by omega) hp.of_cons.of_cons]

theorem parseColumnIdents_names {o c : Token} (ho : o.type = .OPEN_PAREN) (hc : c.type = .CLOSE_PAREN) {cols l rest : List Token}
    (h : NameList cols l) (hp : NoPanic (o :: (l ++ c :: rest))) :
    parseColumnIdents (o :: (l ++ c :: rest)) = .ok (cols.map fun t => rawIdent t.lit, rest) := by
  rw [parseColumnIdents]
  simp only [List.length_cons]
  rw [columnIdentsLoop]
  simp only [curT_cons, ho, true_or, if_true, next_cons hp, bind_ok]
  exact columnIdentsLoop_names hc h _ _ (by simp; omega) hp.of_cons

/-- The name generated for a constraint. -/
def conName (tbl col : Ident) : ColCon → Str
  | .primaryKey => tbl.name ++ s%"_pkey"
  | .unique => tbl.name ++ s%"_unique_" ++ col.name
  | .references .. => tbl.name ++ s%"_" ++ col.name ++ s%"_fkey"
  | .check _ => tbl.name ++ s%"_" ++ col.name ++ s%"_check"

theorem conName_inj (tbl col : Ident) (c c' : ColCon) (h : conName tbl col c = conName tbl col c') : c.kind = c'.kind := by
  cases c <;> cases c' <;> simp only [ColCon.kind] <;> exfalso <;>
    simp only [conName, List.append_assoc, List.append_cancel_left_eq] at h <;>
    first
      | (have := congrArg List.length h; simp at this; done)
      | (have := congrArg List.length h; simp at this; omega)

theorem rawIdent_noQuote {s : Str} (h : s.head? ≠ some '"') : rawIdent s = ⟨s, [], s⟩ := by
  cases s with
  | nil => decide
  | cons c r =>
    have : c ≠ '"' := by simpa using h
    simp [rawIdent, newRawIdent, quotationMarks, newRawIdentQ, hasPrefix, this.symm]

theorem rawIdent_gen {tbl : Ident} (hq : tbl.name.head? ≠ some '"') {s : Str} (hs : s.head? ≠ some '"') :
    rawIdent (tbl.name ++ s) = ⟨tbl.name ++ s, [], tbl.name ++ s⟩ := by
  apply rawIdent_noQuote
  cases h : tbl.name with
  | nil => simpa using hs
  | cons c r => rw [h] at hq; simpa using hq

/-- The rest after a constraint. -/
def afterCon (c : ColCon) (rest : List Token) : List Token :=
  match c with
  | .primaryKey | .unique => rest
  | .references _ _ [] => rest.tail
  | .references _ _ (_ :: _) => rest
  | .check _ => rest.tail

theorem afterCon_exact {c : ColCon} (h : c.Exact) (rest : List Token) : afterCon c rest = rest := by
  cases c with
  | primaryKey => rfl
  | unique => rfl
  | references r cs act =>
    cases act with
    | nil => exact absurd rfl h
    | cons => rfl
  | check => exact h.elim

theorem con_step {tbl col : Ident} (hq : tbl.name.head? ≠ some '"') {c : ColCon} {ts rest : List Token} (h : c.Tokens ts)
    (hp : NoPanic (ts ++ rest)) (hon : curT rest ≠ .ON) :
    ∃ x, c.Kept tbl col x ∧ x.name.name = conName tbl col c ∧ ∀ (n : Nat) (acc : List Constraint),
      columnConstraintsLoop tbl col (n + 1) acc (ts ++ rest) =
        columnConstraintsLoop tbl col n (appendConstraint acc x) (afterCon c rest) := by
  cases c with
  | primaryKey =>
    obtain ⟨a, r, rfl, ha, hr⟩ := map_type_cons h
    obtain ⟨b, r, rfl, hb, hr⟩ := map_type_cons hr
    obtain rfl := map_type_nil hr
    simp only [List.cons_append, List.nil_append] at hp ⊢
    have hn := rawIdent_gen hq (s := s%"_pkey") (by decide)
    refine ⟨.primaryKey (rawIdent (tbl.name ++ s%"_pkey")) [col], ⟨_, rfl, by rw [hn]⟩, by rw [hn]; rfl, fun n acc => ?_⟩
    simp [columnConstraintsLoop, curT_cons, peekT_cons, checkPeek, ha, hb, next_cons hp, next_cons hp.of_cons, afterCon, Ident.diffStr]
  | unique =>
    obtain ⟨a, r, rfl, ha, hr⟩ := map_type_cons h
    obtain rfl := map_type_nil hr
    simp only [List.cons_append, List.nil_append] at hp ⊢
    have hn := rawIdent_gen hq (s := s%"_unique_" ++ col.name) (by simp)
    rw [← List.append_assoc] at hn
    refine ⟨.unique (rawIdent (tbl.name ++ s%"_unique_" ++ col.name)) [col], ⟨_, rfl, by rw [hn]⟩, by rw [hn]; rfl, fun n acc => ?_⟩
    simp [columnConstraintsLoop, curT_cons, ha, next_cons hp, afterCon, Ident.diffStr]
  | references ref cols act =>
    obtain ⟨k, o, c, l, rfl, hk, href, ho, hc, hcols, hact⟩ := h
    simp only [List.cons_append, List.append_assoc] at hp ⊢
    have hn := rawIdent_gen hq (s := s%"_" ++ (col.name ++ s%"_fkey")) (by simp)
    rw [← List.append_assoc, ← List.append_assoc] at hn
    have hp3 := hp.of_cons.of_cons.of_cons.of_append.of_cons
    refine ⟨.foreignKey (rawIdent (tbl.name ++ s%"_" ++ col.name ++ s%"_fkey")) [col] (rawIdent ref.lit)
      (cols.map fun t => rawIdent t.lit) (join s%" " (act.map (·.lit))), ⟨_, rfl, by rw [hn]⟩, by rw [hn]; rfl, fun n acc => ?_⟩
    have hids := parseColumnIdents_names ho hc hcols hp.of_cons.of_cons
    have hon' : parseOnActionColumn (act ++ rest) = .ok (join s%" " (act.map (·.lit)),
        match act.reverse with | [] => rest | z :: _ => z :: rest) ∧
        next (match act.reverse with | [] => rest | z :: _ => z :: rest) = .ok (afterCon (.references ref cols act) rest) := by
      rcases hact with rfl | ⟨a, ha, hact | hact⟩
      · refine ⟨?_, ?_⟩
        · simp [parseOnActionColumn, hon, join]
        · simpa [afterCon] using NoPanic.next hp3
      · obtain ⟨t1, r, rfl, h1, hr⟩ := map_type_cons hact
        obtain ⟨t2, r, rfl, h2, hr⟩ := map_type_cons hr
        obtain ⟨t3, r, rfl, h3, hr⟩ := map_type_cons hr
        obtain rfl := map_type_nil hr
        simp only [List.cons_append, List.nil_append] at hp3 ⊢
        refine ⟨?_, ?_⟩
        · rcases ha with rfl | rfl <;>
            simp [parseOnActionColumn, curT_cons, curL_cons, peekT_cons, checkCur, checkPeek, h1, h2, h3, next_cons hp3,
              next_cons hp3.of_cons, join]
        · simpa [afterCon] using next_cons hp3.of_cons.of_cons
      · obtain ⟨t1, r, rfl, h1, hr⟩ := map_type_cons hact
        obtain ⟨t2, r, rfl, h2, hr⟩ := map_type_cons hr
        obtain ⟨t3, r, rfl, h3, hr⟩ := map_type_cons hr
        obtain ⟨t4, r, rfl, h4, hr⟩ := map_type_cons hr
        obtain rfl := map_type_nil hr
        simp only [List.cons_append, List.nil_append] at hp3 ⊢
        refine ⟨?_, ?_⟩
        · rcases ha with rfl | rfl <;>
            simp [parseOnActionColumn, curT_cons, curL_cons, peekT_cons, checkCur, checkPeek, h1, h2, h3, h4, next_cons hp3,
              next_cons hp3.of_cons, next_cons hp3.of_cons.of_cons, join]
        · simpa [afterCon] using next_cons hp3.of_cons.of_cons.of_cons
    rw [columnConstraintsLoop]
    simp only [curT_cons, curL_cons, peekT_cons, hk, checkPeek, href, next_cons hp, next_cons hp.of_cons, hids, bind_ok, hon'.1, hon'.2]
    simp [Ident.diffStr]
  | check e =>
    obtain ⟨k, o, c, rfl, hk, ho, hol, hc, hcl, hb, hr⟩ := h
    simp only [List.cons_append, List.append_assoc, List.nil_append] at hp ⊢
    have hn := rawIdent_gen hq (s := s%"_" ++ (col.name ++ s%"_check")) (by simp)
    rw [← List.append_assoc, ← List.append_assoc] at hn
    obtain ⟨x, hx, hu⟩ := parseExpr_balanced ho hol hc hcl hb hr hp.of_cons
    refine ⟨.check (rawIdent (tbl.name ++ s%"_" ++ col.name ++ s%"_check")) x, ⟨_, x, rfl, by rw [hn], hu⟩, by rw [hn]; rfl, fun n acc => ?_⟩
    rw [columnConstraintsLoop]
    simp only [curT_cons, peekT_cons, hk, checkPeek, ho, next_cons hp, bind_ok, hx, NoPanic.next hp.of_cons.of_cons.of_append.of_cons]
    simp [afterCon, Ident.diffStr]

theorem con_curT {c : ColCon} {ts : List Token} (h : c.Tokens ts) (rest : List Token) :
    curT (ts ++ rest) ≠ .ON ∧ ts ≠ [] := by
  cases c with
  | primaryKey => obtain ⟨a, r, rfl, ha, _⟩ := map_type_cons h; simp [curT_cons, ha]
  | unique => obtain ⟨a, r, rfl, ha, _⟩ := map_type_cons h; simp [curT_cons, ha]
  | references ref cols act => obtain ⟨k, o, c, l, rfl, hk, _⟩ := h; simp [curT_cons, hk]
  | check e => obtain ⟨k, o, c, rfl, hk, _⟩ := h; simp [curT_cons, hk]

theorem cons_loop {tbl col : Ident} (hq : tbl.name.head? ≠ some '"') {cs : List ColCon} {tss : List (List Token)}
    (h : Pointwise ColCon.Tokens cs tss) : (∀ c ∈ cs, c.Exact) → (cs.map ColCon.kind).Nodup → ∀ (acc : List Constraint) (rest : List Token),
    NoPanic (tss.flatten ++ rest) → curT rest ≠ .ON → (∀ x ∈ acc, ∀ c ∈ cs, x.name.name ≠ conName tbl col c) →
    ∃ out, Pointwise (ColCon.Kept tbl col) cs out ∧ (∀ x ∈ out, ∃ c ∈ cs, x.name.name = conName tbl col c) ∧
      ∀ n, columnConstraintsLoop tbl col (n + cs.length) acc (tss.flatten ++ rest) = columnConstraintsLoop tbl col n (acc ++ out) rest := by
  induction h with
  | nil => intro _ _ acc rest _ _ _; exact ⟨[], .nil, by simp, by simp⟩
  | @cons c ts cs tss h hr ih =>
    intro hex hnd acc rest hp hon hacc
    simp only [List.flatten_cons, List.append_assoc] at hp ⊢
    simp only [List.map_cons, List.nodup_cons] at hnd
    have hon' : curT (tss.flatten ++ rest) ≠ .ON := by
      cases hr with
      | nil => simpa using hon
      | cons h2 _ => simpa using (con_curT h2 _).1
    obtain ⟨x, hk, hx, e⟩ := con_step (col := col) hq h hp hon'
    have happ : appendConstraint acc x = acc ++ [x] := appendConstraint_new fun y hy => hx ▸ hacc y hy c (by simp)
    obtain ⟨out, hpw, hnames, e2⟩ := ih (fun c hc => hex c (by simp [hc])) hnd.2 (acc ++ [x]) rest hp.of_append hon (by
      intro y hy c' hc' hyc
      simp only [List.mem_append, List.mem_singleton] at hy
      rcases hy with hy | rfl
      · exact hacc y hy c' (by simp [hc']) hyc
      · exact hnd.1 (by rw [conName_inj tbl col c c' (hx.symm.trans hyc)]; exact List.mem_map_of_mem hc'))
    refine ⟨x :: out, .cons hk hpw, ?_, fun n => ?_⟩
    · intro y hy
      rcases List.mem_cons.mp hy with rfl | hy
      · exact ⟨c, by simp, hx⟩
      · obtain ⟨c', hc', h'⟩ := hnames y hy
        exact ⟨c', by simp [hc'], h'⟩
    · rw [List.length_cons, ← Nat.add_assoc, e, afterCon_exact (hex c (by simp)), happ, e2]
      simp

theorem length_le_flatten {cs : List ColCon} {tss : List (List Token)} (h : Pointwise ColCon.Tokens cs tss) :
    cs.length ≤ tss.flatten.length := by
  induction h with
  | nil => simp
  | cons h _ ih =>
    have := List.length_pos_iff.mpr (con_curT h []).2
    simp only [List.length_cons, List.flatten_cons, List.length_append]
    omega

theorem constraints_kept {tbl col : Ident} (hq : tbl.name.head? ≠ some '"') {cs : List ColCon} {tss : List (List Token)}
    (h : Pointwise ColCon.Tokens cs tss) (hex : ∀ c ∈ cs, c.Exact) (hnd : (cs.map ColCon.kind).Nodup) {rest : List Token}
    (hp : NoPanic (tss.flatten ++ rest)) (hrest : curT rest ∈ [TokType.IDENT, .COMMA, .CLOSE_PAREN]) :
    ∃ out, parseColumnConstraints tbl col (tss.flatten ++ rest) = .ok (out, rest) ∧ Pointwise (ColCon.Kept tbl col) cs out := by
  have hon : curT rest ≠ .ON := fun hc => by rw [hc] at hrest; revert hrest; decide
  obtain ⟨out, hk, _, e⟩ := cons_loop hq h hex hnd [] rest hp hon (by simp)
  refine ⟨out, ?_, hk⟩
  have hl := length_le_flatten h
  rw [parseColumnConstraints, show (tss.flatten ++ rest).length + 1 = ((tss.flatten ++ rest).length - cs.length + 1) + cs.length by
    simp only [List.length_append]; omega, e, columnConstraintsLoop]
  simp only [List.mem_cons, List.not_mem_nil, or_false] at hrest
  rcases hrest with h | h | h <;> simp [h]

theorem pointwise_append {α β : Type} {R : α → β → Prop} {l : List α} {r : List β} (h : Pointwise R l r) {a : α} {b : β} (hab : R a b) :
    Pointwise R (l ++ [a]) (r ++ [b]) := by
  induction h with
  | nil => exact .cons hab .nil
  | cons h _ ih => exact .cons h ih

theorem constraints_kept_last {tbl col : Ident} (hq : tbl.name.head? ≠ some '"') {cs : List ColCon} {tss : List (List Token)}
    (h : Pointwise ColCon.Tokens cs tss) (hex : ∀ c ∈ cs, c.Exact) {c : ColCon} {ts : List Token} (hc : c.Tokens ts) (hne : ¬ c.Exact)
    (hnd : ((cs ++ [c]).map ColCon.kind).Nodup) {y : Token} {rest : List Token}
    (hp : NoPanic (tss.flatten ++ (ts ++ y :: rest))) (hy : y.type ≠ .ON) (hrest : curT rest ∈ [TokType.IDENT, .COMMA, .CLOSE_PAREN]) :
    ∃ out, parseColumnConstraints tbl col (tss.flatten ++ (ts ++ y :: rest)) = .ok (out, rest) ∧
      Pointwise (ColCon.Kept tbl col) (cs ++ [c]) out := by
  rw [List.map_append, List.nodup_append] at hnd
  obtain ⟨out, hk, hnames, e⟩ := cons_loop hq h hex hnd.1 [] _ hp (con_curT hc _).1 (by simp)
  obtain ⟨x, hkx, hx, e2⟩ := con_step (col := col) hq hc hp.of_append (by simpa [curT_cons] using hy)
  have happ : appendConstraint out x = out ++ [x] := appendConstraint_new fun z hz hzx => by
    obtain ⟨c', hc', hn⟩ := hnames z hz
    exact hnd.2.2 c'.kind (List.mem_map_of_mem hc') c.kind (by simp) (conName_inj tbl col c' c (hn.symm.trans (hzx.trans hx)))
  have haft : afterCon c (y :: rest) = rest := by
    cases c with
    | primaryKey => exact absurd trivial hne
    | unique => exact absurd trivial hne
    | references r cs act =>
      cases act with
      | nil => rfl
      | cons => exact absurd (by simp [ColCon.Exact]) hne
    | check => rfl
  refine ⟨out ++ [x], ?_, pointwise_append hk hkx⟩
  have hl := length_le_flatten h
  rw [parseColumnConstraints, show (tss.flatten ++ (ts ++ y :: rest)).length + 1 = ((tss.flatten ++ (ts ++ y :: rest)).length - cs.length - 1 + 1 + 1) + cs.length by
    simp only [List.length_append, List.length_cons]; omega, e, e2, haft, List.nil_append, happ, columnConstraintsLoop]
  simp only [List.mem_cons, List.not_mem_nil, or_false] at hrest
  rcases hrest with h | h | h <;> simp [h]

end Ddl.Pg
