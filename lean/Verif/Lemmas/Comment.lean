import Verif.Lemmas.Apply
import Verif.Lemmas.LexAppend
import Verif.Lemmas.Gen

/-! Lemmas about comments: in front of statements, and removed from a text. -/

namespace Ddl
open Spec Cmd Ddl.Apply
set_option autoImplicit false

theorem splitC_line (c : Char) : ∀ s : Str, ∀ l ∈ splitC c s, c ∉ l ∧ ∀ x ∈ l, x ∈ s
  | [], l, h => by simp [splitC] at h; simp [h]
  | x :: s, l, h => by
    have ih := splitC_line c s
    unfold splitC at h
    split at h
    · rcases List.mem_cons.1 h with rfl | h
      · simp
      · exact ⟨(ih l h).1, fun y hy => List.mem_cons_of_mem _ ((ih l h).2 y hy)⟩
    · rename_i hx
      cases hs : splitC c s with
      | nil =>
        rw [hs] at h
        simp at h
        subst h
        simp [Ne.symm hx]
      | cons a t =>
        rw [hs] at h ih
        rcases List.mem_cons.1 h with rfl | h
        · have := ih a (by simp)
          refine ⟨by simp [Ne.symm hx, this.1], ?_⟩
          intro y hy
          rcases List.mem_cons.1 hy with rfl | hy
          · simp
          · exact List.mem_cons_of_mem _ (this.2 y hy)
        · have := ih l (by simp [h])
          exact ⟨this.1, fun y hy => List.mem_cons_of_mem _ (this.2 y hy)⟩

theorem blankRun_commentLines : ∀ ls : List Str, (∀ l ∈ ls, '\n' ∉ l ∧ nul ∉ l) → BlankRun (Ddl.commentLines ls)
  | [], _ => .nil
  | l :: ls, h => by
    have ih := blankRun_commentLines ls (fun x hx => h x (by simp [hx]))
    unfold Ddl.commentLines
    split
    · exact ih
    · have := BlankRun.comment (' ' :: l) (Ddl.commentLines ls) (by
        intro c hc
        rcases List.mem_cons.1 hc with rfl | hc
        · decide
        · have := h l (by simp)
          exact ⟨fun e => this.1 (e ▸ hc), fun e => this.2 (e ▸ hc)⟩) ih
      simpa using this

/-- A comment block is nothing but comments. -/
theorem blankRun_commentStr {c : Str} (h : nul ∉ c) : BlankRun (commentStr c) := by
  unfold commentStr
  split
  · exact .nil
  · exact blankRun_commentLines _ (fun l hl => ⟨(splitC_line '\n' c l hl).1, fun hn => h ((splitC_line '\n' c l hl).2 _ hn)⟩)

theorem shown_commentLines {rest : Str} {bodies : List Str} (hr : Shown rest bodies) : ∀ ls : List Str, (∀ l ∈ ls, '\n' ∉ l) →
    Shown (Ddl.commentLines ls ++ rest) bodies
  | [], _ => hr
  | l :: ls, h => by
    have ih := shown_commentLines hr ls (fun x hx => h x (by simp [hx]))
    unfold Ddl.commentLines
    split
    · exact ih
    · have := Shown.comment (' ' :: l) _ _ (by simpa using h l (by simp)) ih
      simpa using this

theorem shown_commentStr {rest : Str} {bodies : List Str} (hr : Shown rest bodies) (c : Str) : Shown (commentStr c ++ rest) bodies := by
  unfold commentStr
  split
  · exact hr
  · exact shown_commentLines hr _ (fun l hl => (splitC_line '\n' c l hl).1)

/-! ## The comment of a statement -/

theorem commentStr_empty : commentStr [] = [] := rfl

theorem Pg.stmtStr_bare (sd : Str → Str → Str) (s : Pg.PStmt) :
    stmtStr (Pg.ops sd) s = commentStr (commentOf s) ++ stmtStr (Pg.ops sd) (bare s) := by
  cases s <;> simp [stmtStr, commentOf, bare, HasComment.comment, HasComment.bare, Pg.ops, Pg.CreateTable.str, Pg.CreateIndex.str,
    Pg.AlterTable.str, commentStr_empty]

theorem Crdb.stmtStr_bare (sd : Str → Str → Str) (s : Crdb.CStmt) :
    stmtStr (Crdb.ops sd) s = commentStr (commentOf s) ++ stmtStr (Crdb.ops sd) (bare s) := by
  cases s <;> simp [stmtStr, commentOf, bare, HasComment.comment, HasComment.bare, Crdb.ops, Crdb.CreateTable.str, Crdb.CreateIndex.str,
    Crdb.AlterTable.str, commentStr_empty]

theorem My.stmtStr_bare (sd : Str → Str → Str) (s : My.MStmt) :
    stmtStr (My.ops sd) s = commentStr (commentOf s) ++ stmtStr (My.ops sd) (bare s) := by
  cases s <;> simp [stmtStr, commentOf, bare, HasComment.comment, HasComment.bare, My.ops, My.CreateTable.str, My.CreateIndex.str,
    My.AlterTable.str, commentStr_empty]

theorem Sp.stmtStr_bare (sd : Str → Str → Str) (s : Sp.SStmt) :
    stmtStr (Sp.ops sd) s = commentStr (commentOf s) ++ stmtStr (Sp.ops sd) (bare s) := by
  cases s <;> simp [stmtStr, commentOf, bare, HasComment.comment, HasComment.bare, Sp.ops, Sp.CreateTable.str, Sp.CreateIndex.str,
    Sp.AlterTable.str, commentStr_empty]

theorem Pg.stmtStr_end (sd : Str → Str → Str) (s : Pg.PStmt) : ∃ b, stmtStr (Pg.ops sd) s = b ++ s%";\n" := by
  cases s
  case createIndex i =>
    exact ⟨_ ++ [')'], (List.append_assoc _ [')'] s%";\n").symm⟩
  all_goals exact ⟨_, rfl⟩

theorem Crdb.stmtStr_end (sd : Str → Str → Str) (s : Crdb.CStmt) : ∃ b, stmtStr (Crdb.ops sd) s = b ++ s%";\n" := by
  cases s <;> exact ⟨_, rfl⟩

theorem My.stmtStr_end (sd : Str → Str → Str) (s : My.MStmt) : ∃ b, stmtStr (My.ops sd) s = b ++ s%";\n" := by
  cases s
  case createIndex i =>
    exact ⟨_ ++ [')'], (List.append_assoc _ [')'] s%";\n").symm⟩
  all_goals exact ⟨_, rfl⟩

theorem Sp.stmtStr_end (sd : Str → Str → Str) (s : Sp.SStmt) : ∃ b, stmtStr (Sp.ops sd) s = b ++ s%";\n" := by
  cases s
  case createIndex i =>
    exact ⟨_ ++ [')'], (List.append_assoc _ [')'] s%";\n").symm⟩
  all_goals exact ⟨_, rfl⟩

section
variable {T I A N : Type} [HasComment T] [HasComment I] [HasComment A] {o : Ops T I A N}

theorem lex_comment_stmt {d : Dialect} (ho : ∀ s, stmtStr o s = commentStr (commentOf s) ++ stmtStr o (bare s)) {s : Stmt T I A N}
    (h : nul ∉ commentOf s) (rest : Str) : lex d (stmtStr o s ++ rest) = lex d (stmtStr o (bare s) ++ rest) := by
  rw [ho s, List.append_assoc, lex_append (writes_blankRun (blankRun_commentStr h)) (noMerge_blankRun (blankRun_commentStr h) _)]
  rfl

theorem lex_comment_ddl {d : Dialect} (ho : ∀ s, stmtStr o s = commentStr (commentOf s) ++ stmtStr o (bare s)) :
    ∀ (l : List (Stmt T I A N)), (∀ s ∈ l, nul ∉ commentOf s ∧ Complete d (stmtStr o (bare s)) ∧
      ∃ b, stmtStr o (bare s) = b ++ s%";\n") → lex d (ddlStr o l) = lex d (ddlStr o (l.map bare))
  | [], _ => rfl
  | s :: l, h => by
    obtain ⟨h1, h2, b, hb⟩ := h s (by simp)
    have ih := lex_comment_ddl ho l (fun x hx => h x (by simp [hx]))
    have hm : ∀ y, NoMerge (stmtStr o (bare s)) y := by
      intro y
      rw [hb, show b ++ s%";\n" = (b ++ [';']) ++ ['\n'] by simp]
      exact noMerge_snoc (by decide)
    have e1 : ddlStr o (s :: l) = stmtStr o s ++ ddlStr o l := rfl
    have e2 : ddlStr o ((s :: l).map bare) = stmtStr o (bare s) ++ ddlStr o (l.map bare) := rfl
    rw [e1, e2, lex_comment_stmt ho h1, lex_append h2 (hm _), lex_append h2 (hm _), ih]

theorem shown_ddlStr (ho : ∀ s, stmtStr o s = commentStr (commentOf s) ++ stmtStr o (bare s)) :
    ∀ (l : List (Stmt T I A N)) (bodies : List Str), l.map (fun s => stmtStr o (bare s)) = bodies.map (fun b => b ++ s%";\n") →
      (∀ b ∈ bodies, Clean b) → Shown (ddlStr o l) bodies
  | [], [], _, _ => .nil
  | [], _ :: _, h, _ => by simp at h
  | _ :: _, [], h, _ => by simp at h
  | s :: l, b :: bodies, h, hc => by
    simp only [List.map_cons, List.cons.injEq] at h
    have ih := shown_ddlStr ho l bodies h.2 (fun x hx => hc x (by simp [hx]))
    have e1 : ddlStr o (s :: l) = stmtStr o s ++ ddlStr o l := rfl
    rw [e1, ho s, h.1, List.append_assoc]
    exact shown_commentStr (Shown.stmt b _ _ (hc b (by simp)) ih) _

end

/-! ## Trimming blanks -/

theorem append_snoc_cases {α : Type} {L r s : List α} {x : α} (h : L ++ r = s ++ [x]) :
    (r = [] ∧ L = s ++ [x]) ∨ ∃ r', r = r' ++ [x] ∧ s = L ++ r' := by
  rcases List.eq_nil_or_concat r with rfl | ⟨r', y, rfl⟩
  · exact .inl ⟨rfl, by simpa using h⟩
  · rw [List.concat_eq_append, ← List.append_assoc] at h
    obtain ⟨h1, h2⟩ := List.append_inj' h rfl
    simp at h2
    exact .inr ⟨r', by simp [h2], h1.symm⟩

/-- Characters that can end a token. -/
def EndChar (x : Char) : Prop := x.toNat < 128 ∧ x ≠ '\x0b' ∧ x ≠ '\x0c' ∧ ¬ Blank x

theorem notNext_prefix {c : Char} {s x : Str} (h : NotNext c (s ++ x)) : NotNext c s := by
  cases s with
  | nil => simp [NotNext]
  | cons a b => exact h

theorem wordChar_end {x : Char} (h : WordChar x) : EndChar x := by
  have hb : ∀ a b : Char, a ≤ b → a.toNat ≤ b.toNat := fun a b h => h
  have h128 : x.toNat < 128 := by
    rcases h with h | h | h | h | h
    · have := hb _ _ h.2; exact Nat.lt_of_le_of_lt this (by decide)
    · have := hb _ _ h.2; exact Nat.lt_of_le_of_lt this (by decide)
    · have := hb _ _ h.2; exact Nat.lt_of_le_of_lt this (by decide)
    · subst h; decide
    · subst h; decide
  refine ⟨h128, ?_, ?_, ?_⟩
  · rintro rfl; revert h; decide
  · rintro rfl; revert h; decide
  · intro hbl
    simp only [Blank, List.mem_cons, List.not_mem_nil, or_false] at hbl
    rcases hbl with rfl | rfl | rfl | rfl <;> revert h <;> decide

theorem quote_end {d : Dialect} {x : Char} (h : x ∈ quotes d) : EndChar x := by
  cases d <;> simp [quotes] at h <;> rcases h with rfl | rfl | rfl <;> simp [EndChar, Blank]

theorem symbol_end {x : Char} {t : TokType} (h : (x, t) ∈ symbols) : EndChar x := by
  have : ∀ p ∈ symbols, p.1.toNat < 128 ∧ p.1 ≠ '\x0b' ∧ p.1 ≠ '\x0c' ∧ p.1 ∉ [' ', '\t', '\n', '\r'] := by decide
  exact this (x, t) h

/-- The last character of a text without comments and illegal characters: a blank, which can be left out, or the end of a token. -/
theorem Spec.Writes.lastChar {d : Dialect} {y : Str} {ts : List Token} (h : Writes d false y ts) (hd : hasDashes y = false)
    (hn : Spec.nul ∉ y) (hi : ∀ t ∈ ts, t.type ≠ .ILLEGAL) :
    ∀ s x, y = s ++ [x] → (Blank x ∧ Writes d false s ts) ∨ EndChar x := by
  induction h with
  | nil => intro s x e; simp at e
  | blank c r ts hc hw ih =>
    intro s x e
    rcases append_snoc_cases (L := [c]) e with ⟨rfl, h2⟩ | ⟨r', rfl, rfl⟩
    · have : s = [] ∧ c = x := by
        cases s with
        | nil => simpa using h2
        | cons a b => simp at h2
      obtain ⟨rfl, rfl⟩ := this
      exact .inl ⟨hc, hw⟩
    · rcases ih (hasDashes_tail (a := [c]) hd) (fun h => hn (List.mem_cons_of_mem _ h)) hi r' x rfl with h | h
      · exact .inl ⟨h.1, .blank c r' ts hc h.2⟩
      · exact .inr h
  | comment body r ts hb hr hw ih => simp [hasDashes] at hd
  | word w t r ts hne hw ht hnn hwr ih =>
    intro s x e
    rcases append_snoc_cases e with ⟨rfl, h2⟩ | ⟨r', rfl, rfl⟩
    · exact .inr (wordChar_end (hw x (by simp [h2])))
    · rcases ih (hasDashes_tail hd) (fun h => hn (List.mem_append_right _ h)) (fun t ht => hi t (by simp [ht])) r' x rfl with h | h
      · exact .inl ⟨h.1, .word w t r' ts hne hw ht (fun c hc => notNext_prefix (hnn c hc)) h.2⟩
      · exact .inr h
  | quoted q e body r ts hq hb he hwr ih =>
    intro s x e'
    rw [show q :: body ++ e :: r = (q :: body ++ [e]) ++ r by simp] at e' hd hn
    rcases append_snoc_cases e' with ⟨rfl, h2⟩ | ⟨r', rfl, rfl⟩
    · right
      obtain ⟨-, h3⟩ := List.append_inj' h2 rfl
      simp at h3
      subst h3
      rcases he with rfl | rfl
      · exact quote_end hq
      · simp at hn
    · rcases ih (hasDashes_tail hd) (fun h => hn (List.mem_append_right _ h)) (fun t ht => hi t (by simp [ht])) r' x rfl with h | h
      · refine .inl ⟨h.1, ?_⟩
        have := Writes.quoted q e body r' ts hq hb he h.2
        simpa using this
      · exact .inr h
  | concat r ts ho hwr ih =>
    intro s x e
    rcases append_snoc_cases e with ⟨rfl, h2⟩ | ⟨r', rfl, rfl⟩
    · right
      have := congrArg List.getLast? h2
      simp at this
      subst this
      simp [EndChar, Blank]
    · rcases ih (hasDashes_tail hd) (fun h => hn (List.mem_append_right _ h)) (fun t ht => hi t (by simp [ht])) r' x rfl with h | h
      · exact .inl ⟨h.1, .concat r' ts ho h.2⟩
      · exact .inr h
  | pipe r ts ho hnn hwr ih => exact absurd rfl (hi _ (List.mem_cons_self ..))
  | annotation r ts ho hwr ih =>
    intro s x e
    rcases append_snoc_cases e with ⟨rfl, h2⟩ | ⟨r', rfl, rfl⟩
    · right
      have := congrArg List.getLast? h2
      simp at this
      subst this
      simp [EndChar, Blank]
    · rcases ih (hasDashes_tail hd) (fun h => hn (List.mem_append_right _ h)) (fun t ht => hi t (by simp [ht])) r' x rfl with h | h
      · exact .inl ⟨h.1, .annotation r' ts ho h.2⟩
      · exact .inr h
  | typecast r ts ho hnn hwr ih =>
    intro s x e
    rcases append_snoc_cases e with ⟨rfl, h2⟩ | ⟨r', rfl, rfl⟩
    · right
      have := congrArg List.getLast? h2
      simp at this
      subst this
      simp [EndChar, Blank]
    · rcases ih (hasDashes_tail hd) (fun h => hn (List.mem_append_right _ h)) (fun t ht => hi t (by simp [ht])) r' x rfl with h | h
      · exact .inl ⟨h.1, .typecast r' ts ho (fun hc => notNext_prefix (hnn hc)) h.2⟩
      · exact .inr h
  | colon r ts ho hnn hwr ih => exact absurd rfl (hi _ (List.mem_cons_self ..))
  | symbol c t r ts hs hc hwr ih =>
    intro s x e
    rcases append_snoc_cases (L := [c]) e with ⟨rfl, h2⟩ | ⟨r', rfl, rfl⟩
    · have : s = [] ∧ c = x := by
        cases s with
        | nil => simpa using h2
        | cons a b => simp at h2
      obtain ⟨rfl, rfl⟩ := this
      exact .inr (symbol_end hs)
    · rcases ih (hasDashes_tail (a := [c]) hd) (fun h => hn (List.mem_cons_of_mem _ h)) (fun t ht => hi t (by simp [ht])) r' x rfl with h | h
      · exact .inl ⟨h.1, .symbol c t r' ts hs (fun e => notNext_prefix (hc e)) h.2⟩
      · exact .inr h
  | nul r ts hwr ih => simp at hn
  | illegal c r ts ho hwr ih => exact absurd rfl (hi _ (List.mem_cons_self ..))

/-- A text without comments, NUL, open quotes and illegal characters. -/
structure Plain (d : Dialect) (s : Str) : Prop where
  noDashes : hasDashes s = false
  noNul : Spec.nul ∉ s
  toks : ∀ t ∈ lex d s, t.type ≠ .PANIC ∧ t.type ≠ .ILLEGAL

theorem Plain.writes {d : Dialect} {s : Str} (h : Plain d s) : Writes d false s (lex d s) :=
  writes_noDashes (fun t ht => (h.toks t ht).1) h.noDashes

theorem hasDashes_iff : ∀ s : Str, hasDashes s = true ↔ s%"--" <:+: s
  | [] => by simp [hasDashes]
  | c :: r => by
    rw [hasDashes, Bool.or_eq_true, hasDashes_iff r, List.infix_cons_iff]
    cases r with
    | nil => simp
    | cons e r => simp; rw [@eq_comm _ c '-', @eq_comm _ e '-']

theorem hasDashes_false {s : Str} : hasDashes s = false ↔ ¬ s%"--" <:+: s := by
  rw [← hasDashes_iff]; simp

theorem hasDashes_init {a b : Str} (h : hasDashes (a ++ b) = false) : hasDashes a = false :=
  hasDashes_false.2 fun h' => hasDashes_false.1 h (h'.trans (List.prefix_append _ _).isInfix)

theorem spaces_cases : ∀ p ∈ spaces, (∃ c ∈ p, p = [c] ∧ c ∈ [' ', '\t', '\n', '\r']) ∨
    ∃ c ∈ p, p.head? = some c ∧ c ∈ ['\x0b', '\x0c', '\xc2', '\xe1', '\xe2', '\xe3'] := by decide

theorem spaces_last : ∀ p ∈ spaces, (∃ c ∈ p, p = [c] ∧ c ∈ [' ', '\t', '\n', '\r']) ∨
    ∃ c ∈ p, p.getLast? = some c ∧ c ∉ [' ', '\t', '\n', '\r'] ∧ (128 ≤ c.toNat ∨ c = '\x0b' ∨ c = '\x0c') := by decide

theorem lexHead_odd (d : Dialect) {c : Char} (r : Str) (h : c ∈ ['\x0b', '\x0c', '\xc2', '\xe1', '\xe2', '\xe3']) :
    (lexHead d c r).1.type = .ILLEGAL := by
  simp only [List.mem_cons, List.not_mem_nil, or_false] at h
  rcases h with rfl | rfl | rfl | rfl | rfl | rfl <;> cases d <;> rfl

theorem Plain.front {d : Dialect} {p r : Str} (h : Plain d (p ++ r)) (hp : p ∈ spaces) : Plain d r ∧ lex d (p ++ r) = lex d r := by
  rcases spaces_cases p hp with ⟨c, -, rfl, hc⟩ | ⟨c, -, hh, hc⟩
  · have hw : isWs c = true := by
      simp only [List.mem_cons, List.not_mem_nil, or_false] at hc
      rcases hc with rfl | rfl | rfl | rfl <;> rfl
    have e : lex d ([c] ++ r) = lex d r := lex_ws d c r hw
    refine ⟨⟨hasDashes_tail h.noDashes, fun hn => h.noNul (List.mem_append_right _ hn), ?_⟩, e⟩
    rw [← e]; exact h.toks
  · exfalso
    cases p with
    | nil => simp at hh
    | cons x p =>
      simp at hh
      subst hh
      have hw : isWs x = false ∧ x ≠ '-' := by
        simp only [List.mem_cons, List.not_mem_nil, or_false] at hc
        rcases hc with rfl | rfl | rfl | rfl | rfl | rfl <;> decide
      have e := lex_tok d x (p ++ r) hw.1 (fun h => hw.2 h.1)
      have := h.toks (lexHead d x (p ++ r)).1 (by rw [List.cons_append, e]; simp)
      exact this.2 (lexHead_odd d _ hc)

theorem Plain.back {d : Dialect} {p r : Str} (h : Plain d (r ++ p)) (hp : p ∈ spaces) : Plain d r ∧ lex d (r ++ p) = lex d r := by
  have key : ∀ s x, r ++ p = s ++ [x] → (Blank x ∧ Writes d false s (lex d (r ++ p))) ∨ EndChar x :=
    h.writes.lastChar h.noDashes h.noNul (fun t ht => (h.toks t ht).2)
  rcases spaces_last p hp with ⟨c, -, rfl, hc⟩ | ⟨c, -, hh, hc, ho⟩
  · rcases key r c rfl with ⟨-, hw⟩ | he
    · have e : lex d r = lex d (r ++ [c]) := lex_of_writes hw.mono
      refine ⟨⟨hasDashes_init h.noDashes, fun hn => h.noNul (List.mem_append_left _ hn), ?_⟩, e.symm⟩
      rw [e]; exact h.toks
    · exact absurd hc he.2.2.2
  · exfalso
    obtain ⟨p', rfl⟩ := List.getLast?_eq_some_iff.1 hh
    rcases key (r ++ p') c (by simp) with ⟨hb, -⟩ | he
    · exact hc hb
    · rcases ho with ho | ho | ho
      · exact absurd he.1 (by omega)
      · exact he.2.1 ho
      · exact he.2.2.1 ho

theorem Plain.trimFront {d : Dialect} : ∀ (n : Nat) {s : Str}, Plain d s →
    Plain d (trimFront spaces n s) ∧ lex d (trimFront spaces n s) = lex d s
  | 0, _, h => ⟨h, rfl⟩
  | n + 1, s, h => by
    unfold Apply.trimFront
    split
    · rename_i p hp
      have hpm := List.mem_of_find?_eq_some hp
      obtain ⟨r, rfl⟩ : p <+: s := by
        have := List.find?_some hp
        simpa [hasPrefix] using this
      have h1 := h.front hpm
      have h2 := Plain.trimFront n h1.1
      rw [List.drop_left]
      exact ⟨h2.1, h2.2.trans h1.2.symm⟩
    · exact ⟨h, rfl⟩

theorem Plain.trimBack {d : Dialect} : ∀ (n : Nat) {s : Str}, Plain d s.reverse →
    Plain d (Apply.trimFront (spaces.map List.reverse) n s).reverse ∧
      lex d (Apply.trimFront (spaces.map List.reverse) n s).reverse = lex d s.reverse
  | 0, _, h => ⟨h, rfl⟩
  | n + 1, s, h => by
    unfold Apply.trimFront
    split
    · rename_i p hp
      obtain ⟨p, hpm, rfl⟩ := List.mem_map.1 (List.mem_of_find?_eq_some hp)
      obtain ⟨r, rfl⟩ : p.reverse <+: s := by
        have := List.find?_some hp
        simpa [hasPrefix] using this
      rw [List.reverse_append, List.reverse_reverse] at h ⊢
      have h1 := h.back hpm
      have h2 := Plain.trimBack n h1.1
      rw [List.drop_left]
      exact ⟨h2.1, h2.2.trans h1.2.symm⟩
    · exact ⟨h, rfl⟩

theorem Plain.trimSpace {d : Dialect} {s : Str} (h : Plain d s) : Plain d (trimSpace s) ∧ lex d (Apply.trimSpace s) = lex d s := by
  have h1 := Plain.trimFront s.length h
  have h2 := Plain.trimBack (s := (Apply.trimFront spaces s.length s).reverse) (Apply.trimFront spaces s.length s).length
    (by rw [List.reverse_reverse]; exact h1.1)
  rw [List.reverse_reverse] at h2
  exact ⟨h2.1, h2.2.trans h1.2⟩

theorem Plain.dropCR {d : Dialect} {s : Str} (h : Plain d s) : Plain d (dropCR s) ∧ lex d (Apply.dropCR s) = lex d s := by
  unfold Apply.dropCR
  split
  · rename_i hl
    obtain ⟨s', rfl⟩ := List.getLast?_eq_some_iff.1 hl
    rw [List.dropLast_concat]
    have := h.back (p := s%"\r") (by decide)
    exact ⟨this.1, this.2.symm⟩
  · exact ⟨h, rfl⟩

/-- What is written for a line of code. -/
theorem Plain.kept {d : Dialect} {s : Str} (h : Plain d s) (rest : Str) :
    lex d ((if s = [] then [] else s ++ s%"\n") ++ rest) = lex d s ++ lex d rest := by
  split
  · subst_vars; simp
  · rw [List.append_assoc, List.singleton_append, lex_append h.writes (noMerge_cons (by decide)), lex_ws d _ _ (by decide)]

theorem onlyComment {d : Dialect} {comment : Str} : ∀ (n : Nat) {code : Str}, Plain d code →
    hasDashes (code ++ s%"-") = false → s%"--" <+: Apply.trimFront spaces n (code ++ '-' :: comment) → lex d code = []
  | n, [], _, _, _ => by simp
  | 0, c :: code, _, hd, hp => by
    exfalso
    apply hasDashes_false.1 hd
    unfold Apply.trimFront at hp
    cases code with
    | nil => simp at hp; subst hp; exact List.infix_refl _
    | cons e code =>
      simp at hp
      obtain ⟨rfl, rfl⟩ := hp
      exact ⟨[], code ++ ['-'], by simp⟩
  | n + 1, c :: code, h, hd, hp => by
    unfold Apply.trimFront at hp
    split at hp
    · rename_i p hpf
      have hpm := List.mem_of_find?_eq_some hpf
      have hpp : p <+: c :: code ++ '-' :: comment := by
        have := List.find?_some hpf
        simpa [hasPrefix] using this
      have hle : p.length ≤ (c :: code).length := by
        by_contra hlt
        apply spaces_noDash p hpm
        rw [List.prefix_iff_eq_take.1 hpp]
        have : p.length = (c :: code).length + (p.length - (c :: code).length - 1 + 1) := by omega
        rw [this, List.take_length_add_append, List.take_succ_cons]
        simp
      obtain ⟨r, hr⟩ : p <+: c :: code := List.prefix_of_prefix_length_le hpp (List.prefix_append _ _) hle
      rw [← hr] at h hd hp ⊢
      have h1 := h.front hpm
      rw [h1.2]
      rw [List.append_assoc, List.drop_left] at hp
      exact onlyComment n h1.1 (by rw [List.append_assoc] at hd; exact hasDashes_tail hd) hp
    · exact onlyComment 0 h hd hp

theorem before_first : ∀ {code : Str} (y : Str), hasDashes (code ++ s%"-") = false → before s%"--" (code ++ '-' :: '-' :: y) = some code
  | [], y, _ => by simp [before, hasPrefix]
  | c :: code, y, h => by
    have h1 : hasPrefix (c :: (code ++ '-' :: '-' :: y)) s%"--" = false := by
      rw [Bool.eq_false_iff]
      intro h'
      apply hasDashes_false.1 h
      simp only [hasPrefix] at h'
      cases code with
      | nil => simp at h'; subst h'; exact List.infix_refl _
      | cons e code =>
        simp at h'
        obtain ⟨rfl, rfl⟩ := h'
        exact ⟨[], code ++ ['-'], by simp⟩
    rw [List.cons_append, before, h1, before_first y (hasDashes_tail (a := [c]) h)]
    rfl

theorem dropCR_after (a : Str) (y : Str) : ∃ y', Apply.dropCR (a ++ '-' :: '-' :: y) = a ++ '-' :: '-' :: y' := by
  unfold Apply.dropCR
  split
  · rename_i h
    rcases List.eq_nil_or_concat y with rfl | ⟨y', z, rfl⟩
    · simp at h
    · refine ⟨y', ?_⟩
      rw [List.concat_eq_append, show a ++ '-' :: '-' :: (y' ++ [z]) = (a ++ '-' :: '-' :: y') ++ [z] by simp, List.dropLast_concat]
  · exact ⟨y, rfl⟩

/-- One line: the tokens of its code are what is written for it. -/
theorem keepLine_lex {d : Dialect} {l : Str} (hl : '\n' ∉ l) (h : PlainLine d l) : ∃ code, lex d l = lex d code ∧
    (∀ r, lex d (l ++ '\n' :: r) = lex d code ++ lex d r) ∧
    ∀ rest, lex d (keepLine s%"--" (Apply.dropCR l) ++ rest) = lex d code ++ lex d rest := by
  obtain ⟨code, comment, rfl, hc, hd, ht⟩ := h.parts
  have hn := h.noNul
  refine ⟨code, ?_⟩
  rcases hc with rfl | ⟨y, rfl⟩
  · simp only [List.append_nil, List.take_nil] at hd hn hl ⊢
    have hp : Plain d code := ⟨hasDashes_false.2 hd, hn, ht⟩
    have hq := hp.dropCR
    refine ⟨trivial, ?_, ?_⟩
    · intro r
      rw [lex_append hp.writes (noMerge_cons (by decide)), lex_ws d _ _ (by decide)]
    · intro rest
      rw [← hq.2, ← hq.1.kept rest]
      by_cases he : Apply.dropCR code = []
      · rw [he]; rfl
      · rw [keepLine_clean (hasDashes_false.1 hq.1.noDashes) he, if_neg he]
  · have hd' : hasDashes (code ++ s%"-") = false := hasDashes_false.2 (by simpa using hd)
    have hp : Plain d code := ⟨hasDashes_init hd', fun h => hn (List.mem_append_left _ h), ht⟩
    have hnm : ∀ z, NoMerge code ('-' :: z) := by
      intro z x w hx hw
      simp at hw
      subst hw
      refine ⟨fun hw => ?_, fun hw => ?_, by simp, by simp⟩
      · exact absurd hw.2 (by decide)
      · obtain ⟨p, rfl⟩ := List.getLast?_eq_some_iff.1 hx
        rw [hw.1] at hd'
        exact hasDashes_false.1 hd' ⟨p, [], by simp⟩
    have hy : ∀ c ∈ y, c ≠ '\n' ∧ c ≠ Spec.nul := by
      intro c hc
      exact ⟨fun e => hl (by subst e; simp [hc]), fun e => hn (by subst e; simp [hc])⟩
    refine ⟨?_, ?_, ?_⟩
    · have : lex d (s%"--" ++ y) = [] := lex_of_writes (by
        have := Writes.comment (d := d) (fin := true) y [] [] hy (.inr (.inr ⟨rfl, rfl⟩)) .nil
        simpa using this)
      rw [show code ++ (s%"--" ++ y) = code ++ '-' :: '-' :: y by simp, lex_append hp.writes (hnm _)]
      rw [show '-' :: '-' :: y = s%"--" ++ y from rfl, this]; simp
    · intro r
      have hb : BlankRun (s%"--" ++ y ++ '\n' :: []) := .comment y [] hy .nil
      have e : code ++ (s%"--" ++ y) ++ '\n' :: r = code ++ '-' :: ('-' :: y ++ ['\n'] ++ r) := by simp
      rw [e, lex_append hp.writes (hnm _)]
      rw [show '-' :: ('-' :: y ++ ['\n'] ++ r) = (s%"--" ++ y ++ '\n' :: []) ++ r by simp,
        lex_append (writes_blankRun hb) (noMerge_blankRun hb _)]
      rfl
    · intro rest
      obtain ⟨y', hy'⟩ := dropCR_after code y
      rw [show code ++ (s%"--" ++ y) = code ++ '-' :: '-' :: y by simp, hy']
      unfold keepLine
      split
      · rename_i hpre
        have h1 : s%"--" <+: Apply.trimSpace (code ++ '-' :: '-' :: y') := List.isPrefixOf_iff_prefix.1 hpre
        have h2 : Apply.trimSpace (code ++ '-' :: '-' :: y') <+:
            Apply.trimFront spaces (code ++ '-' :: '-' :: y').length (code ++ '-' :: '-' :: y') := by
          have := List.reverse_prefix.2 (trimFront_suffix (spaces.map List.reverse)
            (Apply.trimFront spaces (code ++ '-' :: '-' :: y').length (code ++ '-' :: '-' :: y')).length
            (Apply.trimFront spaces (code ++ '-' :: '-' :: y').length (code ++ '-' :: '-' :: y')).reverse)
          rwa [List.reverse_reverse] at this
        rw [onlyComment _ hp hd' (h1.trans h2)]
        rfl
      · rw [before_first y' hd']
        have ht := hp.trimSpace
        rw [← ht.2, ← ht.1.kept rest]

/-- Removing comments leaves the tokens. -/
theorem removeComments_lex {d : Dialect} {t : Str} (h : LineWise (PlainLine d) t) : lex d (removeComments s%"--" t) = lex d t := by
  induction h with
  | last l hl hp =>
    by_cases hne : l = []
    · subst hne; rfl
    · obtain ⟨code, h1, -, h3⟩ := keepLine_lex hl hp
      have e : removeComments s%"--" l = keepLine s%"--" (Apply.dropCR l) ++ [] := by
        simp [removeComments, scanLines_last hl hp.short hne]
      rw [e, h3, h1]; simp
  | line l r hl hp _ ih =>
    obtain ⟨code, -, h2, h3⟩ := keepLine_lex hl hp
    rw [removeComments_line hl hp.short, h3, h2, ih]

end Ddl
