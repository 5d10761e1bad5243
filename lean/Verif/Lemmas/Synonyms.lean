import Verif.Spec.Synonyms
import Verif.Lemmas.Grammar
import Verif.Lemmas.LexSpec
import Verif.Pg.Diff
import Verif.Crdb.Diff
import Verif.My.Diff
/-! # Types spelled with synonyms -/
set_option autoImplicit false
namespace Ddl
open Spec

theorem spelled_nil {d : Dialect} {ts : List Token} (h : SpelledAs d [] ts) : ts = [] := by cases h; rfl

theorem spelled_cons {d : Dialect} {w : Str} {ws : List Str} {ts : List Token} (h : SpelledAs d (w :: ws) ts) :
    ∃ t r, ts = t :: r ∧ t.type = lookupKw w (keywords d) ∧ SpelledAs d ws r := by
  cases h with
  | cons h hr =>
    refine ⟨_, _, rfl, ?_, hr⟩
    have := lookup_of_wordType _ _ _ h.2
    rw [← this, lookupIdent, upper, h.1]

theorem res_bind_assoc {α β γ : Type} (r : Res α) (f : α → Res β) (g : β → Res γ) : r >>= f >>= g = r >>= fun a => f a >>= g := by
  cases r <;> rfl

theorem same_bind {α β : Type} {R : β → β → Prop} (r : Res α) (f g : α → Res β) (h : ∀ a, SameOutcome R (f a) (g a)) :
    SameOutcome R (r >>= f) (r >>= g) := by
  cases r with
  | ok a => exact h a
  | err => exact rfl
  | panic => exact rfl
  | outOfFuel => trivial

namespace Pg

/-- The words spell the type `ty`. -/
def Spells (ws : List Str) (ty : TokType) : Prop :=
  ∀ (sp rest : List Token), SpelledAs .postgres ws sp → NoPanic (sp ++ rest) →
    isDataType (curT (sp ++ rest)) ∧
      ∃ (name : Str) (k : Token), NoPanic (k :: rest) ∧ parseTypeName (sp ++ rest) = .ok (name, ty, k :: rest)

theorem spells_one (w : Str) (ty : TokType) (hw : lookupKw w (keywords .postgres) = ty) (hd : isDataType ty)
    (h : ∀ (t : Token) (r : List Token), t.type = ty → ∃ name, parseTypeName (t :: r) = .ok (name, ty, t :: r)) :
    Spells [w] ty := by
  intro sp rest hs hp
  obtain ⟨t, r, rfl, ht, hr⟩ := spelled_cons hs
  obtain rfl := spelled_nil hr
  rw [hw] at ht
  obtain ⟨n, hn⟩ := h t rest ht
  refine ⟨by simpa [curT_cons, ht] using hd, n, t, hp, hn⟩

theorem spells_timestamp : Spells [s%"TIMESTAMP", s%"WITH", s%"TIME", s%"ZONE"] .TIMESTAMP_WITH_TIME_ZONE := by
  intro sp rest hs hp
  obtain ⟨t1, r, rfl, h1, hs⟩ := spelled_cons hs
  obtain ⟨t2, r, rfl, h2, hs⟩ := spelled_cons hs
  obtain ⟨t3, r, rfl, h3, hs⟩ := spelled_cons hs
  obtain ⟨t4, r, rfl, h4, hs⟩ := spelled_cons hs
  obtain rfl := spelled_nil hs
  replace h1 : t1.type = .TIMESTAMP := h1.trans (by decide +kernel)
  replace h2 : t2.type = .WITH := h2.trans (by decide +kernel)
  replace h3 : t3.type = .TIME := h3.trans (by decide +kernel)
  replace h4 : t4.type = .ZONE := h4.trans (by decide +kernel)
  simp only [List.cons_append, List.nil_append] at hp ⊢
  have p2 := hp.of_cons
  have p3 := p2.of_cons
  have p4 := p3.of_cons
  refine ⟨by simp [curT_cons, h1, isDataType], t1.lit ++ s%" " ++ t2.lit ++ s%" " ++ t3.lit ++ s%" " ++ t4.lit, t4, p4, ?_⟩
  rw [parseTypeName]
  simp [curT_cons, peekT_cons, h1, h2, h3, h4, next_cons hp, next_cons p2, next_cons p3, checkPeek, curL_cons]

/-- What `parseColumn` does after the type. -/
private def after (tbl name : Ident) (dt : DataType) (ts : List Token) : Res (Column × List Constraint × List Token) := do
  let (def_, nn, ts) ← columnAttrsLoop (ts.length + 1) none false ts
  let (cs, ts) ← parseColumnConstraints tbl name ts
  .ok (⟨name, dt, def_, nn⟩, cs.foldl appendConstraint [], ts)

theorem parseColumn_spells {ws ws' : List Str} {ty : TokType} (h : Spells ws ty) (h' : Spells ws' ty) (tbl : Ident) (n : Token)
    (sp sp' rest : List Token) (hs : SpelledAs .postgres ws sp) (hs' : SpelledAs .postgres ws' sp')
    (hp : NoPanic (n :: (sp ++ rest))) (hp' : NoPanic (n :: (sp' ++ rest))) :
    SameOutcome (fun (x x' : Column × List Constraint × List Token) => x'.2 = x.2 ∧ ∃ nm, x'.1 = {x.1 with dataType := ⟨nm, x.1.dataType.type, x.1.dataType.expr⟩})
      (parseColumn tbl (n :: (sp ++ rest))) (parseColumn tbl (n :: (sp' ++ rest))) := by
  obtain ⟨hd, nm, k, hk, e⟩ := h sp rest hs hp.of_cons
  obtain ⟨hd', nm', k', hk', e'⟩ := h' sp' rest hs' hp'.of_cons
  have hc : ∀ l : List Token, checkCur [.IDENT] (n :: l) = checkCur [.IDENT] (n :: rest) := fun l => rfl
  have hl : ∀ l : List Token, curL (n :: l) = n.lit := fun l => rfl
  have hpk : ∀ k : Token, peekT (k :: rest) = curT rest := fun _ => rfl
  unfold parseColumn
  rw [hc (sp ++ rest), hc (sp' ++ rest), hl, hl, next_cons hp, next_cons hp']
  simp only [bind_ok]
  rw [if_pos hd, if_pos hd', parseDataType, parseDataType, e, e']
  simp only [bind_ok]
  rw [hpk, hpk, next_cons hk, next_cons hk']
  refine same_bind _ _ _ fun _ => ?_
  have key : ∀ (e : Expr) (r : List Token), SameOutcome (fun (x x' : Column × List Constraint × List Token) => x'.2 = x.2 ∧ ∃ nm, x'.1 = {x.1 with dataType := ⟨nm, x.1.dataType.type, x.1.dataType.expr⟩})
      (after tbl (rawIdent n.lit) ⟨nm, ty, e⟩ r) (after tbl (rawIdent n.lit) ⟨nm', ty, e⟩ r) := by
    intro e r
    refine same_bind _ _ _ fun x => ?_
    refine same_bind _ _ _ fun y => ?_
    exact ⟨rfl, nm', rfl⟩
  by_cases hop : curT rest = .OPEN_PAREN
  · rw [if_pos hop, if_pos hop]
    simp only [res_bind_assoc]
    refine same_bind _ _ _ fun v => ?_
    simp only [bind_ok]
    refine same_bind _ _ _ fun w => ?_
    refine same_bind _ _ _ fun u => ?_
    exact key _ _
  · rw [if_neg hop, if_neg hop]
    simp only [bind_ok, next_cons hk, next_cons hk']
    exact key _ _

theorem spells_tz : Spells [s%"TIMESTAMPTZ"] .TIMESTAMP_WITH_TIME_ZONE := by
  intro sp rest hs hp
  obtain ⟨t1, r, rfl, h1, hs⟩ := spelled_cons hs
  obtain rfl := spelled_nil hs
  replace h1 : t1.type = .TIMESTAMPTZ := h1.trans (by decide +kernel)
  simp only [List.cons_append, List.nil_append] at hp ⊢
  exact ⟨by simp [curT_cons, h1, isDataType], t1.lit, t1, hp, by simp [parseTypeName, curT_cons, curL_cons, h1]⟩

theorem spells_synonyms : ∀ cl ∈ synonyms .postgres, ∃ ty, ∀ ws ∈ cl, Spells ws ty := by
  intro cl hcl
  simp only [synonyms, List.mem_cons, List.not_mem_nil, or_false] at hcl
  rcases hcl with rfl | rfl
  · refine ⟨.INTEGER, fun ws hw => ?_⟩
    simp only [List.mem_cons, List.not_mem_nil, or_false] at hw
    rcases hw with rfl | rfl
    · exact spells_one s%"INT" .INTEGER (by decide +kernel) (by decide) (fun t r h => ⟨t.lit, by simp [parseTypeName, curT_cons, curL_cons, h]⟩)
    · exact spells_one s%"INTEGER" .INTEGER (by decide +kernel) (by decide) (fun t r h => ⟨t.lit, by simp [parseTypeName, curT_cons, curL_cons, h]⟩)
  · refine ⟨.TIMESTAMP_WITH_TIME_ZONE, fun ws hw => ?_⟩
    simp only [List.mem_cons, List.not_mem_nil, or_false] at hw
    rcases hw with rfl | rfl
    · exact spells_tz
    · exact spells_timestamp

end Pg

namespace Crdb

/-- The words spell the type `ty`. -/
def Spells (ws : List Str) (ty : TokType) : Prop :=
  ∀ (sp rest : List Token), SpelledAs .cockroachdb ws sp → NoPanic (sp ++ rest) →
    isDataType (curT (sp ++ rest)) ∧
      ∃ (name : Str) (k : Token), NoPanic (k :: rest) ∧ parseTypeName (sp ++ rest) = .ok (name, ty, k :: rest)

theorem spells_one (w : Str) (ty : TokType) (hw : lookupKw w (keywords .cockroachdb) = ty) (hd : isDataType ty)
    (h : ∀ (t : Token) (r : List Token), t.type = ty → ∃ name, parseTypeName (t :: r) = .ok (name, ty, t :: r)) :
    Spells [w] ty := by
  intro sp rest hs hp
  obtain ⟨t, r, rfl, ht, hr⟩ := spelled_cons hs
  obtain rfl := spelled_nil hr
  rw [hw] at ht
  obtain ⟨n, hn⟩ := h t rest ht
  refine ⟨by simpa [curT_cons, ht] using hd, n, t, hp, hn⟩

theorem spells_timestamp : Spells [s%"TIMESTAMP", s%"WITH", s%"TIME", s%"ZONE"] .TIMESTAMPTZ := by
  intro sp rest hs hp
  obtain ⟨t1, r, rfl, h1, hs⟩ := spelled_cons hs
  obtain ⟨t2, r, rfl, h2, hs⟩ := spelled_cons hs
  obtain ⟨t3, r, rfl, h3, hs⟩ := spelled_cons hs
  obtain ⟨t4, r, rfl, h4, hs⟩ := spelled_cons hs
  obtain rfl := spelled_nil hs
  replace h1 : t1.type = .TIMESTAMP := h1.trans (by decide +kernel)
  replace h2 : t2.type = .WITH := h2.trans (by decide +kernel)
  replace h3 : t3.type = .TIME := h3.trans (by decide +kernel)
  replace h4 : t4.type = .ZONE := h4.trans (by decide +kernel)
  simp only [List.cons_append, List.nil_append] at hp ⊢
  have p2 := hp.of_cons
  have p3 := p2.of_cons
  have p4 := p3.of_cons
  refine ⟨by simp [curT_cons, h1, isDataType], t1.lit ++ s%" " ++ t2.lit ++ s%" " ++ t3.lit ++ s%" " ++ t4.lit, t4, p4, ?_⟩
  rw [parseTypeName]
  simp [curT_cons, peekT_cons, h1, h2, h3, h4, next_cons hp, next_cons p2, next_cons p3, checkPeek, curL_cons]

theorem spells_double : Spells [s%"DOUBLE", s%"PRECISION"] .FLOAT8 := by
  intro sp rest hs hp
  obtain ⟨t1, r, rfl, h1, hs⟩ := spelled_cons hs
  obtain ⟨t2, r, rfl, h2, hs⟩ := spelled_cons hs
  obtain rfl := spelled_nil hs
  replace h1 : t1.type = .DOUBLE := h1.trans (by decide +kernel)
  replace h2 : t2.type = .PRECISION := h2.trans (by decide +kernel)
  simp only [List.cons_append, List.nil_append] at hp ⊢
  have p2 := hp.of_cons
  refine ⟨by simp [curT_cons, h1, isDataType], t1.lit ++ s%" " ++ t2.lit, t2, p2, ?_⟩
  rw [parseTypeName]
  simp [curT_cons, peekT_cons, h1, h2, next_cons hp, checkPeek, curL_cons]

theorem spells_character : Spells [s%"CHARACTER", s%"VARYING"] .VARCHAR := by
  intro sp rest hs hp
  obtain ⟨t1, r, rfl, h1, hs⟩ := spelled_cons hs
  obtain ⟨t2, r, rfl, h2, hs⟩ := spelled_cons hs
  obtain rfl := spelled_nil hs
  replace h1 : t1.type = .CHARACTER := h1.trans (by decide +kernel)
  replace h2 : t2.type = .VARYING := h2.trans (by decide +kernel)
  simp only [List.cons_append, List.nil_append] at hp ⊢
  have p2 := hp.of_cons
  refine ⟨by simp [curT_cons, h1, isDataType], t1.lit ++ s%" " ++ t2.lit, t2, p2, ?_⟩
  rw [parseTypeName]
  simp [curT_cons, peekT_cons, h1, h2, next_cons hp, checkPeek, curL_cons]

/-- What `parseColumn` does after the type. -/
private def after (tbl name : Ident) (dt : DataType) (ts : List Token) : Res (Column × List Constraint × List Token) := do
  let (a, ts) ← columnAttrsLoop (ts.length + 1) ⟨none, false, false, none⟩ ts
  let (cs, ts) ← parseColumnConstraints tbl name ts
  .ok (⟨name, dt, a.default, a.notNull, a.notVisible, a.as_⟩, cs.foldl appendConstraint [], ts)

theorem parseColumn_spells {ws ws' : List Str} {ty : TokType} (h : Spells ws ty) (h' : Spells ws' ty) (tbl : Ident) (n : Token)
    (sp sp' rest : List Token) (hs : SpelledAs .cockroachdb ws sp) (hs' : SpelledAs .cockroachdb ws' sp')
    (hp : NoPanic (n :: (sp ++ rest))) (hp' : NoPanic (n :: (sp' ++ rest))) :
    SameOutcome (fun (x x' : Column × List Constraint × List Token) => x'.2 = x.2 ∧ ∃ nm, x'.1 = {x.1 with dataType := ⟨nm, x.1.dataType.type, x.1.dataType.expr⟩})
      (parseColumn tbl (n :: (sp ++ rest))) (parseColumn tbl (n :: (sp' ++ rest))) := by
  obtain ⟨hd, nm, k, hk, e⟩ := h sp rest hs hp.of_cons
  obtain ⟨hd', nm', k', hk', e'⟩ := h' sp' rest hs' hp'.of_cons
  have hc : ∀ l : List Token, checkCur [.IDENT] (n :: l) = checkCur [.IDENT] (n :: rest) := fun l => rfl
  have hl : ∀ l : List Token, curL (n :: l) = n.lit := fun l => rfl
  have hpk : ∀ k : Token, peekT (k :: rest) = curT rest := fun _ => rfl
  unfold parseColumn
  rw [hc (sp ++ rest), hc (sp' ++ rest), hl, hl, next_cons hp, next_cons hp']
  simp only [bind_ok]
  rw [if_pos hd, if_pos hd', parseDataType, parseDataType, e, e']
  simp only [bind_ok]
  rw [hpk, hpk, next_cons hk, next_cons hk']
  refine same_bind _ _ _ fun _ => ?_
  have key : ∀ (e : Expr) (r : List Token), SameOutcome (fun (x x' : Column × List Constraint × List Token) => x'.2 = x.2 ∧ ∃ nm, x'.1 = {x.1 with dataType := ⟨nm, x.1.dataType.type, x.1.dataType.expr⟩})
      (after tbl (rawIdent n.lit) ⟨nm, ty, e⟩ r) (after tbl (rawIdent n.lit) ⟨nm', ty, e⟩ r) := by
    intro e r
    refine same_bind _ _ _ fun x => ?_
    refine same_bind _ _ _ fun y => ?_
    exact ⟨rfl, nm', rfl⟩
  by_cases hop : curT rest = .OPEN_PAREN
  · rw [if_pos hop, if_pos hop]
    simp only [res_bind_assoc]
    refine same_bind _ _ _ fun v => ?_
    simp only [bind_ok]
    refine same_bind _ _ _ fun w => ?_
    refine same_bind _ _ _ fun u => ?_
    exact key _ _
  · rw [if_neg hop, if_neg hop]
    simp only [bind_ok, next_cons hk, next_cons hk']
    exact key _ _

theorem spells_synonyms : ∀ cl ∈ synonyms .cockroachdb, ∃ ty, ∀ ws ∈ cl, Spells ws ty := by
  intro cl hcl
  simp only [synonyms, List.mem_cons, List.not_mem_nil, or_false] at hcl
  rcases hcl with rfl | rfl | rfl | rfl | rfl | rfl | rfl | rfl
  · refine ⟨.BOOL, fun ws hw => ?_⟩
    simp only [List.mem_cons, List.not_mem_nil, or_false] at hw
    rcases hw with rfl | rfl
    · exact spells_one s%"BOOL" .BOOL (by decide +kernel) (by decide) (fun t r h => ⟨t.lit, by simp [parseTypeName, curT_cons, curL_cons, h]⟩)
    · exact spells_one s%"BOOLEAN" .BOOL (by decide +kernel) (by decide) (fun t r h => ⟨t.lit, by simp [parseTypeName, curT_cons, curL_cons, h]⟩)
  · refine ⟨.INT2, fun ws hw => ?_⟩
    simp only [List.mem_cons, List.not_mem_nil, or_false] at hw
    rcases hw with rfl | rfl
    · exact spells_one s%"INT2" .INT2 (by decide +kernel) (by decide) (fun t r h => ⟨t.lit, by simp [parseTypeName, curT_cons, curL_cons, h]⟩)
    · exact spells_one s%"SMALLINT" .INT2 (by decide +kernel) (by decide) (fun t r h => ⟨t.lit, by simp [parseTypeName, curT_cons, curL_cons, h]⟩)
  · refine ⟨.INT4, fun ws hw => ?_⟩
    simp only [List.mem_cons, List.not_mem_nil, or_false] at hw
    rcases hw with rfl | rfl
    · exact spells_one s%"INTEGER" .INT4 (by decide +kernel) (by decide) (fun t r h => ⟨t.lit, by simp [parseTypeName, curT_cons, curL_cons, h]⟩)
    · exact spells_one s%"INT" .INT4 (by decide +kernel) (by decide) (fun t r h => ⟨t.lit, by simp [parseTypeName, curT_cons, curL_cons, h]⟩)
  · refine ⟨.INT8, fun ws hw => ?_⟩
    simp only [List.mem_cons, List.not_mem_nil, or_false] at hw
    rcases hw with rfl | rfl
    · exact spells_one s%"INT8" .INT8 (by decide +kernel) (by decide) (fun t r h => ⟨t.lit, by simp [parseTypeName, curT_cons, curL_cons, h]⟩)
    · exact spells_one s%"BIGINT" .INT8 (by decide +kernel) (by decide) (fun t r h => ⟨t.lit, by simp [parseTypeName, curT_cons, curL_cons, h]⟩)
  · refine ⟨.FLOAT8, fun ws hw => ?_⟩
    simp only [List.mem_cons, List.not_mem_nil, or_false] at hw
    rcases hw with rfl | rfl
    · exact spells_one s%"FLOAT8" .FLOAT8 (by decide +kernel) (by decide) (fun t r h => ⟨t.lit, by simp [parseTypeName, curT_cons, curL_cons, h]⟩)
    · exact spells_double
  · refine ⟨.VARCHAR, fun ws hw => ?_⟩
    simp only [List.mem_cons, List.not_mem_nil, or_false] at hw
    rcases hw with rfl | rfl
    · exact spells_one s%"VARCHAR" .VARCHAR (by decide +kernel) (by decide) (fun t r h => ⟨t.lit, by simp [parseTypeName, curT_cons, curL_cons, h]⟩)
    · exact spells_character
  · refine ⟨.STRING, fun ws hw => ?_⟩
    simp only [List.mem_cons, List.not_mem_nil, or_false] at hw
    rcases hw with rfl | rfl
    · exact spells_one s%"TEXT" .STRING (by decide +kernel) (by decide) (fun t r h => ⟨t.lit, by simp [parseTypeName, curT_cons, curL_cons, h]⟩)
    · exact spells_one s%"STRING" .STRING (by decide +kernel) (by decide) (fun t r h => ⟨t.lit, by simp [parseTypeName, curT_cons, curL_cons, h]⟩)
  · refine ⟨.TIMESTAMPTZ, fun ws hw => ?_⟩
    simp only [List.mem_cons, List.not_mem_nil, or_false] at hw
    rcases hw with rfl | rfl
    · exact spells_one s%"TIMESTAMPTZ" .TIMESTAMPTZ (by decide +kernel) (by decide) (fun t r h => ⟨t.lit, by simp [parseTypeName, curT_cons, curL_cons, h]⟩)
    · exact spells_timestamp

end Crdb

namespace My

/-- The words spell the type `ty`. -/
def Spells (ws : List Str) (ty : TokType) : Prop :=
  ∀ (sp rest : List Token), SpelledAs .mysql ws sp → NoPanic (sp ++ rest) →
    isDataType (curT (sp ++ rest)) ∧
      ∃ (name : Str) (k : Token), NoPanic (k :: rest) ∧ parseTypeName (sp ++ rest) = .ok (name, ty, [], k :: rest)

theorem spells_one (w : Str) (ty : TokType) (hw : lookupKw w (keywords .mysql) = ty) (hd : isDataType ty)
    (h : ∀ (t : Token) (r : List Token), t.type = ty → ∃ name, parseTypeName (t :: r) = .ok (name, ty, [], t :: r)) :
    Spells [w] ty := by
  intro sp rest hs hp
  obtain ⟨t, r, rfl, ht, hr⟩ := spelled_cons hs
  obtain rfl := spelled_nil hr
  rw [hw] at ht
  obtain ⟨n, hn⟩ := h t rest ht
  refine ⟨by simpa [curT_cons, ht] using hd, n, t, hp, hn⟩

theorem spells_character : Spells [s%"CHARACTER", s%"VARYING"] .VARCHAR := by
  intro sp rest hs hp
  obtain ⟨t1, r, rfl, h1, hs⟩ := spelled_cons hs
  obtain ⟨t2, r, rfl, h2, hs⟩ := spelled_cons hs
  obtain rfl := spelled_nil hs
  replace h1 : t1.type = .CHARACTER := h1.trans (by decide +kernel)
  replace h2 : t2.type = .VARYING := h2.trans (by decide +kernel)
  simp only [List.cons_append, List.nil_append] at hp ⊢
  have p2 := hp.of_cons
  refine ⟨by simp [curT_cons, h1, isDataType], t1.lit ++ s%" " ++ t2.lit, t2, p2, ?_⟩
  rw [parseTypeName]
  simp [curT_cons, peekT_cons, h1, h2, next_cons hp, checkPeek, curL_cons]

/-- What `parseColumn` does after the type. -/
private def after (tbl name : Ident) (dt : DataType) (ts : List Token) : Res (Column × List Constraint × List Token) := do
  let (a, ts) ← columnAttrsLoop (ts.length + 1) ⟨none, none, none, false, false, []⟩ ts
  let (cs, ts) ← parseColumnConstraints tbl name ts
  let (cm, ts) ← parseComment ts
  .ok (⟨name, dt, a.characterSet, a.collate, a.default, a.notNull, a.autoIncrement, a.onAction, cm⟩,
    cs.foldl appendConstraint [], ts)

theorem parseColumn_spells {ws ws' : List Str} {ty : TokType} (h : Spells ws ty) (h' : Spells ws' ty) (tbl : Ident) (n : Token)
    (sp sp' rest : List Token) (hs : SpelledAs .mysql ws sp) (hs' : SpelledAs .mysql ws' sp')
    (hp : NoPanic (n :: (sp ++ rest))) (hp' : NoPanic (n :: (sp' ++ rest))) :
    SameOutcome (fun (x x' : Column × List Constraint × List Token) => x'.2 = x.2 ∧ ∃ nm, x'.1 = {x.1 with dataType := ⟨nm, x.1.dataType.type, x.1.dataType.expr⟩})
      (parseColumn tbl (n :: (sp ++ rest))) (parseColumn tbl (n :: (sp' ++ rest))) := by
  obtain ⟨hd, nm, k, hk, e⟩ := h sp rest hs hp.of_cons
  obtain ⟨hd', nm', k', hk', e'⟩ := h' sp' rest hs' hp'.of_cons
  have hc : ∀ l : List Token, checkCur [.IDENT] (n :: l) = checkCur [.IDENT] (n :: rest) := fun l => rfl
  have hl : ∀ l : List Token, curL (n :: l) = n.lit := fun l => rfl
  have hpk : ∀ k : Token, peekT (k :: rest) = curT rest := fun _ => rfl
  unfold parseColumn
  rw [hc (sp ++ rest), hc (sp' ++ rest), hl, hl, next_cons hp, next_cons hp']
  simp only [bind_ok]
  rw [if_pos hd, if_pos hd', parseDataType, parseDataType, e, e']
  simp only [bind_ok]
  rw [hpk, hpk, next_cons hk, next_cons hk']
  refine same_bind _ _ _ fun _ => ?_
  have key : ∀ (e : Expr) (r : List Token), SameOutcome (fun (x x' : Column × List Constraint × List Token) => x'.2 = x.2 ∧ ∃ nm, x'.1 = {x.1 with dataType := ⟨nm, x.1.dataType.type, x.1.dataType.expr⟩})
      (after tbl (rawIdent n.lit) ⟨nm, ty, e⟩ r) (after tbl (rawIdent n.lit) ⟨nm', ty, e⟩ r) := by
    intro e r
    refine same_bind _ _ _ fun x => ?_
    refine same_bind _ _ _ fun y => ?_
    refine same_bind _ _ _ fun z => ?_
    exact ⟨rfl, nm', rfl⟩
  by_cases hop : curT rest = .OPEN_PAREN
  · rw [if_pos hop, if_pos hop]
    simp only [res_bind_assoc]
    refine same_bind _ _ _ fun v => ?_
    simp only [bind_ok]
    refine same_bind _ _ _ fun w => ?_
    refine same_bind _ _ _ fun u => ?_
    exact key _ _
  · rw [if_neg hop, if_neg hop]
    simp only [bind_ok, next_cons hk, next_cons hk']
    exact key _ _

theorem spells_synonyms : ∀ cl ∈ synonyms .mysql, ∃ ty, ∀ ws ∈ cl, Spells ws ty := by
  intro cl hcl
  simp only [synonyms, List.mem_cons, List.not_mem_nil, or_false] at hcl
  rcases hcl with rfl | rfl
  · refine ⟨.INTEGER, fun ws hw => ?_⟩
    simp only [List.mem_cons, List.not_mem_nil, or_false] at hw
    rcases hw with rfl | rfl
    · exact spells_one s%"INT" .INTEGER (by decide +kernel) (by decide) (fun t r h => ⟨t.lit, by simp [parseTypeName, curT_cons, curL_cons, h]⟩)
    · exact spells_one s%"INTEGER" .INTEGER (by decide +kernel) (by decide) (fun t r h => ⟨t.lit, by simp [parseTypeName, curT_cons, curL_cons, h]⟩)
  · refine ⟨.VARCHAR, fun ws hw => ?_⟩
    simp only [List.mem_cons, List.not_mem_nil, or_false] at hw
    rcases hw with rfl | rfl
    · exact spells_one s%"VARCHAR" .VARCHAR (by decide +kernel) (by decide) (fun t r h => ⟨t.lit, by simp [parseTypeName, curT_cons, curL_cons, h]⟩)
    · exact spells_character

end My

end Ddl
