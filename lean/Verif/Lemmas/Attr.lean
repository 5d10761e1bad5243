import Verif.Spec.Attr
import Verif.Lemmas.Content
import Verif.Lemmas.TableDiff
import Verif.Lemmas.Join
import Verif.Lemmas.TokStr

/-! # Attributes of columns and tables -/

namespace Ddl
open Spec

variable {sd : Str → Str → Str}

theorem flatten_intersperse {c : Char} {ws : List Str} : (ws.intersperse [c]).flatten = join [c] ws := by
  induction ws with
  | nil => rfl
  | cons a ws ih =>
    cases ws with
    | nil => simp [join]
    | cons b ws => simp [join, ← ih]

theorem commaList_inj {l r : List Str} (hl : CommaList l) (hr : CommaList r) (h : l.flatten = r.flatten) : l = r := by
  obtain ⟨ws, rfl, h1⟩ := hl
  obtain ⟨vs, rfl, h2⟩ := hr
  rw [flatten_intersperse, flatten_intersperse] at h
  rw [join_inj h1 h2 h]

/-- The text of a type determines the type and its arguments. -/
theorem typeText_inj {t t' : TokType} {e e' : Expr} (h1 : CommaList (e.map Ident.name)) (h2 : CommaList (e'.map Ident.name))
    (h : t.str ++ (if e = [] then [] else s%"(" ++ (e.map Ident.diffStr).flatten ++ s%")") =
      t'.str ++ (if e' = [] then [] else s%"(" ++ (e'.map Ident.diffStr).flatten ++ s%")")) :
    t = t' ∧ e.map Ident.name = e'.map Ident.name := by
  by_cases he : e = [] <;> by_cases he' : e' = []
  · simp only [he, he', if_true, List.append_nil] at h
    exact ⟨TokType.str_inj h, by simp [he, he']⟩
  · simp only [he, he', if_true, if_false, List.append_nil] at h
    exact absurd (by rw [h]; simp) (TokType.str_paren t)
  · simp only [he, he', if_true, if_false, List.append_nil] at h
    exact absurd (by rw [← h]; simp) (TokType.str_paren t')
  · simp only [he, he', if_false, List.cons_append, List.nil_append] at h
    obtain ⟨h3, h4⟩ := append_sep_inj (TokType.str_paren t) (TokType.str_paren t') h
    exact ⟨TokType.str_inj h3, commaList_inj h1 h2 (List.append_cancel_right h4)⟩

theorem join_blank_inj {l r : List Str} (hl : Blankless l) (hr : Blankless r) (h : join s%" " l = join s%" " r) : l = r :=
  join_inj hl hr h

/-- Folding over statements that do not touch the state. -/
theorem foldl_noop {α β : Type} {f : β → α → β} {l : List α} {b : β} (h : ∀ x ∈ l, ∀ b, f b x = b) : l.foldl f b = b := by
  induction l generalizing b with
  | nil => rfl
  | cons x l ih =>
    rw [List.foldl_cons, h x (by simp)]
    exact ih (fun y hy => h y (by simp [hy]))

namespace My

theorem defaultDiffStr_eq_nil {d : Option Default} : defaultDiffStr d = [] ↔ d.bind (·.value) = none := by
  match d with
  | none => simp [defaultDiffStr]
  | some ⟨none⟩ => simp [defaultDiffStr]
  | some ⟨some e⟩ => simp [defaultDiffStr]

theorem defaultWords_of {c c' : Column} (h1 : Blankless (c.defaultWords.getD [])) (h2 : Blankless (c'.defaultWords.getD []))
    (h : defaultDiffStr c.default = defaultDiffStr c'.default) : c.defaultWords = c'.defaultWords := by
  unfold Column.defaultWords at *
  match hc : c.default, hc' : c'.default with
  | none, none => rfl
  | none, some ⟨none⟩ => rfl
  | some ⟨none⟩, none => rfl
  | some ⟨none⟩, some ⟨none⟩ => rfl
  | none, some ⟨some e⟩ => simp [hc, hc', defaultDiffStr] at h
  | some ⟨none⟩, some ⟨some e⟩ => simp [hc, hc', defaultDiffStr] at h
  | some ⟨some e⟩, none => simp [hc, hc', defaultDiffStr] at h
  | some ⟨some e⟩, some ⟨none⟩ => simp [hc, hc', defaultDiffStr] at h
  | some ⟨some e⟩, some ⟨some e'⟩ =>
    simp only [hc, hc', defaultDiffStr] at h h1 h2
    have := join_blank_inj h1 h2 (List.append_cancel_left h)
    simpa using this

/-- If no MODIFY is needed the columns have the same attributes, up to the default. -/
theorem same_of_not_needsModify {b a : Column} (hn : b.name.name = a.name.name) (hb : b.Plain) (ha : a.Plain)
    (h : ¬ needsModify b a) : SameColumn (if dropDefault b a then { b with default := none } else b) a := by
  simp only [needsModify, not_or, not_and, ne_eq, not_not] at h
  obtain ⟨h1, h2, h3, h4, h5, h6, h7, h8⟩ := h
  obtain ⟨ht, he⟩ := typeText_inj hb.1 ha.1 h1
  have e1 : ∀ {i j : Option Ident}, identDiffStr i = identDiffStr j → optName i = optName j := by
    intro i j h
    cases i <;> cases j <;> exact h
  by_cases hd : dropDefault b a = true
  · simp only [hd, if_true]
    refine ⟨hn, ht, he, e1 h2, e1 h3, h4, ?_, h6, h7, h8⟩
    simp only [dropDefault, Bool.and_eq_true, Option.isNone_iff_eq_none] at hd
    simp [Column.defaultWords, hd.2]
  · rw [if_neg hd]
    exact ⟨hn, ht, he, e1 h2, e1 h3, h4, defaultWords_of hb.2 ha.2 (h5 hd), h6, h7, h8⟩

/-- The effect of the statements for one kept column. -/
def runAlter (b a : Column) : Column :=
  let c := if needsModify b a then { a with characterSet := none } else b
  if dropDefault b a then { c with default := none } else c

theorem foldl_alterColumn {tn : ObjectName} {b a : Column} {n : Str} (hn : a.name.name = n) :
    ((alterColumn sd tn b a).map Stmt.alterTable).foldl (runColumn n) b = runAlter b a := by
  simp only [alterColumn, runAlter]
  by_cases h1 : needsModify b a <;> by_cases h2 : dropDefault b a = true <;>
    simp [h1, h2, runColumn, modifyOf, hn]

theorem alterColumn_other {tn : ObjectName} {b a : Column} {n : Str} (hn : a.name.name ≠ n) :
    ∀ x ∈ (alterColumn sd tn b a).map Stmt.alterTable, ∀ c, runColumn n c x = c := by
  intro x hx c
  simp only [alterColumn, List.map_append, List.mem_append] at hx
  rcases hx with hx | hx <;> split at hx <;> simp at hx <;> subst hx <;> simp [runColumn, modifyOf, hn]

theorem columnRound_other {tn : ObjectName} {after : List Column} {b : Column} {n : Str} (hn : b.name.name ≠ n) :
    ∀ x ∈ (columnRound sd tn after b).map Stmt.alterTable, ∀ c, runColumn n c x = c := by
  simp only [columnRound]
  split
  · intro x hx c
    simp at hx
    subst hx
    rfl
  · rename_i a h
    obtain ⟨_, e⟩ := find?_some_mem (f := fun c : Column => c.name.name) h
    exact alterColumn_other (by rw [e]; exact hn)

theorem foldl_diffColumns {tn : ObjectName} {cs cs' : List Column} (hd : (cs.map (·.name.name)).Nodup)
    (hd' : (cs'.map (·.name.name)).Nodup) {b a : Column} (hb : b ∈ cs) (ha : a ∈ cs') (hn : b.name.name = a.name.name) :
    ((diffColumns sd tn cs cs').map Stmt.alterTable).foldl (runColumn b.name.name) b = runAlter b a := by
  obtain ⟨pre, post, rfl⟩ := List.append_of_mem hb
  simp only [List.map_append, List.map_cons] at hd
  have hpre : ∀ c ∈ pre, c.name.name ≠ b.name.name := by
    intro c hc e
    exact List.disjoint_of_nodup_append hd (List.mem_map_of_mem hc) (by rw [e]; simp)
  have hpost : ∀ c ∈ post, c.name.name ≠ b.name.name := by
    intro c hc e
    have := (List.nodup_append.1 hd).2.1
    exact (List.nodup_cons.1 this).1 (by rw [← e]; exact List.mem_map_of_mem hc)
  have hf : findColumn b.name.name cs' = some a := by
    rw [hn]
    exact find?_of_nodup (f := fun c : Column => c.name.name) hd' ha
  simp only [diffColumns, List.flatMap_append, List.flatMap_cons, List.map_append, List.foldl_append, List.map_flatMap]
  rw [foldl_noop (l := pre.flatMap _), columnRound, hf]
  · simp only
    rw [foldl_alterColumn hn.symm, foldl_noop, foldl_noop]
    · intro x hx c
      obtain ⟨d, hd, hx⟩ := List.mem_flatMap.1 hx
      exact columnRound_other (hpost d hd) x hx c
    · intro x hx c
      obtain ⟨y, hy, rfl⟩ := List.mem_map.1 hx
      obtain ⟨z, hz, rfl⟩ := List.mem_map.1 hy
      rfl
  · intro x hx c
    obtain ⟨d, hd, hx⟩ := List.mem_flatMap.1 hx
    exact columnRound_other (hpre d hd) x hx c

theorem foldl_runColumn {nv : Bool} {t t' : CreateTable} {l : List MStmt}
    (h : diffCreateTable sd nv (some t) (some t') = .ok l) (hd : (t.columns.map (·.name.name)).Nodup)
    (hd' : (t'.columns.map (·.name.name)).Nodup) {b a : Column} (hb : b ∈ t.columns) (ha : a ∈ t'.columns)
    (hn : b.name.name = a.name.name) : l.foldl (runColumn b.name.name) b = runAlter b a := by
  obtain ⟨rfl, -, -⟩ := diffTable_ok h
  simp only [List.foldl_append]
  rw [foldl_noop (l := (renameTable _ _ _).map _), foldl_noop (l := dropConstraints _ _ _ _ _), foldl_diffColumns hd hd' hb ha hn,
    foldl_noop (l := replaceConstraints _ _ _ _ _ _), foldl_noop (l := addConstraints _ _ _ _ _),
    foldl_noop]
  · intro x hx c
    obtain ⟨y, hy, rfl⟩ := List.mem_map.1 hx
    rcases List.mem_append.1 hy with hy | hy
    · obtain ⟨o, _, ho⟩ := List.mem_flatMap.1 hy
      split at ho
      · simp at ho
      · split at ho
        · simp at ho
        · split at ho
          · simp at ho; subst ho; rfl
          · simp at ho
    · obtain ⟨o, _, ho⟩ := List.mem_flatMap.1 hy
      split at ho
      · simp at ho
      · simp at ho; subst ho; rfl
  · intro x hx c
    obtain ⟨k, _, rfl⟩ := List.mem_map.1 hx
    cases k <;> rfl
  · intro x hx c
    obtain ⟨k, _, hk⟩ := List.mem_flatMap.1 hx
    split at hk
    · simp at hk
    · split at hk
      · split at hk
        · simp at hk; rcases hk with rfl | rfl <;> rfl
        · simp at hk; rcases hk with rfl | rfl <;> rfl
      · simp at hk
  · intro x hx c
    obtain ⟨k, _, hk⟩ := List.mem_flatMap.1 hx
    split at hk
    · split at hk <;> simp at hk <;> subst hk <;> rfl
    · simp at hk
  · intro x hx c
    obtain ⟨y, hy, rfl⟩ := List.mem_map.1 hx
    simp only [renameTable] at hy
    split at hy
    · simp at hy; subst hy; rfl
    · simp at hy

end My
end Ddl

/-! ## One item of a printed list changes -/

namespace Ddl
open Spec

variable {sd : Str → Str → Str}

theorem append_mid_inj {P S x y : Str} (h : P ++ x ++ S = P ++ y ++ S) : x = y :=
  List.append_cancel_left (List.append_cancel_right h)

theorem onAction_inj {x y : Str} (h : (if x = [] then [] else s%" " ++ x) = (if y = [] then [] else s%" " ++ y)) : x = y := by
  by_cases hx : x = [] <;> by_cases hy : y = [] <;> simp [hx, hy] at h ⊢
  exact h

theorem join_mid {sep : Str} (p s : List Str) : ∃ P S : Str, ∀ x, join sep (p ++ x :: s) = P ++ x ++ S := by
  induction p with
  | nil =>
    cases s with
    | nil => exact ⟨[], [], fun x => by simp [join]⟩
    | cons b s => exact ⟨[], sep ++ join sep (b :: s), fun x => by simp [join]⟩
  | cons a p ih =>
    obtain ⟨P, S, h⟩ := ih
    refine ⟨a ++ sep ++ P, S, fun x => ?_⟩
    have : ∀ l : List Str, l ≠ [] → join sep (a :: l) = a ++ sep ++ join sep l := by
      intro l hl
      cases l with
      | nil => exact absurd rfl hl
      | cons b l => rfl
    rw [List.cons_append, this _ (by simp), h]
    simp

theorem trimC_quoted {c : Char} {x : Str} (h : c ∉ x) : trimC c (c :: x ++ [c]) = x := by
  have h1 : ∀ {y : Str}, c ∉ y → y.dropWhile (· == c) = y := by
    intro y hy
    cases y with
    | nil => rfl
    | cons a y =>
      rw [List.dropWhile_cons_of_neg]
      simpa using fun e : a = c => hy (by simp [e])
  unfold trimC
  cases x with
  | nil => simp
  | cons a x =>
    have : ((c :: (a :: x) ++ [c]).dropWhile (· == c)) = a :: x ++ [c] := by
      rw [List.cons_append, List.dropWhile_cons_of_pos (by simp)]
      rw [List.cons_append, List.dropWhile_cons_of_neg]
      simpa using fun e : a = c => h (by simp [e])
    rw [this, List.reverse_append, List.reverse_singleton, List.singleton_append, List.dropWhile_cons_of_pos (by simp),
      h1 (fun hm => h (List.mem_reverse.1 hm)), List.reverse_reverse]

theorem word_quote_notMem {x : Str} (h : IsWord x) : '\'' ∉ x := fun hm => by
  have := h.2 _ hm
  revert this
  decide

theorem word_head_ne {x : Str} (h : IsWord x) {c : Char} (hc : isLit c = false) : hasPrefix x [c] = false := by
  cases x with
  | nil => rfl
  | cons a x =>
    have := h.2 a (by simp)
    simp only [hasPrefix, List.isPrefixOf]
    have : c ≠ a := by rintro rfl; simp [hc] at this
    simp [this]

/-- In PostgreSQL and CockroachDB a word and the same word in single quotes are different. -/
theorem pg_quoted_ident (d : Dialect) (hd : d = .postgres ∨ d = .cockroachdb) (x : Str) :
    newRawIdent d (quoted x) = ⟨quoted x, [], quoted x⟩ := by
  have : hasPrefix (quoted x) ['"'] = false := by simp [quoted, hasPrefix, List.isPrefixOf]
  rcases hd with rfl | rfl <;> simp [newRawIdent, quotationMarks, newRawIdentQ, this]

theorem word_ident (d : Dialect) {x : Str} (h : IsWord x) : newRawIdent d x = ⟨x, [], x⟩ := by
  have h1 := word_head_ne h (c := '"') (by decide)
  have h2 := word_head_ne h (c := '`') (by decide)
  have h3 := word_head_ne h (c := '\'') (by decide)
  cases d <;> simp [newRawIdent, quotationMarks, newRawIdentQ, h1, h2, h3]

/-- In MySQL and Spanner a word and the same word in single quotes get the same name. -/
theorem my_quoted_ident (d : Dialect) (hd : d = .mysql ∨ d = .spanner) {x : Str} (h : IsWord x) :
    newRawIdent d (quoted x) = ⟨x, s%"'", quoted x⟩ := by
  have h1 : hasPrefix (quoted x) ['"'] = false := by simp [quoted, hasPrefix, List.isPrefixOf]
  have h2 : hasPrefix (quoted x) ['`'] = false := by simp [quoted, hasPrefix, List.isPrefixOf]
  have h3 : hasPrefix (quoted x) ['\''] = true := by simp [quoted, hasPrefix]
  have h4 : hasSuffix (quoted x) ['\''] = true := by
    rw [hasSuffix, List.isSuffixOf_iff_suffix]
    exact ⟨s%"'" ++ x, by simp [quoted]⟩
  have h5 : trimC '\'' (quoted x) = x := by
    have := trimC_quoted (word_quote_notMem h)
    simpa [quoted] using this
  rcases hd with rfl | rfl <;> simp [newRawIdent, quotationMarks, newRawIdentQ, h1, h2, h3, h4, h5]

theorem infix_flatMap {α β : Type} {f : α → List β} {l : List α} {x : α} (h : x ∈ l) : f x <:+: l.flatMap f := by
  obtain ⟨p, s, rfl⟩ := List.append_of_mem h
  exact ⟨p.flatMap f, s.flatMap f, by simp⟩


namespace Pg

theorem itemLines_mid (last : Str) (p s : List Str) : ∃ P S : Str, ∀ x, itemLines last (p ++ x :: s) = P ++ x ++ S := by
  induction p with
  | nil =>
    cases s with
    | nil => exact ⟨indent, last, fun x => by simp [itemLines]⟩
    | cons b s => exact ⟨indent, s%",\n" ++ itemLines last (b :: s), fun x => by simp [itemLines]⟩
  | cons a p ih =>
    obtain ⟨P, S, h⟩ := ih
    refine ⟨indent ++ a ++ s%",\n" ++ P, S, fun x => ?_⟩
    have : ∀ l : List Str, l ≠ [] → itemLines last (a :: l) = indent ++ a ++ s%",\n" ++ itemLines last l := by
      intro l hl
      cases l with
      | nil => exact absurd rfl hl
      | cons b l => rfl
    rw [List.cons_append, this _ (by simp), h]
    simp

theorem tableStr_constraint (t : CreateTable) (p s : List Constraint) :
    ∃ P S : Str, ∀ k, ({ t with constraints := p ++ k :: s } : CreateTable).str = P ++ k.str ++ S := by
  obtain ⟨P, S, h⟩ := itemLines_mid s%"\n" (p.map Constraint.str) (s.map Constraint.str)
  refine ⟨commentStr t.comment ++ s%"CREATE TABLE " ++ (if t.ifNotExists then s%"IF NOT EXISTS " else []) ++
    t.name.str ++ s%" (\n" ++ itemLines s%",\n" (t.columns.map Column.str) ++ P,
    S ++ s%")" ++ (if t.options = [] then [] else s%"\n" ++ join s%",\n" (t.options.map TableOption.str)) ++ s%";\n", fun k => ?_⟩
  simp [CreateTable.str, h]

theorem tableStr_column (t : CreateTable) (p s : List Column) :
    ∃ P S : Str, ∀ c, ({ t with columns := p ++ c :: s } : CreateTable).str = P ++ c.str ++ S := by
  obtain ⟨P, S, h⟩ := itemLines_mid (if t.constraints = [] then s%"\n" else s%",\n") (p.map Column.str) (s.map Column.str)
  refine ⟨commentStr t.comment ++ s%"CREATE TABLE " ++ (if t.ifNotExists then s%"IF NOT EXISTS " else []) ++
    t.name.str ++ s%" (\n" ++ P,
    S ++ itemLines s%"\n" (t.constraints.map Constraint.str) ++ s%")" ++ (if t.options = [] then [] else s%"\n" ++ join s%",\n" (t.options.map TableOption.str)) ++ s%";\n", fun k => ?_⟩
  simp [CreateTable.str, h]

theorem fk_str_ne {n : Ident} {cs : List Ident} {r : Ident} {rcs : List Ident} {act act' : Str} (h : act ≠ act') :
    (Constraint.foreignKey n cs r rcs act).str ≠ (Constraint.foreignKey n cs r rcs act').str := by
  intro e
  simp only [Constraint.str] at e
  exact h (onAction_inj (List.append_cancel_left e))

theorem fk_diffStr_ne {n n' : Ident} {cs cs' : List Ident} {r r' : Ident} {rcs rcs' : List Ident} {act act' : Str} (h : act ≠ act')
    (hb : (Constraint.foreignKey n cs r rcs act').bare = (Constraint.foreignKey n' cs' r' rcs' act').bare) :
    (Constraint.foreignKey n cs r rcs act).diffStr ≠ (Constraint.foreignKey n' cs' r' rcs' act').diffStr := by
  intro e
  have := (Constraint.diffStr_of_bare hb).1
  rw [← this] at e
  simp only [Constraint.diffStr] at e
  exact h (onAction_inj (List.append_cancel_left e))

theorem replaceConstraints_one {nv : Bool} {tn : ObjectName} {p s : List Constraint} {k k' : Constraint}
    (hd : ((p ++ k :: s).map (·.name.name)).Nodup) (hn : k.name.name = k'.name.name) :
    replaceConstraints sd nv tn (p ++ k :: s) (p ++ k' :: s) = replaceConstraints sd nv tn [k] [k'] := by
  have hd' : ((p ++ k' :: s).map (·.name.name)).Nodup := by simpa [hn] using hd
  have hself : ∀ x ∈ p ++ k' :: s, findConstraint x.name.name (p ++ k' :: s) = some x := fun x hx =>
    find?_of_nodup (f := fun c : Constraint => c.name.name) hd' hx
  have h1 : ∀ l : List Constraint, (∀ x ∈ l, x ∈ p ++ k' :: s) → replaceConstraints sd nv tn l (p ++ k' :: s) = [] := by
    intro l hl
    simp only [replaceConstraints, List.flatMap_eq_nil_iff]
    intro x hx
    simp [hself x (hl x hx)]
  have h2 : ∀ l₁ l₂ : List Constraint, replaceConstraints sd nv tn (l₁ ++ l₂) (p ++ k' :: s) =
      replaceConstraints sd nv tn l₁ (p ++ k' :: s) ++ replaceConstraints sd nv tn l₂ (p ++ k' :: s) := by
    intro l₁ l₂; simp [replaceConstraints]
  rw [h2, h1 p (fun x hx => by simp [hx]), List.nil_append, show k :: s = [k] ++ s from rfl, h2,
    h1 s (fun x hx => by simp [hx]), List.append_nil]
  have h3 : findConstraint k.name.name (p ++ k' :: s) = some k' := by rw [hn]; exact hself k' (by simp)
  have h4 : findConstraint k.name.name [k'] = some k' := by simp [findConstraint, hn]
  simp only [replaceConstraints, List.flatMap_cons, List.flatMap_nil, List.append_nil, h3, h4]

theorem sameElems_refl {α : Type} {l : List α} : SameElems l l := fun _ => Iff.rfl

/-- Tables that differ in one constraint. -/
theorem diffTable_oneConstraint {nv : Bool} {t : CreateTable} {p s : List Constraint} {k k' : Constraint}
    (hcd : (t.columns.map (·.name.name)).Nodup) (hd : ((p ++ k :: s).map (·.name.name)).Nodup)
    (hn : k.name.name = k'.name.name) (hs : k.str ≠ k'.str) (hne : k.diffStr ≠ k'.diffStr) :
    diffCreateTable sd nv (some { t with constraints := p ++ k :: s }) (some { t with constraints := p ++ k' :: s }) =
      .ok ((replaceConstraints sd nv t.name [k] [k']).map Stmt.alterTable) := by
  obtain ⟨P, S, hP⟩ := tableStr_constraint t p s
  have hstr : ({ t with constraints := p ++ k :: s } : CreateTable).str ≠ ({ t with constraints := p ++ k' :: s } : CreateTable).str := by
    rw [hP, hP]
    exact fun e => hs (append_mid_inj e)
  have h0 : renamedName t.name t.name = t.name := by simp [renamedName]
  have hnames : ∀ x : Constraint, (∃ y ∈ p ++ k :: s, x.name.name = y.name.name) ↔ ∃ y ∈ p ++ k' :: s, x.name.name = y.name.name := by
    intro x
    simp only [List.mem_append, List.mem_cons, or_and_right, exists_or, exists_eq_left, hn]
  simp only [diffCreateTable, hstr, if_false, h0]
  rw [renameTable_same rfl, diffColumns_same hcd sameElems_refl,
    dropConstraints_same (fun x hx => (hnames x).1 ⟨x, hx, rfl⟩),
    addConstraints_same (fun x hx => (hnames x).2 ⟨x, hx, rfl⟩), replaceConstraints_one hd hn]
  have hf : findConstraint k.name.name [k'] = some k' := by simp [findConstraint, hn]
  have : replaceConstraints sd nv t.name [k] [k'] ≠ [] := by
    simp only [replaceConstraints, List.flatMap_cons, List.flatMap_nil, List.append_nil, hf, ne_eq, hne, not_false_eq_true, if_true]
    simp
  simp [this]

/-- What `exprSep` looks at. -/
abbrev Ordinary (s : Str) : Prop := s ∉ [s%"||", s%"(", s%")", s%"::", s%":::", s%","]

theorem exprStrFrom_mid (p s : Expr) (prev : Ident) :
    ∃ A B : Str, ∀ i : Ident, Ordinary i.str → exprStrFrom prev (p ++ i :: s) = A ++ i.str ++ B := by
  induction p generalizing prev with
  | nil =>
    have hl : ∀ i j : Ident, Ordinary i.str → Ordinary j.str → exprSep prev i = exprSep prev j := by
      intro i j hi hj
      simp only [Ordinary, List.mem_cons, List.not_mem_nil, or_false, not_or] at hi hj
      simp [exprSep, hi, hj]
    have hr : ∀ i j : Ident, Ordinary i.str → Ordinary j.str → exprStrFrom i s = exprStrFrom j s := by
      intro i j hi hj
      simp only [Ordinary, List.mem_cons, List.not_mem_nil, or_false, not_or] at hi hj
      cases s with
      | nil => rfl
      | cons b s => simp [exprStrFrom, exprSep, hi, hj]
    let j : Ident := ⟨[], [], s%"x"⟩
    have hj : Ordinary j.str := by decide
    refine ⟨exprSep prev j, exprStrFrom j s, fun i hi => ?_⟩
    simp only [List.nil_append, exprStrFrom]
    rw [hl i j hi hj, hr i j hi hj]
  | cons a p ih =>
    obtain ⟨A, B, h⟩ := ih a
    exact ⟨exprSep prev a ++ a.str ++ A, B, fun i hi => by simp [exprStrFrom, h i hi]⟩

theorem exprStr_mid (p s : Expr) : ∃ A B : Str, ∀ i : Ident, Ordinary i.str → exprStr (p ++ i :: s) = A ++ i.str ++ B := by
  cases p with
  | cons a p =>
    obtain ⟨A, B, h⟩ := exprStrFrom_mid p s a
    exact ⟨a.str ++ A, B, fun i hi => by simp [exprStr, h i hi]⟩
  | nil =>
    have hr : ∀ i j : Ident, Ordinary i.str → Ordinary j.str → exprStrFrom i s = exprStrFrom j s := by
      intro i j hi hj
      simp only [Ordinary, List.mem_cons, List.not_mem_nil, or_false, not_or] at hi hj
      cases s with
      | nil => rfl
      | cons b s => simp [exprStrFrom, exprSep, hi, hj]
    let j : Ident := ⟨[], [], s%"x"⟩
    refine ⟨[], exprStrFrom j s, fun i hi => ?_⟩
    simp only [List.nil_append, exprStr]
    rw [hr i j hi (by decide)]

theorem ordinary_word {x : Str} (h : IsWord x) : Ordinary x := by
  intro hm
  simp only [List.mem_cons, List.not_mem_nil, or_false] at hm
  rcases hm with rfl | rfl | rfl | rfl | rfl | rfl
  all_goals exact absurd (h.2 _ List.mem_cons_self) (by decide)

theorem ordinary_quoted (x : Str) : Ordinary (quoted x) := by
  intro hm
  simp [quoted] at hm

/-- Tables that differ in one column. -/
theorem diffTable_oneColumn {nv : Bool} {t : CreateTable} {p s : List Column} {c c' : Column}
    (hkd : (t.constraints.map (·.name.name)).Nodup) (hd : ((p ++ c :: s).map (·.name.name)).Nodup)
    (hn : c.name.name = c'.name.name) (hs : c.str ≠ c'.str) (hne : alterColumn sd t.name c c' ≠ []) :
    diffCreateTable sd nv (some { t with columns := p ++ c :: s }) (some { t with columns := p ++ c' :: s }) =
      .ok ((alterColumn sd t.name c c').map Stmt.alterTable) := by
  obtain ⟨P, S, hP⟩ := tableStr_column t p s
  have hstr : ({ t with columns := p ++ c :: s } : CreateTable).str ≠ ({ t with columns := p ++ c' :: s } : CreateTable).str := by
    rw [hP, hP]
    exact fun e => hs (append_mid_inj e)
  have h0 : renamedName t.name t.name = t.name := by simp [renamedName]
  have hd' : ((p ++ c' :: s).map (·.name.name)).Nodup := by simpa [hn] using hd
  have hself : ∀ x ∈ p ++ c' :: s, findColumn x.name.name (p ++ c' :: s) = some x := fun x hx =>
    find?_of_nodup (f := fun c : Column => c.name.name) hd' hx
  have h1 : ∀ l : List Column, (∀ x ∈ l, x ∈ p ++ c' :: s) → l.flatMap (columnRound sd t.name (p ++ c' :: s)) = [] := by
    intro l hl
    simp only [List.flatMap_eq_nil_iff]
    intro x hx
    simp only [columnRound, hself x (hl x hx)]
    exact alterColumn_of_bare rfl
  have hcols : diffColumns sd t.name (p ++ c :: s) (p ++ c' :: s) = alterColumn sd t.name c c' := by
    simp only [diffColumns, List.flatMap_append, List.flatMap_cons]
    rw [h1 p (fun x hx => by simp [hx]), h1 s (fun x hx => by simp [hx])]
    have : onlyLeftColumn (p ++ c' :: s) (p ++ c :: s) = [] := by
      simp only [onlyLeftColumn, List.filter_eq_nil_iff]
      intro x hx
      have : findColumn x.name.name (p ++ c :: s) ≠ none := by
        rw [findColumn, Ne, find?_none_iff (f := fun c : Column => c.name.name), not_not]
        have := List.mem_map_of_mem (f := fun c : Column => c.name.name) hx
        simpa [hn] using this
      simpa [Option.isNone_iff_eq_none] using this
    rw [this]
    have hf : findColumn c.name.name (p ++ c' :: s) = some c' := by rw [hn]; exact hself c' (by simp)
    simp [columnRound, hf]
  simp only [diffCreateTable, hstr, if_false, h0]
  rw [renameTable_same rfl, hcols, dropConstraints_same (fun x hx => ⟨x, hx, rfl⟩),
    addConstraints_same (fun x hx => ⟨x, hx, rfl⟩), replaceConstraints_same hkd (fun x hx => ⟨x, hx, rfl, rfl⟩)]
  simp [hne]

/-- A default where one token changes. -/
theorem alterColumn_default {tn : ObjectName} {c : Column} {p s : Expr} {i j : Ident} (h : i.name ≠ j.name) :
    alterColumn sd tn { c with default := some ⟨some (p ++ i :: s)⟩ } { c with default := some ⟨some (p ++ j :: s)⟩ } =
      [⟨sd ({ c with default := some ⟨some (p ++ i :: s)⟩ } : Column).str ({ c with default := some ⟨some (p ++ j :: s)⟩ } : Column).str,
        tn, .setDefault c.name (some ⟨some (p ++ j :: s)⟩)⟩] := by
  obtain ⟨P, S, hj⟩ := join_mid (sep := s%" ") (p.map Ident.diffStr) (s.map Ident.diffStr)
  have hne : defaultDiffStr (some ⟨some (p ++ i :: s)⟩) ≠ defaultDiffStr (some ⟨some (p ++ j :: s)⟩) := by
    intro e
    simp only [defaultDiffStr, List.map_append, List.map_cons, hj] at e
    exact h (append_mid_inj (List.append_cancel_left e))
  simp only [alterColumn]
  cases c.notNull <;> simp [hne]

theorem columnStr_default_ne {c : Column} {p s : Expr} {i j : Ident} (hi : Ordinary i.str) (hj : Ordinary j.str) (h : i.str ≠ j.str) :
    ({ c with default := some ⟨some (p ++ i :: s)⟩ } : Column).str ≠ ({ c with default := some ⟨some (p ++ j :: s)⟩ } : Column).str := by
  obtain ⟨A, B, he⟩ := exprStr_mid p s
  intro e
  simp only [Column.str, defaultStr, he i hi, he j hj] at e
  simp only [List.cons_append, reduceCtorEq, if_false] at e
  simp at e
  exact h e

end Pg

namespace Crdb

theorem itemLines_mid (last : Str) (p s : List Str) : ∃ P S : Str, ∀ x, itemLines last (p ++ x :: s) = P ++ x ++ S := by
  induction p with
  | nil =>
    cases s with
    | nil => exact ⟨indent, last, fun x => by simp [itemLines]⟩
    | cons b s => exact ⟨indent, s%",\n" ++ itemLines last (b :: s), fun x => by simp [itemLines]⟩
  | cons a p ih =>
    obtain ⟨P, S, h⟩ := ih
    refine ⟨indent ++ a ++ s%",\n" ++ P, S, fun x => ?_⟩
    have : ∀ l : List Str, l ≠ [] → itemLines last (a :: l) = indent ++ a ++ s%",\n" ++ itemLines last l := by
      intro l hl
      cases l with
      | nil => exact absurd rfl hl
      | cons b l => rfl
    rw [List.cons_append, this _ (by simp), h]
    simp

theorem tableStr_constraint (t : CreateTable) (p s : List Constraint) :
    ∃ P S : Str, ∀ k, ({ t with constraints := p ++ k :: s } : CreateTable).str = P ++ k.str ++ S := by
  obtain ⟨P, S, h⟩ := itemLines_mid s%"\n" (p.map Constraint.str) (s.map Constraint.str)
  refine ⟨commentStr t.comment ++ s%"CREATE TABLE " ++ (if t.ifNotExists then s%"IF NOT EXISTS " else []) ++
    t.name.str ++ s%" (\n" ++ itemLines s%",\n" (t.columns.map Column.str) ++ P,
    S ++ s%")" ++ (if t.options = [] then [] else s%"\n" ++ join s%",\n" (t.options.map TableOption.str)) ++ s%";\n", fun k => ?_⟩
  simp [CreateTable.str, h]

theorem tableStr_column (t : CreateTable) (p s : List Column) :
    ∃ P S : Str, ∀ c, ({ t with columns := p ++ c :: s } : CreateTable).str = P ++ c.str ++ S := by
  obtain ⟨P, S, h⟩ := itemLines_mid (if t.constraints = [] then s%"\n" else s%",\n") (p.map Column.str) (s.map Column.str)
  refine ⟨commentStr t.comment ++ s%"CREATE TABLE " ++ (if t.ifNotExists then s%"IF NOT EXISTS " else []) ++
    t.name.str ++ s%" (\n" ++ P,
    S ++ itemLines s%"\n" (t.constraints.map Constraint.str) ++ s%")" ++ (if t.options = [] then [] else s%"\n" ++ join s%",\n" (t.options.map TableOption.str)) ++ s%";\n", fun k => ?_⟩
  simp [CreateTable.str, h]

theorem fk_str_ne {n : Ident} {cs : List ColumnIdent} {r : Ident} {rcs : List ColumnIdent} {act act' : Str} (h : act ≠ act') :
    (Constraint.foreignKey n cs r rcs act).str ≠ (Constraint.foreignKey n cs r rcs act').str := by
  intro e
  simp only [Constraint.str] at e
  exact h (onAction_inj (List.append_cancel_left e))

theorem fk_diffStr_ne {n n' : Ident} {cs cs' : List ColumnIdent} {r r' : Ident} {rcs rcs' : List ColumnIdent} {act act' : Str} (h : act ≠ act')
    (hb : (Constraint.foreignKey n cs r rcs act').bare = (Constraint.foreignKey n' cs' r' rcs' act').bare) :
    (Constraint.foreignKey n cs r rcs act).diffStr ≠ (Constraint.foreignKey n' cs' r' rcs' act').diffStr := by
  intro e
  have := (Constraint.diffStr_of_bare hb).1
  rw [← this] at e
  simp only [Constraint.diffStr] at e
  exact h (onAction_inj (List.append_cancel_left e))

theorem replaceConstraints_one {nv : Bool} {tn : ObjectName} {p s : List Constraint} {k k' : Constraint}
    (hd : ((p ++ k :: s).map (·.name.name)).Nodup) (hn : k.name.name = k'.name.name) :
    replaceConstraints sd nv tn (p ++ k :: s) (p ++ k' :: s) = replaceConstraints sd nv tn [k] [k'] := by
  have hd' : ((p ++ k' :: s).map (·.name.name)).Nodup := by simpa [hn] using hd
  have hself : ∀ x ∈ p ++ k' :: s, findConstraint x.name.name (p ++ k' :: s) = some x := fun x hx =>
    find?_of_nodup (f := fun c : Constraint => c.name.name) hd' hx
  have h1 : ∀ l : List Constraint, (∀ x ∈ l, x ∈ p ++ k' :: s) → replaceConstraints sd nv tn l (p ++ k' :: s) = [] := by
    intro l hl
    simp only [replaceConstraints, List.flatMap_eq_nil_iff]
    intro x hx
    simp [hself x (hl x hx)]
  have h2 : ∀ l₁ l₂ : List Constraint, replaceConstraints sd nv tn (l₁ ++ l₂) (p ++ k' :: s) =
      replaceConstraints sd nv tn l₁ (p ++ k' :: s) ++ replaceConstraints sd nv tn l₂ (p ++ k' :: s) := by
    intro l₁ l₂; simp [replaceConstraints]
  rw [h2, h1 p (fun x hx => by simp [hx]), List.nil_append, show k :: s = [k] ++ s from rfl, h2,
    h1 s (fun x hx => by simp [hx]), List.append_nil]
  have h3 : findConstraint k.name.name (p ++ k' :: s) = some k' := by rw [hn]; exact hself k' (by simp)
  have h4 : findConstraint k.name.name [k'] = some k' := by simp [findConstraint, hn]
  simp only [replaceConstraints, List.flatMap_cons, List.flatMap_nil, List.append_nil, h3, h4]

theorem sameElems_refl {α : Type} {l : List α} : SameElems l l := fun _ => Iff.rfl

/-- Tables that differ in one constraint. -/
theorem diffTable_oneConstraint {nv : Bool} {t : CreateTable} {p s : List Constraint} {k k' : Constraint}
    (hcd : (t.columns.map (·.name.name)).Nodup) (hd : ((p ++ k :: s).map (·.name.name)).Nodup)
    (hn : k.name.name = k'.name.name) (hs : k.str ≠ k'.str) (hne : k.diffStr ≠ k'.diffStr) :
    diffCreateTable sd nv (some { t with constraints := p ++ k :: s }) (some { t with constraints := p ++ k' :: s }) =
      .ok ((replaceConstraints sd nv t.name [k] [k'])) := by
  obtain ⟨P, S, hP⟩ := tableStr_constraint t p s
  have hstr : ({ t with constraints := p ++ k :: s } : CreateTable).str ≠ ({ t with constraints := p ++ k' :: s } : CreateTable).str := by
    rw [hP, hP]
    exact fun e => hs (append_mid_inj e)
  have h0 : renamedName t.name t.name = t.name := by simp [renamedName]
  have hnames : ∀ x : Constraint, (∃ y ∈ p ++ k :: s, x.name.name = y.name.name) ↔ ∃ y ∈ p ++ k' :: s, x.name.name = y.name.name := by
    intro x
    simp only [List.mem_append, List.mem_cons, or_and_right, exists_or, exists_eq_left, hn]
  simp only [diffCreateTable, hstr, if_false, h0]
  rw [renameTable_same rfl, diffColumns_same hcd sameElems_refl,
    dropConstraints_same (fun x hx => (hnames x).1 ⟨x, hx, rfl⟩),
    addConstraints_same (fun x hx => (hnames x).2 ⟨x, hx, rfl⟩), replaceConstraints_one hd hn]
  have hf : findConstraint k.name.name [k'] = some k' := by simp [findConstraint, hn]
  have : replaceConstraints sd nv t.name [k] [k'] ≠ [] := by
    simp only [replaceConstraints, List.flatMap_cons, List.flatMap_nil, List.append_nil, hf, ne_eq, hne, not_false_eq_true, if_true]
    cases k' <;> simp
  simp [this]

/-- What `exprSep` looks at. -/
abbrev Ordinary (s : Str) : Prop := s ∉ [s%"||", s%"(", s%")", s%"::", s%":::", s%","]

theorem exprStrFrom_mid (p s : Expr) (prev : Ident) :
    ∃ A B : Str, ∀ i : Ident, Ordinary i.str → exprStrFrom prev (p ++ i :: s) = A ++ i.str ++ B := by
  induction p generalizing prev with
  | nil =>
    have hl : ∀ i j : Ident, Ordinary i.str → Ordinary j.str → exprSep prev i = exprSep prev j := by
      intro i j hi hj
      simp only [Ordinary, List.mem_cons, List.not_mem_nil, or_false, not_or] at hi hj
      simp [exprSep, hi, hj]
    have hr : ∀ i j : Ident, Ordinary i.str → Ordinary j.str → exprStrFrom i s = exprStrFrom j s := by
      intro i j hi hj
      simp only [Ordinary, List.mem_cons, List.not_mem_nil, or_false, not_or] at hi hj
      cases s with
      | nil => rfl
      | cons b s => simp [exprStrFrom, exprSep, hi, hj]
    let j : Ident := ⟨[], [], s%"x"⟩
    have hj : Ordinary j.str := by decide
    refine ⟨exprSep prev j, exprStrFrom j s, fun i hi => ?_⟩
    simp only [List.nil_append, exprStrFrom]
    rw [hl i j hi hj, hr i j hi hj]
  | cons a p ih =>
    obtain ⟨A, B, h⟩ := ih a
    exact ⟨exprSep prev a ++ a.str ++ A, B, fun i hi => by simp [exprStrFrom, h i hi]⟩

theorem exprStr_mid (p s : Expr) : ∃ A B : Str, ∀ i : Ident, Ordinary i.str → exprStr (p ++ i :: s) = A ++ i.str ++ B := by
  cases p with
  | cons a p =>
    obtain ⟨A, B, h⟩ := exprStrFrom_mid p s a
    exact ⟨a.str ++ A, B, fun i hi => by simp [exprStr, h i hi]⟩
  | nil =>
    have hr : ∀ i j : Ident, Ordinary i.str → Ordinary j.str → exprStrFrom i s = exprStrFrom j s := by
      intro i j hi hj
      simp only [Ordinary, List.mem_cons, List.not_mem_nil, or_false, not_or] at hi hj
      cases s with
      | nil => rfl
      | cons b s => simp [exprStrFrom, exprSep, hi, hj]
    let j : Ident := ⟨[], [], s%"x"⟩
    refine ⟨[], exprStrFrom j s, fun i hi => ?_⟩
    simp only [List.nil_append, exprStr]
    rw [hr i j hi (by decide)]

theorem ordinary_word {x : Str} (h : IsWord x) : Ordinary x := by
  intro hm
  simp only [List.mem_cons, List.not_mem_nil, or_false] at hm
  rcases hm with rfl | rfl | rfl | rfl | rfl | rfl
  all_goals exact absurd (h.2 _ List.mem_cons_self) (by decide)

theorem ordinary_quoted (x : Str) : Ordinary (quoted x) := by
  intro hm
  simp [quoted] at hm

/-- Tables that differ in one column. -/
theorem diffTable_oneColumn {nv : Bool} {t : CreateTable} {p s : List Column} {c c' : Column}
    (hkd : (t.constraints.map (·.name.name)).Nodup) (hd : ((p ++ c :: s).map (·.name.name)).Nodup)
    (hn : c.name.name = c'.name.name) (hs : c.str ≠ c'.str) (hne : alterColumn sd t.name c c' ≠ []) :
    diffCreateTable sd nv (some { t with columns := p ++ c :: s }) (some { t with columns := p ++ c' :: s }) =
      .ok ((alterColumn sd t.name c c').map Stmt.alterTable) := by
  obtain ⟨P, S, hP⟩ := tableStr_column t p s
  have hstr : ({ t with columns := p ++ c :: s } : CreateTable).str ≠ ({ t with columns := p ++ c' :: s } : CreateTable).str := by
    rw [hP, hP]
    exact fun e => hs (append_mid_inj e)
  have h0 : renamedName t.name t.name = t.name := by simp [renamedName]
  have hd' : ((p ++ c' :: s).map (·.name.name)).Nodup := by simpa [hn] using hd
  have hself : ∀ x ∈ p ++ c' :: s, findColumn x.name.name (p ++ c' :: s) = some x := fun x hx =>
    find?_of_nodup (f := fun c : Column => c.name.name) hd' hx
  have h1 : ∀ l : List Column, (∀ x ∈ l, x ∈ p ++ c' :: s) → l.flatMap (columnRound sd t.name (p ++ c' :: s)) = [] := by
    intro l hl
    simp only [List.flatMap_eq_nil_iff]
    intro x hx
    simp only [columnRound, hself x (hl x hx)]
    exact alterColumn_of_bare rfl
  have hcols : diffColumns sd t.name (p ++ c :: s) (p ++ c' :: s) = alterColumn sd t.name c c' := by
    simp only [diffColumns, List.flatMap_append, List.flatMap_cons]
    rw [h1 p (fun x hx => by simp [hx]), h1 s (fun x hx => by simp [hx])]
    have : onlyLeftColumn (p ++ c' :: s) (p ++ c :: s) = [] := by
      simp only [onlyLeftColumn, List.filter_eq_nil_iff]
      intro x hx
      have : findColumn x.name.name (p ++ c :: s) ≠ none := by
        rw [findColumn, Ne, find?_none_iff (f := fun c : Column => c.name.name), not_not]
        have := List.mem_map_of_mem (f := fun c : Column => c.name.name) hx
        simpa [hn] using this
      simpa [Option.isNone_iff_eq_none] using this
    rw [this]
    have hf : findColumn c.name.name (p ++ c' :: s) = some c' := by rw [hn]; exact hself c' (by simp)
    simp [columnRound, hf]
  simp only [diffCreateTable, hstr, if_false, h0]
  rw [renameTable_same rfl, hcols, dropConstraints_same (fun x hx => ⟨x, hx, rfl⟩),
    addConstraints_same (fun x hx => ⟨x, hx, rfl⟩), replaceConstraints_same hkd (fun x hx => ⟨x, hx, rfl, rfl⟩)]
  simp [hne]

/-- A default where one token changes. -/
theorem alterColumn_default {tn : ObjectName} {c : Column} {p s : Expr} {i j : Ident} (h : i.name ≠ j.name) :
    alterColumn sd tn { c with default := some ⟨some (p ++ i :: s)⟩ } { c with default := some ⟨some (p ++ j :: s)⟩ } =
      [⟨sd ({ c with default := some ⟨some (p ++ i :: s)⟩ } : Column).str ({ c with default := some ⟨some (p ++ j :: s)⟩ } : Column).str,
        tn, .setDefault c.name (some ⟨some (p ++ j :: s)⟩)⟩] := by
  obtain ⟨P, S, hj⟩ := join_mid (sep := s%" ") (p.map Ident.diffStr) (s.map Ident.diffStr)
  have hne : defaultDiffStr (some ⟨some (p ++ i :: s)⟩) ≠ defaultDiffStr (some ⟨some (p ++ j :: s)⟩) := by
    intro e
    simp only [defaultDiffStr, List.map_append, List.map_cons, hj] at e
    exact h (append_mid_inj (List.append_cancel_left e))
  simp only [alterColumn]
  cases c.notNull <;> simp [hne]

theorem columnStr_default_ne {c : Column} {p s : Expr} {i j : Ident} (hi : Ordinary i.str) (hj : Ordinary j.str) (h : i.str ≠ j.str) :
    ({ c with default := some ⟨some (p ++ i :: s)⟩ } : Column).str ≠ ({ c with default := some ⟨some (p ++ j :: s)⟩ } : Column).str := by
  obtain ⟨A, B, he⟩ := exprStr_mid p s
  intro e
  simp only [Column.str, defaultStr, he i hi, he j hj] at e
  simp only [List.cons_append, reduceCtorEq, if_false] at e
  simp at e
  exact h e

end Crdb

end Ddl
