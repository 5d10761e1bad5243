import Verif.Lemmas.BlurDiff
import Verif.Lemmas.Rel
import Verif.Lemmas.Attr
import Verif.Lemmas.Comment

/-! # Requoted and recased tokens stand for the same things -/

namespace Ddl
open Spec
set_option autoImplicit false

/-! ## Identifiers -/

theorem newRawIdentQ_plain {l : List Char} {s : Str} (h : ∀ q ∈ l, s.head? ≠ some q) : newRawIdentQ l s = ⟨s, [], s⟩ := by
  induction l with
  | nil => rfl
  | cons q l ih =>
    have : hasPrefix s [q] = false := by
      have h1 := h q (by simp)
      cases s with
      | nil => rfl
      | cons a s => simp [hasPrefix, List.isPrefixOf] at h1 ⊢; exact fun e => h1 e.symm
    simp only [newRawIdentQ, this, Bool.false_and, Bool.false_eq_true, if_false]
    exact ih fun q hq => h q (List.mem_cons_of_mem _ hq)

theorem newRawIdentQ_quoted {l : List Char} {q : Char} {w : Str} (h : q ∈ l) (hw : q ∉ w) :
    newRawIdentQ l (q :: w ++ [q]) = ⟨w, [q], q :: w ++ [q]⟩ := by
  induction l with
  | nil => simp at h
  | cons p l ih =>
    by_cases hp : p = q
    · subst hp
      have h1 : hasPrefix (p :: w ++ [p]) [p] = true := by simp [hasPrefix]
      have h2 : hasSuffix (p :: w ++ [p]) [p] = true := by
        rw [hasSuffix, List.isSuffixOf_iff_suffix]
        exact ⟨p :: w, rfl⟩
      simp only [newRawIdentQ, h1, h2, Bool.and_self, if_true, trimC_quoted hw]
    · have : hasPrefix (q :: w ++ [q]) [p] = false := by simp [hasPrefix, List.isPrefixOf, hp]
      simp only [newRawIdentQ, this, Bool.false_and, Bool.false_eq_true, if_false]
      refine ih ?_
      rcases List.mem_cons.1 h with h | h
      · exact absurd h.symm hp
      · exact h

theorem quote_notWord {d : Dialect} {q : Char} (h : q ∈ quotationMarks d) : ¬ WordChar q := by
  have : ∀ d ∈ [Dialect.postgres, .cockroachdb, .mysql, .spanner], ∀ q ∈ quotationMarks d,
      ¬ (('A' ≤ q ∧ q ≤ 'Z') ∨ ('a' ≤ q ∧ q ≤ 'z') ∨ ('0' ≤ q ∧ q ≤ '9') ∨ q = '_' ∨ q = '.') := by decide +kernel
  exact this d (by cases d <;> simp) q h

theorem identQuotes_sub {d : Dialect} {q : Char} (h : q ∈ identQuotes d) : q ∈ quotationMarks d := by
  cases d <;> simp [identQuotes, quotationMarks] at h ⊢ <;> tauto

theorem newRawIdent_word {d : Dialect} {w : Str} (hw : ∀ c ∈ w, WordChar c) : newRawIdent d w = ⟨w, [], w⟩ := by
  refine newRawIdentQ_plain fun q hq h => ?_
  exact quote_notWord hq (hw q (List.mem_of_head? h))

theorem newRawIdent_wrap {d : Dialect} {w : Str} {q : Char} (hq : q ∈ identQuotes d) (hw : ∀ c ∈ w, WordChar c) :
    newRawIdent d (q :: w ++ [q]) = ⟨w, [q], q :: w ++ [q]⟩ :=
  newRawIdentQ_quoted (identQuotes_sub hq) fun h => quote_notWord (identQuotes_sub hq) (hw q h)

/-- The name of a possibly quoted name. -/
theorem newRawIdent_names {d : Dialect} {w l : Str} (h : Names d w l) (hw : ∀ c ∈ w, WordChar c) :
    (newRawIdent d l).bare = ⟨w, [], []⟩ := by
  rcases h with rfl | ⟨q, hq, rfl⟩
  · rw [newRawIdent_word hw]; rfl
  · rw [newRawIdent_wrap hq hw]; rfl

theorem newObjectName_names {d : Dialect} {w l : Str} (h : Names d w l) (hw : ∀ c ∈ w, WordChar c) :
    (newObjectName d l).bare = (newObjectName d w).bare := by
  rcases h with rfl | ⟨q, hq, rfl⟩
  · rfl
  · unfold newObjectName
    rw [newRawIdent_word hw, newRawIdent_wrap hq hw]
    simp only
    have hs := splitC_line '.' w
    split
    · rename_i a b hab
      have ha : ∀ c ∈ a, WordChar c := fun c hc => hw c ((hs a (by simp [hab])).2 c hc)
      have hb : ∀ c ∈ b, WordChar c := fun c hc => hw c ((hs b (by simp [hab])).2 c hc)
      have e : ∀ x : Str, [q] ++ x ++ [q] = q :: x ++ [q] := fun _ => rfl
      simp only [e, newRawIdent_wrap hq ha, newRawIdent_wrap hq hb, List.nil_append, List.append_nil, newRawIdent_word ha,
        newRawIdent_word hb]
      rfl
    · rfl

theorem unquote_names {d : Dialect} {w l : Str} (h : Names d w l) (hw : ∀ c ∈ w, WordChar c) (hn : w ≠ []) : unquote d l = w := by
  rcases h with rfl | ⟨q, hq, rfl⟩
  · cases l with
    | nil => exact absurd rfl hn
    | cons a l =>
      have : a ∉ identQuotes d := fun h => quote_notWord (identQuotes_sub h) (hw a (by simp))
      simp [unquote, this]
  · simp [unquote, hq]

theorem tokRel_requoted {d : Dialect} {t t' : Token} (h : Requoted d t t') : TokRel (quoteBlur d) d t t' := by
  rcases h with rfl | ⟨w, hn, hw, ht, ht', hl, hl'⟩
  · exact TokRel.refl _
  · have hb := newRawIdent_names hl hw
    have hb' := newRawIdent_names hl' hw
    refine ⟨by rw [ht, ht'], fun _ => ⟨by rw [hb, hb'], by rw [newObjectName_names hl hw, newObjectName_names hl' hw]⟩, ?_,
      fun h => absurd ht h, ?_, fun h => ?_⟩
    · exact Ident.name_of_bare (hb'.trans hb.symm)
    · exact (unquote_names hl' hw hn).trans (unquote_names hl hw hn).symm
    · rw [ht] at h; simp at h

theorem keyword_types {d : Dialect} {k : Str} {t : TokType} (h : (k, t) ∈ keywords d) :
    t ≠ .IDENT ∧ ∀ c ∈ k, c ∉ quotationMarks d := by
  have : ∀ d ∈ [Dialect.postgres, .cockroachdb, .mysql, .spanner], ∀ p ∈ keywords d,
      p.2 ≠ .IDENT ∧ ∀ c ∈ p.1, c ∉ quotationMarks d := by decide +kernel
  exact this d (by cases d <;> simp) _ h

theorem quote_upper {d : Dialect} {q : Char} (h : q ∈ quotationMarks d) : q.toUpper = q := by
  have : ∀ d ∈ [Dialect.postgres, .cockroachdb, .mysql, .spanner], ∀ q ∈ quotationMarks d, q.toUpper = q := by decide +kernel
  exact this d (by cases d <;> simp) q h

theorem newRawIdent_keyword {d : Dialect} {l : Str} {t : TokType} (h : (l.map Char.toUpper, t) ∈ keywords d) :
    newRawIdent d l = ⟨l, [], l⟩ := by
  refine newRawIdentQ_plain fun q hq hh => ?_
  have hm : q ∈ l.map Char.toUpper := by
    rw [← quote_upper hq]
    exact List.mem_map_of_mem (List.mem_of_head? hh)
  exact (keyword_types h).2 q hm hq

theorem capitals_keyword {d : Dialect} {l : Str} {t : TokType} (h : (l.map Char.toUpper, t) ∈ keywords d) :
    capitals d l = l.map Char.toUpper := if_pos (List.mem_map.2 ⟨_, h, rfl⟩)

theorem tokRel_recased {d : Dialect} {t t' : Token} (h : Recased d t t') : TokRel (caseBlur d) d t t' := by
  rcases h with rfl | ⟨ht, hl, hk, hs⟩
  · exact TokRel.refl _
  · have hk' : (t'.lit.map Char.toUpper, t.type) ∈ keywords d := hl ▸ hk
    have hc := (capitals_keyword hk').trans (hl.trans (capitals_keyword hk).symm)
    refine ⟨ht, fun h => absurd h (keyword_types hk).1, ?_, fun _ => hl, hc, fun h => absurd h hs⟩
    rw [newRawIdent_keyword hk, newRawIdent_keyword hk']
    exact hc

theorem Spec.Pointwise.imp {α β : Type} {R R' : α → β → Prop} {l : List α} {r : List β} (h : Pointwise R l r)
    (hi : ∀ a b, R a b → R' a b) : Pointwise R' l r := by
  induction h with
  | nil => exact .nil
  | cons h _ ih => exact .cons (hi _ _ h) ih

theorem Spec.Pointwise.imp_mem {α β : Type} {R R' : α → β → Prop} {l : List α} {r : List β} (h : Pointwise R l r)
    (hi : ∀ a b, a ∈ l → b ∈ r → R a b → R' a b) : Pointwise R' l r := by
  induction h with
  | nil => exact .nil
  | cons h _ ih =>
    exact .cons (hi _ _ (by simp) (by simp) h)
      (ih fun a b ha hb => hi a b (List.mem_cons_of_mem _ ha) (List.mem_cons_of_mem _ hb))

/-- If the blurring changes no table, the tables are equal. -/
theorem Spec.Pointwise.unblur {T I A N : Type} {ft fe : T → T} {fi : I → I} {b a : List (Stmt T I A N)}
    (h : Pointwise (StmtEq ft fi) b a) (hb : ∀ t, .createTable t ∈ b → ft t = fe t) (ha : ∀ t, .createTable t ∈ a → ft t = fe t) :
    Pointwise (StmtEq fe fi) b a :=
  h.imp_mem fun _ _ h1 h2 hs => by
    cases hs with
    | table e => exact .table ((hb _ h1).symm.trans (e.trans (ha _ h2)))
    | index e => exact .index e

/-! Quotes matter nowhere in the tables of PostgreSQL, CockroachDB and Spanner. -/

theorem Pg.CreateTable.blur_quote (t : Pg.CreateTable) : t.blur (quoteBlur .postgres) = t.blur .exact := rfl
theorem Crdb.CreateTable.blur_quote (t : Crdb.CreateTable) : t.blur (quoteBlur .cockroachdb) = t.blur .exact := rfl
theorem Sp.CreateTable.blur_quote (t : Sp.CreateTable) : t.blur (quoteBlur .spanner) = t.blur .exact := rfl

end Ddl
