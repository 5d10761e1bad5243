import Verif.Lemmas.Follow
import Verif.Spec.ShowText
import Verif.Lemmas.Lexeme
import Verif.Lemmas.Grammar

/-! # Reading statements with `;` and a new line behind each -/

namespace Ddl
open Spec
set_option autoImplicit false

theorem Pg.parse_newline (s : Str) : Pg.parse (s%"\n" ++ s) = Pg.parse s := by
  unfold Pg.parse
  exact congrArg _ (lex_ws _ '\n' s rfl)

theorem Crdb.parse_newline (s : Str) : Crdb.parse (s%"\n" ++ s) = Crdb.parse s := by
  unfold Crdb.parse
  exact congrArg _ (lex_ws _ '\n' s rfl)

theorem My.parse_newline (s : Str) : My.parse (s%"\n" ++ s) = My.parse s := by
  unfold My.parse
  exact congrArg _ (lex_ws _ '\n' s rfl)

theorem adds_ok {S : Type} {A B : List S} {r : Res (List S)} (h : Adds A (.ok B) r) : r = .ok (A ++ B) := by cases h; rfl

theorem adds_err {S : Type} {A : List S} {e : Err} {r : Res (List S)} (h : Adds A (.err e) r) : r = .err e := by cases h; rfl

section
variable {S : Type} {d : Dialect} {parse : Str → Res (List S)} (hnl : ∀ s, parse (s%"\n" ++ s) = parse s)
  (h2 : ∀ {a b : Str} {ts : List Token} {A : List S}, Writes d false a ts → (∀ c ∈ a, c ≠ nul) → parse a = .ok A →
      (∀ p, parse b ≠ .panic p) → Adds A (parse b) (parse (a ++ s%";" ++ b)))
include hnl h2

theorem front_step {a rest : Str} {A : List S} (hw : Whole d a) (ha : parse a = .ok A) (hp : ∀ p, parse rest ≠ .panic p) :
    Adds A (parse rest) (parse (a ++ s%";\n" ++ rest)) := by
  obtain ⟨⟨ts, hw⟩, h0⟩ := hw
  have := h2 (b := s%"\n" ++ rest) hw h0 ha (by rw [hnl]; exact hp)
  rw [hnl] at this
  rwa [show a ++ s%";\n" ++ rest = a ++ s%";" ++ (s%"\n" ++ rest) by simp]

/-- Statements in front of a text that is read. -/
theorem parse_front {rest : Str} {B : List S} (hr : parse rest = .ok B) :
    ∀ {l : List (Str × List S)}, (∀ x ∈ l, Whole d x.1 ∧ parse x.1 = .ok x.2) →
    parse (l.flatMap (fun x => x.1 ++ s%";\n") ++ rest) = .ok (l.flatMap (·.2) ++ B) := by
  intro l
  induction l with
  | nil => intro _; exact hr
  | cons x l ih =>
    intro h
    have ih := ih (fun y hy => h y (List.mem_cons_of_mem _ hy))
    have := front_step hnl h2 (h x List.mem_cons_self).1 (h x List.mem_cons_self).2 (rest := l.flatMap (fun x => x.1 ++ s%";\n") ++ rest)
      (by rw [ih]; intro p e; cases e)
    rw [ih] at this
    rw [List.flatMap_cons, List.flatMap_cons, List.append_assoc, adds_ok this, List.append_assoc]

/-- Statements in front of a text that cannot be read. -/
theorem parse_front_err {rest : Str} {e : Err} (hr : parse rest = .err e) :
    ∀ {l : List (Str × List S)}, (∀ x ∈ l, Whole d x.1 ∧ parse x.1 = .ok x.2) →
    parse (l.flatMap (fun x => x.1 ++ s%";\n") ++ rest) = .err e := by
  intro l
  induction l with
  | nil => intro _; exact hr
  | cons x l ih =>
    intro h
    have ih := ih (fun y hy => h y (List.mem_cons_of_mem _ hy))
    have := front_step hnl h2 (h x List.mem_cons_self).1 (h x List.mem_cons_self).2 (rest := l.flatMap (fun x => x.1 ++ s%";\n") ++ rest)
      (by rw [ih]; intro p e; cases e)
    rw [ih] at this
    rw [List.flatMap_cons, List.append_assoc, adds_err this]

theorem parse_lines (hnil : parse [] = .ok []) {l : List (Str × List S)} (h : ∀ x ∈ l, Whole d x.1 ∧ parse x.1 = .ok x.2) :
    parse (l.flatMap (fun x => x.1 ++ s%";\n")) = .ok (l.flatMap (·.2)) := by
  simpa using parse_front hnl h2 hnil h

end

/-- A text that begins with `ALTER TABLE` cannot be read. -/
theorem Crdb.parse_alter (s : Str) : Crdb.parse (s%"ALTER TABLE " ++ s) = .err .unexpectedCurrentToken := by
  unfold Crdb.parse
  rw [lex_lit (d := .cockroachdb) (by decide) (by decide) (by decide)]
  rfl

/-! ## The server of MySQL -/

namespace My.Show

theorem quoted_plain {s : Str} (h : '`' ∉ s) : quoted s = s%"`" ++ s ++ s%"`" := by
  unfold quoted
  congr 2
  induction s with
  | nil => rfl
  | cons c s ih =>
    simp only [List.mem_cons, not_or] at h
    rw [List.flatMap_cons, ih h.2, if_neg (Ne.symm h.1)]
    rfl

theorem createQuery_plain {s : Str} (h : '`' ∉ s) : createQuery s = s%"SHOW CREATE TABLE " ++ quoted s := by
  rw [quoted_plain h]
  simp [createQuery]

theorem quoted_length (s : Str) : (quoted s).length = s.length + s.count '`' + 2 := by
  unfold quoted
  simp only [List.length_append]
  have : (s.flatMap fun c => if c = '`' then s%"``" else [c]).length = s.length + s.count '`' := by
    induction s with
    | nil => rfl
    | cons c s ih =>
      rw [List.flatMap_cons, List.length_append, ih, List.length_cons, List.count_cons]
      by_cases h : c = '`' <;> simp [h] <;> omega
  rw [this]
  simp
  omega

theorem escape_inj : ∀ {s t : Str}, (s.flatMap fun c => if c = '`' then s%"``" else [c]) = (t.flatMap fun c => if c = '`' then s%"``" else [c]) → s = t := by
  intro s
  induction s with
  | nil =>
    intro t h
    cases t with
    | nil => rfl
    | cons c t => rw [List.flatMap_cons] at h; split at h <;> simp at h
  | cons c s ih =>
    intro t h
    cases t with
    | nil => rw [List.flatMap_cons] at h; split at h <;> simp at h
    | cons e t =>
      rw [List.flatMap_cons, List.flatMap_cons] at h
      split at h <;> split at h
      · rename_i h1 h2
        rw [h1, h2, ih (t := t) (by simpa using h)]
      · rename_i h1 h2
        simp at h
        exact absurd h.1.symm h2
      · rename_i h1 h2
        simp at h
        exact absurd h.1 h1
      · simp at h
        rw [h.1, ih h.2]

theorem quoted_inj {s t : Str} (h : quoted s = quoted t) : s = t := by
  unfold quoted at h
  simp only [List.append_cancel_right_eq, List.append_cancel_left_eq] at h
  exact escape_inj h

theorem server_holds {db : List (Str × Str)} (h : (db.map (·.1)).Nodup) : Holds (server db) db := by
  refine ⟨rfl, ?_, ?_⟩
  · intro t ht
    simp only [server]
    cases e : db.find? fun x => decide (s%"SHOW CREATE TABLE " ++ quoted t.1 = s%"SHOW CREATE TABLE " ++ quoted x.1) with
    | none =>
      have := List.find?_eq_none.1 e t ht
      simp at this
    | some x =>
      have h1 := List.find?_some e
      have h2 := List.mem_of_find?_eq_some e
      simp only [decide_eq_true_eq, List.append_cancel_left_eq] at h1
      have := List.inj_on_of_nodup_map h ht h2 (quoted_inj h1)
      rw [this]
  · intro q hq
    simp only [server]
    have : db.find? (fun x => decide (q = s%"SHOW CREATE TABLE " ++ quoted x.1)) = none := by
      rw [List.find?_eq_none]
      intro x hx
      simpa using hq x hx
    rw [this]
    exact ⟨_, rfl⟩

theorem tableLines_holds {s : Server} {db : List (Str × Str)} (h : ∀ t ∈ db, s.create (createQuery t.1) = .ok t.2) :
    tableLines s (db.map (·.1)) = .ok (db.flatMap fun t => t.2 ++ s%";\n") := by
  induction db with
  | nil => rfl
  | cons t db ih =>
    simp only [List.map_cons, tableLines, h t List.mem_cons_self, bind_ok, ih (fun x hx => h x (List.mem_cons_of_mem _ hx)),
      List.flatMap_cons]

theorem tableLines_err {s : Server} {l : List Str} {t : Str} (ht : t ∈ l) (h : ∃ e, s.create (createQuery t) = .err e)
    (hs : ∀ q, (∃ x, s.create q = .ok x) ∨ ∃ e, s.create q = .err e) : ∃ e, tableLines s l = .err e := by
  induction l with
  | nil => cases ht
  | cons u l ih =>
    rw [tableLines]
    rcases hs (createQuery u) with ⟨x, hx⟩ | ⟨e, he⟩
    · rcases List.mem_cons.1 ht with rfl | ht
      · rw [hx] at h
        obtain ⟨e, h⟩ := h
        cases h
      · obtain ⟨e, ih⟩ := ih ht
        exact ⟨e, by rw [hx, bind_ok, ih]; rfl⟩
    · exact ⟨e, by rw [he]; rfl⟩

end My.Show

end Ddl
