import Verif.Spec.Source
import Verif.Lemmas.Post
import Verif.Lemmas.Rel
import Verif.Lemmas.LexSpec

/-! # What a parser has consumed -/

set_option autoImplicit false

namespace Ddl
open Spec Spec.Written Spec.Source

theorem upper_append (a b : Str) : upper (a ++ b) = upper a ++ upper b := by simp [upper]

theorem getLast?_getD_cons {α : Type} (x d : α) (l : List α) : (x :: l).getLast?.getD d = l.getLast?.getD x := by
  cases l with
  | nil => rfl
  | cons y l =>
    rw [List.getLast?_cons_cons]
    cases h : (y :: l).getLast? with
    | none => simp at h
    | some z => rfl

theorem getLast?_or_cons {α : Type} (x : α) (l : List α) : (x :: l).getLast? = l.getLast?.or (some x) := by
  cases l with
  | nil => rfl
  | cons y l =>
    rw [List.getLast?_cons_cons]
    cases h : (y :: l).getLast? with
    | none => simp at h
    | some z => rfl

namespace Src

theorem cons_of {ts : List Token} {T : TokType} (h : curT ts = T) (hT : T ≠ .EOF) : ∃ t r, ts = t :: r ∧ t.type = T := by
  cases ts with
  | nil => exact absurd h.symm hT
  | cons t r => exact ⟨t, r, rfl, h⟩

theorem cons_of_mem {ts : List Token} {l : List TokType} (h : curT ts ∈ l) (hl : .EOF ∉ l) : ∃ t r, ts = t :: r ∧ t.type ∈ l := by
  cases ts with
  | nil => exact absurd h hl
  | cons t r => exact ⟨t, r, rfl, h⟩

theorem cons_of_ne {ts : List Token} (h : curT ts ≠ .EOF) : ∃ t r, ts = t :: r := by
  cases ts with
  | nil => exact absurd rfl h
  | cons t r => exact ⟨t, r, rfl⟩

/-- At most one token is dropped by `tail`. -/
theorem tail_skip (ts : List Token) : ∃ k, k.length ≤ 1 ∧ ts = k ++ ts.tail := by
  cases ts with
  | nil => exact ⟨[], by simp, rfl⟩
  | cons t r => exact ⟨[t], by simp, rfl⟩

/-- A constant is spelled by its type. -/
def Constant (t : Token) : Prop := t.type ∈ [.NULL, .TRUE, .FALSE] → upper t.lit = t.type.str

theorem AllTok.append {P : Token → Prop} {p ts : List Token} (h : AllTok P (p ++ ts)) : AllTok P ts :=
  fun t ht => h t (List.mem_append_right _ ht)

theorem AllTok.of_cons {P : Token → Prop} {t : Token} {ts : List Token} (h : AllTok P (t :: ts)) : AllTok P ts := h.tail

end Src

namespace Spec.Source

theorem Spells.nil : Spells [] [] := rfl

theorem Spells.append {a b : List Token} {v w : List Ident} (h : Spells a v) (h' : Spells b w) : Spells (a ++ b) (v ++ w) := by
  simp only [Spells, spelled, letters, List.flatMap_append, upper_append] at *
  rw [h, h']

theorem Spells.cons {t : Token} {i : Ident} {b : List Token} {w : List Ident} (h : upper i.raw = upper t.lit) (h' : Spells b w) :
    Spells (t :: b) (i :: w) :=
  Spells.append (a := [t]) (v := [i]) (by simpa [Spells, spelled, letters] using h) h'

theorem Many.append {K : Type} {One : List Token → K → Prop} {a b : List Token} {k l : List K} (h : Many One a k) (h' : Many One b l) :
    Many One (a ++ b) (k ++ l) := by
  induction h with
  | nil => exact h'
  | cons ts rest x m hx _ ih => rw [List.append_assoc]; exact .cons _ _ _ _ hx ih

theorem Many.one {K : Type} {One : List Token → K → Prop} {a : List Token} {k : K} (h : One a k) : Many One a [k] := by
  have := Many.cons a [] k [] h .nil
  rwa [List.append_nil] at this

end Spec.Source

section
variable {K N : Type} {name : K → N}

theorem latest_nil {c : K} : ¬ Latest name [] c := by
  rintro ⟨a, b, e, -⟩; simp at e

theorem latest_cons {x c : K} {l : List K} : Latest name (x :: l) c ↔ (c = x ∧ ∀ y ∈ l, name y ≠ name x) ∨ Latest name l c := by
  constructor
  · rintro ⟨a, b, e, h⟩
    cases a with
    | nil => obtain ⟨rfl, rfl⟩ := List.cons.inj e; exact .inl ⟨rfl, h⟩
    | cons y a => obtain ⟨rfl, rfl⟩ := List.cons.inj e; exact .inr ⟨a, b, rfl, h⟩
  · rintro (⟨rfl, h⟩ | ⟨a, b, rfl, h⟩)
    · exact ⟨[], l, rfl, h⟩
    · exact ⟨x :: a, b, rfl, h⟩

theorem latest_append {c : K} {l m : List K} :
    Latest name (l ++ m) c ↔ Latest name m c ∨ (Latest name l c ∧ ∀ y ∈ m, name y ≠ name c) := by
  induction l with
  | nil => simp [latest_nil]
  | cons x l ih =>
    rw [List.cons_append, latest_cons, latest_cons, ih]
    constructor
    · rintro (⟨rfl, h⟩ | h | ⟨h, h'⟩)
      · exact .inr ⟨.inl ⟨rfl, fun y hy => h y (List.mem_append_left _ hy)⟩, fun y hy => h y (List.mem_append_right _ hy)⟩
      · exact .inl h
      · exact .inr ⟨.inr h, h'⟩
    · rintro (h | ⟨⟨rfl, h⟩ | h, h'⟩)
      · exact .inr (.inl h)
      · exact .inl ⟨rfl, fun y hy => by
          rcases List.mem_append.1 hy with hy | hy
          · exact h y hy
          · exact h' y hy⟩
      · exact .inr (.inr ⟨h, h'⟩)

theorem latest_mem {c : K} {l : List K} (h : Latest name l c) : c ∈ l := by
  obtain ⟨a, b, rfl, -⟩ := h; simp

theorem latest_nodup {c : K} {l : List K} (hn : (l.map name).Nodup) : Latest name l c ↔ c ∈ l := by
  refine ⟨latest_mem, fun h => ?_⟩
  obtain ⟨a, b, rfl⟩ := List.append_of_mem h
  refine ⟨a, b, rfl, fun x hx e => ?_⟩
  rw [List.map_append, List.map_cons, List.nodup_append] at hn
  exact (List.nodup_cons.1 hn.2.1).1 (List.mem_map.2 ⟨x, hx, e⟩)

theorem latest_exists {l : List K} {c : K} (h : c ∈ l) : ∃ c', Latest name l c' ∧ name c' = name c := by
  suffices ∀ (n : N) (l : List K), (∃ y ∈ l, name y = n) → ∃ c', Latest name l c' ∧ name c' = n from this _ l ⟨c, h, rfl⟩
  intro n l
  induction l with
  | nil => rintro ⟨y, hy, -⟩; simp at hy
  | cons x l ih =>
    rintro ⟨y, hy, e⟩
    by_cases hl : ∃ y ∈ l, name y = n
    · obtain ⟨z, hz, e'⟩ := ih hl
      exact ⟨z, latest_cons.2 (.inr hz), e'⟩
    · rcases List.mem_cons.1 hy with rfl | hy
      · exact ⟨y, latest_cons.2 (.inl ⟨rfl, fun z hz e' => hl ⟨z, hz, e'.trans e⟩⟩), e⟩
      · exact absurd ⟨y, hy, e⟩ hl

/-- A list of definitions after `written` were added to `old`: of those with the same name it has the last one. -/
def Kept (name : K → N) (old written new : List K) : Prop :=
  (old.map name).Nodup → (new.map name).Nodup ∧ ∀ c, c ∈ new ↔ Latest name (old ++ written) c

namespace Kept

theorem refl (l : List K) : Kept name l [] l := fun h => ⟨h, fun c => by rw [List.append_nil, latest_nodup h]⟩

theorem trans {a b c v w : List K} (h : Kept name a v b) (h' : Kept name b w c) : Kept name a (v ++ w) c := by
  intro hn
  obtain ⟨hb, h⟩ := h hn
  obtain ⟨hc, h'⟩ := h' hb
  refine ⟨hc, fun x => ?_⟩
  rw [h', latest_append, latest_nodup hb, h, ← List.append_assoc, latest_append (l := a ++ v)]

/-- Adding the outcome `m` of a part instead of what was written in it. -/
theorem part {a b v m : List K} (h : Kept name a m b) (hm : Kept name [] v m) : Kept name a v b := by
  intro hn
  obtain ⟨hb, h⟩ := h hn
  obtain ⟨hm, hv⟩ := hm List.nodup_nil
  refine ⟨hb, fun x => ?_⟩
  rw [List.nil_append] at hv
  rw [h, latest_append, latest_append, latest_nodup hm, hv]
  have : (∀ y ∈ m, name y ≠ name x) ↔ ∀ y ∈ v, name y ≠ name x := by
    constructor
    · intro hx y hy e
      obtain ⟨z, hz, e'⟩ := latest_exists (name := name) hy
      exact hx z ((hv z).2 hz) (e'.trans e)
    · intro hx y hy
      exact hx y (latest_mem ((hv y).1 hy))
  rw [this]

theorem foldl {add : List K → K → List K} (hadd : ∀ l c, Kept name l [c] (add l c)) (w : List K) :
    ∀ l, Kept name l w (w.foldl add l) := by
  induction w with
  | nil => exact refl
  | cons c w ih => intro l; exact (hadd l c).trans (ih _)

/-- The definition of the same name is replaced. -/
theorem replaced {a b : List K} {x c : K} (e : name x = name c) : Kept name (a ++ x :: b) [c] (a ++ c :: b) := by
  intro hn
  have hn' : ((a ++ c :: b).map name).Nodup := by simpa [e] using hn
  refine ⟨hn', fun y => ?_⟩
  rw [latest_append, latest_nodup hn, latest_cons]
  have ha : ∀ y ∈ a, name y ≠ name c := by
    intro y hy e'
    rw [List.map_append, List.nodup_append] at hn'
    exact hn'.2.2 _ (List.mem_map.2 ⟨y, hy, rfl⟩) _ (by simp) e'
  have hb : ∀ y ∈ b, name y ≠ name c := by
    intro y hy e'
    rw [List.map_append, List.map_cons, List.nodup_append] at hn'
    exact (List.nodup_cons.1 hn'.2.1).1 (List.mem_map.2 ⟨y, hy, e'⟩)
  simp only [List.mem_append, List.mem_cons, latest_nil, or_false, List.not_mem_nil, false_implies, implies_true, and_true, forall_eq]
  constructor
  · rintro (h | rfl | h)
    · exact .inr ⟨.inl h, fun e' => ha y h e'.symm⟩
    · exact .inl rfl
    · exact .inr ⟨.inr (.inr h), fun e' => hb y h e'.symm⟩
  · rintro (rfl | ⟨h | rfl | h, h'⟩)
    · exact .inr (.inl rfl)
    · exact .inl h
    · exact absurd e.symm h'
    · exact .inr (.inr h)

/-- The definition is added, its name being new. -/
theorem added {l new : List K} {c : K} (hp : new.Perm (l ++ [c])) (h : ∀ x ∈ l, name x ≠ name c) : Kept name l [c] new := by
  intro hn
  have hn' : ((l ++ [c]).map name).Nodup := by
    rw [List.map_append, List.nodup_append]
    refine ⟨hn, by simp, ?_⟩
    intro a ha b hb
    obtain ⟨x, hx, rfl⟩ := List.mem_map.1 ha
    obtain ⟨y, hy, rfl⟩ := List.mem_map.1 hb
    rw [List.mem_singleton.1 hy]; exact h x hx
  exact ⟨(hp.map name).nodup_iff.2 hn', fun x => by rw [latest_nodup hn', hp.mem_iff]⟩

end Kept
end

/-- The loop of `Parse`. -/
theorem parseLoop_source {S : Type} {Statement : List Token → S → Prop} {create : List Token → Res (S × List Token)} {P : Token → Prop}
    (hc : ∀ ts, AllTok P ts → curT ts = .CREATE → Post (fun r => ∃ p, ts = p ++ r.2 ∧ Statement p r.1) (create ts)) :
    ∀ n ts, AllTok P ts → Post (fun l => Scripted Statement ts l) (parseLoop create n ts) := by
  intro n
  induction n with
  | zero => intro ts _; exact trivial
  | succ n ih =>
    intro ts hP
    rw [parseLoop]
    split
    · rename_i h
      refine Post.bind (hc ts hP h) ?_
      rintro ⟨x, ts'⟩ ⟨p, rfl, hx⟩
      refine Post.next_bind ?_
      obtain ⟨k, hk, e⟩ := Src.tail_skip ts'
      have hP' : AllTok P ts'.tail := (Src.AllTok.append hP).tail
      refine Post.bind (ih _ hP') ?_
      intro l hl
      refine Post.ok ?_
      show Scripted Statement (p ++ ts') (x :: l)
      rw [e]
      exact .statement _ _ _ _ _ hx hk hl
    · split
      · rename_i h
        refine Post.next_bind ?_
        cases ts with
        | nil => simp [curT, cur, eofToken] at h
        | cons t r => exact (ih r hP.tail).imp fun l hl => .skip _ _ _ h hl
      · split
        · rename_i h
          cases ts with
          | nil => exact Post.ok .nil
          | cons t r => exact Post.ok (.stop t r h)
        · exact trivial

namespace Src

theorem parseIfNotExists_source {ts : List Token} {t : Token} :
    Post (fun r => ∃ i k, t :: ts = k :: (i ++ r.2.tail) ∧ Conditional i r.1 ∧ k = t) (parseIfNotExists (t :: ts)) := by
  unfold parseIfNotExists
  split
  · rename_i h
    obtain ⟨t1, r, rfl, k1⟩ := cons_of (ts := ts) (T := .IF) (by simpa [peekT] using h) (by decide)
    refine Post.next_bind (Post.checkPeek_bind fun h2 => ?_)
    obtain ⟨t2, r, rfl, k2⟩ := cons_of (ts := r) (T := .NOT) (by simpa [peekT] using h2) (by decide)
    refine Post.next_bind (Post.checkPeek_bind fun h3 => ?_)
    obtain ⟨t3, r, rfl, k3⟩ := cons_of (ts := r) (T := .EXISTS) (by simpa [peekT] using h3) (by decide)
    refine Post.next_bind ?_
    exact Post.ok ⟨[t1, t2, t3], t, rfl, by simp [Conditional, kinds, k1, k2, k3], rfl⟩
  · exact Post.ok ⟨[], t, rfl, by simp [Conditional], rfl⟩

theorem keywords_constant (d : Dialect) : ∀ x ∈ keywords d, x.2 ∈ [.NULL, .TRUE, .FALSE] → x.1 = x.2.str := by
  cases d <;> decide +kernel

theorem symbols_constant : ∀ x ∈ symbols, x.2 ∉ [.NULL, .TRUE, .FALSE] := by decide +kernel

theorem lexHead_constant (d : Dialect) (c : Char) (r : Str) : Constant (lexHead d c r).1 := by
  unfold lexHead
  split
  · split <;> exact fun h => absurd h (by simp)
  · split
    · rename_i x h
      have : x.1.type ∉ [.NULL, .TRUE, .FALSE] := by
        unfold lexOp at h
        repeat' split at h
        all_goals first | (cases h; simp [newToken]; done) | (simp at h; done) | skip
      exact fun h => absurd h this
    · split
      · rename_i t h
        exact fun h' => absurd h' (symbols_constant _ ((symbol_iff c t).1 h))
      · split
        · exact fun h => absurd h (by simp)
        · split
          · intro h
            dsimp only at h ⊢
            rcases wordType_lookup d (readIdentifier (c :: r)).1 with hw | ⟨hw, -⟩
            · exact keywords_constant d _ hw h
            · rw [hw] at h; exact absurd h (by simp)
          · exact fun h => absurd h (by simp [newToken])

theorem lexLoop_constant (d : Dialect) : ∀ n s, AllTok Constant (lexLoop d n s) := by
  intro n
  induction n with
  | zero => intro s t ht; simp [lexLoop] at ht
  | succ n ih =>
    intro s
    rw [lexLoop]
    split
    · intro t ht; simp at ht
    · split
      · exact ih _
      · intro t ht
        rcases List.mem_cons.1 ht with rfl | ht
        · exact lexHead_constant _ _ _
        · exact ih _ t ht

theorem lex_constant (d : Dialect) (s : Str) : AllTok Constant (lex d s) := lexLoop_constant d _ s

end Src

/-- `Parse`. -/
theorem parseTokens_source {S : Type} {Statement : List Token → S → Prop} {create : List Token → Res (S × List Token)} (d : Dialect) (s : Str)
    (hc : ∀ ts, AllTok Src.Constant ts → curT ts = .CREATE → Post (fun r => ∃ p, ts = p ++ r.2 ∧ Statement p r.1) (create ts)) :
    Post (fun l => Scripted Statement (lex d s) l) (parseTokens create (lex d s)) := by
  unfold parseTokens start
  split
  · exact trivial
  · exact parseLoop_source hc _ _ (Src.lex_constant d s)

end Ddl
