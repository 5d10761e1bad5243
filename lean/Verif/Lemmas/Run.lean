import Verif.Spec.Run
import Verif.Lemmas.PgNoDiff
import Verif.Lemmas.Shape

/-! # Executing statements one after the other -/

namespace Ddl
open Spec
set_option autoImplicit false

section
variable {α : Type} (m : Str → Option α)

theorem upd_upd (k : Str) (v w : Option α) : upd (upd m k v) k w = upd m k w := by
  funext x; simp only [upd]; split <;> rfl

theorem upd_self {k : Str} {v : Option α} (h : m k = v) : upd m k v = m := by
  funext x; simp only [upd]; split
  · rename_i e; rw [e, h]
  · rfl

@[simp] theorem upd_same (k : Str) (v : Option α) : upd m k v k = v := by simp [upd]

theorem upd_ne {k x : Str} (v : Option α) (h : x ≠ k) : upd m k v x = m x := by simp [upd, h]
end

section
variable {S A : Type} {step : S → A → S → Prop}

theorem Spec.Runs.append {s s' s'' : S} {l r : List A} (h : Runs step s l s') (h' : Runs step s' r s'') : Runs step s (l ++ r) s'' := by
  induction h with
  | nil => exact h'
  | cons h _ ih => exact .cons h (ih h')

theorem Spec.Runs.one {s s' : S} {a : A} (h : step s a s') : Runs step s [a] s' := .cons h (.nil _)

end

/-- The entries of the elements of `l` are replaced. -/
def over {X C : Type} (key : X → Str) (l : List X) (new : X → Option C) (m : Str → Option C) : Str → Option C :=
  fun k => match l.find? (fun x => key x == k) with
    | some x => new x
    | none => m k

section
variable {S A X C : Type} {step : S → A → S → Prop} {key : X → Str}

theorem over_nil (new : X → Option C) (m : Str → Option C) : over key [] new m = m := rfl

theorem over_cons {x : X} {l : List X} (h : key x ∉ l.map key) (new : X → Option C) (m : Str → Option C) :
    over key (x :: l) new m = over key l new (upd m (key x) (new x)) := by
  funext k
  simp only [over, List.find?_cons]
  by_cases e : key x = k
  · subst e
    have hn : l.find? (fun y => key y == key x) = none := by
      rw [List.find?_eq_none]
      intro y hy e
      exact h (List.mem_map.2 ⟨y, hy, by simpa using e⟩)
    simp [hn]
  · have : (key x == k) = false := by simpa using e
    rw [this]
    cases hf : l.find? (fun y => key y == k) with
    | none => simp only; rw [upd_ne _ _ (fun h => e h.symm)]
    | some y => rfl

theorem over_mem {l : List X} (hd : (l.map key).Nodup) (new : X → Option C) (m : Str → Option C) {x : X} (hx : x ∈ l) :
    over key l new m (key x) = new x := by
  simp only [over, find?_of_nodup (f := key) hd hx]

theorem over_not_mem {l : List X} (new : X → Option C) (m : Str → Option C) {k : Str} (h : k ∉ l.map key) :
    over key l new m k = m k := by
  have hn : l.find? (fun y => key y == k) = none := by
    rw [List.find?_eq_none]
    intro y hy e
    exact h (List.mem_map.2 ⟨y, hy, by simpa using e⟩)
  simp only [over, hn]

theorem over_over (l : List X) (new new' : X → Option C) (m : Str → Option C) :
    over key l new' (over key l new m) = over key l new' m := by
  funext k
  simp only [over]
  split
  · rfl
  · rfl

/-- One block of statements for each element, changing the entry of this element only. -/
theorem runs_each (f : X → List A) (new : X → Option C) (mk : (Str → Option C) → S) :
    ∀ (l : List X) (m : Str → Option C), (l.map key).Nodup →
      (∀ x ∈ l, ∀ m', m' (key x) = m (key x) → Runs step (mk m') (f x) (mk (upd m' (key x) (new x)))) →
      Runs step (mk m) (l.flatMap f) (mk (over key l new m)) := by
  intro l
  induction l with
  | nil => intro m _ _; exact .nil _
  | cons x l ih =>
    intro m hd h
    simp only [List.map_cons, List.nodup_cons] at hd
    rw [List.flatMap_cons, over_cons hd.1]
    refine (h x (by simp) m rfl).append (ih _ hd.2 ?_)
    intro y hy m' hm'
    refine h y (by simp [hy]) m' ?_
    rw [hm', upd_ne]
    rintro e
    exact hd.1 (List.mem_map.2 ⟨y, hy, e⟩)

theorem find?_congr_key {l : List X} {k : Str} : l.find? (fun x => key x == k) = none ↔ k ∉ l.map key := by
  rw [List.find?_eq_none]
  constructor
  · rintro h m
    obtain ⟨x, hx, rfl⟩ := List.mem_map.1 m
    exact h x hx (by simp)
  · intro h x hx e
    exact h (List.mem_map.2 ⟨x, hx, by simpa using e⟩)

/-- Old entries changed to what they are in `a`, then the new ones added: all entries are those of `a`. -/
theorem over_total {b a added : List X} {g : X → C} (hda : (a.map key).Nodup) (hd : (added.map key).Nodup)
    (hadd : ∀ x, x ∈ added ↔ x ∈ a ∧ key x ∉ b.map key) :
    over key added (fun x => some (g x))
      (over key b (fun x => (a.find? (fun y => key y == key x)).map g) (fun k => (b.find? (fun x => key x == k)).map g)) =
    fun k => (a.find? (fun x => key x == k)).map g := by
  funext k
  by_cases hk : k ∈ added.map key
  · obtain ⟨x, hx, rfl⟩ := List.mem_map.1 hk
    rw [over_mem hd _ _ hx, find?_of_nodup (f := key) hda ((hadd x).1 hx).1]
    rfl
  · rw [over_not_mem _ _ hk]
    by_cases hb : k ∈ b.map key
    · obtain ⟨x, hx, rfl⟩ := List.mem_map.1 hb
      cases hf : b.find? (fun y => key y == key x) with
      | none => exact absurd hb (find?_congr_key.1 hf)
      | some y =>
        have hy : key y = key x := by simpa using List.find?_some hf
        simp only [over, hf, hy]
    · rw [over_not_mem _ _ hb, find?_congr_key.2 hb]
      have : k ∉ a.map key := by
        intro h
        obtain ⟨x, hx, rfl⟩ := List.mem_map.1 h
        exact hk (List.mem_map_of_mem ((hadd x).2 ⟨hx, hb⟩))
      rw [find?_congr_key.2 this]

end

/-! ## Texts -/

theorem join_comma_inj {l l' : List Str} (h : ∀ a ∈ l, a ≠ [] ∧ ',' ∉ a) (h' : ∀ a ∈ l', a ≠ [] ∧ ',' ∉ a)
    (e : join s%", " l = join s%", " l') : l = l' := by
  have ne : ∀ {a : Str} {r : List Str}, a ≠ [] → join s%", " (a :: r) ≠ [] := by
    intro a r ha
    cases r <;> simp [join, ha]
  cases l with
  | nil =>
    cases l' with
    | nil => rfl
    | cons j r' => exact absurd e.symm (ne (h' j (by simp)).1)
  | cons i r =>
    cases l' with
    | nil => exact absurd e (ne (h i (by simp)).1)
    | cons j r' =>
      rw [Pg.join_comma_blank, Pg.join_comma_blank] at e
      have k : ∀ {i : Str} {r : List Str}, (∀ a ∈ i :: r, a ≠ [] ∧ ',' ∉ a) → ∀ a ∈ i :: r.map (' ' :: ·), a ≠ [] ∧ ',' ∉ a := by
        intro i r h a ha
        rcases List.mem_cons.1 ha with rfl | ha
        · exact h a (by simp)
        · obtain ⟨b, hb, rfl⟩ := List.mem_map.1 ha
          have := (h b (by simp [hb])).2
          simp [this]
      have := join_inj (k h) (k h') e
      simp only [List.cons.injEq] at this
      rw [this.1, List.map_injective_iff.2 (fun _ _ h => (List.cons.inj h).2) this.2]

theorem join_comma_close {l : List Str} (h : ∀ a ∈ l, ')' ∉ a) : ')' ∉ join s%", " l := by
  induction l with
  | nil => simp [join]
  | cons i r ih =>
    have ih := ih fun j hj => h j (by simp [hj])
    cases r with
    | nil => simpa [join] using h i (by simp)
    | cons j r =>
      simp only [join, List.mem_append, not_or] at ih ⊢
      exact ⟨⟨h i (by simp), by decide⟩, ih⟩

theorem map_bare (l : List Ident) : l.map Ident.bare = (l.map Ident.diffStr).map (fun s => (⟨s, [], []⟩ : Ident)) := by
  simp [Ident.bare, Ident.diffStr, Function.comp_def]

theorem words_inj {e e' : Expr} (h : WordsOnly e) (h' : WordsOnly e')
    (eq : join s%" " (e.map Ident.diffStr) = join s%" " (e'.map Ident.diffStr)) : e.map Ident.bare = e'.map Ident.bare := by
  have at_ : ∀ {e : Expr}, WordsOnly e → ∀ a ∈ e.map Ident.diffStr, Pg.Atom a := by
    intro e h a ha
    obtain ⟨i, hi, rfl⟩ := List.mem_map.1 ha
    exact h i hi
  rw [map_bare, Pg.join_blank_inj (at_ h) (at_ h') eq, ← map_bare]

theorem params_inj {e e' : Expr} {t t' : TokType} (h : Pg.TameParams e) (h' : Pg.TameParams e')
    (eq : (t.str ++ if e = [] then [] else s%"(" ++ (e.map Ident.diffStr).flatten ++ s%")") =
      t'.str ++ if e' = [] then [] else s%"(" ++ (e'.map Ident.diffStr).flatten ++ s%")") :
    t = t' ∧ e.map Ident.bare = e'.map Ident.bare := by
  have := Pg.dataType_inj (t := ⟨[], t, e⟩) (t' := ⟨[], t', e'⟩) h h' eq
  simpa [Pg.DataType.bare] using this

end Ddl
