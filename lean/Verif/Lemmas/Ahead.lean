import Verif.Lemmas.Post

/-!
# Reasoning about a parser that finds a semicolon and more tokens where it found the end before

`Leads g r r'`: if the run `r` succeeds then so does `r'`, with the value that `g` gives.
-/

namespace Ddl
set_option autoImplicit false

/-- If the first run succeeds then so does the second, with a value given by the first. -/
def Leads {α β : Type} (g : α → β) (r : Res α) (r' : Res β) : Prop := ∀ a, r = .ok a → r' = .ok (g a)

/-- The run does not succeed. -/
def Dead {α : Type} (r : Res α) : Prop := ∀ a, r ≠ .ok a

/-- The tokens begin with a semicolon, and the lexer does not panic behind it. -/
structure Semi (us : List Token) : Prop where
  cur : curT us = .SEMICOLON
  peek : peekT us ≠ .PANIC

/-- More tokens behind the state. -/
def grow {α : Type} (us : List Token) (a : α × List Token) : α × List Token := (a.1, a.2 ++ us)

@[inherit_doc grow]
def grow3 {α β : Type} (us : List Token) (a : α × β × List Token) : α × β × List Token := (a.1, a.2.1, a.2.2 ++ us)

@[inherit_doc grow]
def grow4 {α β γ : Type} (us : List Token) (a : α × β × γ × List Token) : α × β × γ × List Token := (a.1, a.2.1, a.2.2.1, a.2.2.2 ++ us)

/-- As `Leads`, unless the first run ends behind all tokens. -/
def Weak {α : Type} (us : List Token) (r r' : Res (α × List Token)) : Prop :=
  ∀ a rest, r = .ok (a, rest) → rest = [] ∨ r' = .ok (a, rest ++ us)

@[inherit_doc Weak]
def Weak3 {α β : Type} (us : List Token) (r r' : Res (α × β × List Token)) : Prop :=
  ∀ a b rest, r = .ok (a, b, rest) → rest = [] ∨ r' = .ok (a, b, rest ++ us)

section
variable {α β γ δ : Type} {g : α → β} {k : γ → δ}

theorem Dead.err {e : Err} : Dead (.err e : Res α) := fun _ h => by cases h
theorem Dead.panic {p : Panic} : Dead (.panic p : Res α) := fun _ h => by cases h
theorem Dead.fuel : Dead (.outOfFuel : Res α) := fun _ h => by cases h

theorem Dead.bind {r : Res α} {f : α → Res γ} (h : Dead r) : Dead (r >>= f) := by
  intro c hc
  cases r with
  | ok a => exact h a rfl
  | err _ => cases hc
  | panic _ => cases hc
  | outOfFuel => cases hc

theorem Dead.bind_ok {r : Res α} {a : α} {f : α → Res γ} (h : r = .ok a) (hf : Dead (f a)) : Dead (r >>= f) := by
  subst h; exact hf

theorem Dead.bind_all {r : Res α} {f : α → Res γ} (hf : ∀ a, Dead (f a)) : Dead (r >>= f) := by
  cases r with
  | ok a => exact hf a
  | err _ => exact .err
  | panic _ => exact .panic
  | outOfFuel => exact .fuel

theorem Leads.ok {a : α} {b : β} (h : b = g a) : Leads g (.ok a) (.ok b) := by
  intro x e; cases e; rw [h]

theorem Leads.dead {r : Res α} {r' : Res β} (h : Dead r) : Leads g r r' := fun a e => absurd e (h a)

theorem Leads.bind {r : Res α} {r' : Res β} {f : α → Res γ} {f' : β → Res δ} (h : Leads g r r') (hf : ∀ a, Leads k (f a) (f' (g a))) :
    Leads k (r >>= f) (r' >>= f') := by
  intro c hc
  cases r with
  | ok a => rw [h a rfl]; exact hf a c hc
  | err _ => cases hc
  | panic _ => cases hc
  | outOfFuel => cases hc

/-- For a step that does not depend on the tokens. -/
theorem Leads.bind_same {r : Res α} {f : α → Res γ} {f' : α → Res δ} (hf : ∀ a, Leads k (f a) (f' a)) : Leads k (r >>= f) (r >>= f') :=
  Leads.bind (g := id) (fun _ h => h) hf

theorem Leads.ite {c c' : Prop} [Decidable c] [Decidable c'] {a b : Res α} {a' b' : Res β} (hc : c' ↔ c)
    (h₁ : c → Leads g a a') (h₂ : ¬ c → Leads g b b') : Leads g (if c then a else b) (if c' then a' else b') := by
  by_cases h : c
  · rw [if_pos h, if_pos (hc.2 h)]; exact h₁ h
  · rw [if_neg h, if_neg (fun hh => h (hc.1 hh))]; exact h₂ h

/-- For a condition that is checked only to report an error. -/
theorem Leads.ite_err {c c' : Prop} [Decidable c] [Decidable c'] {e : Err} {b : Res α} {a' b' : Res β} (hc : ¬ c → ¬ c')
    (h : ¬ c → Leads g b b') : Leads g (if c then .err e else b) (if c' then a' else b') := by
  by_cases h' : c
  · rw [if_pos h']; exact .dead .err
  · rw [if_neg h', if_neg (hc h')]; exact h h'

theorem Weak.bind {us : List Token} {r r' : Res (α × List Token)} {f : α × List Token → Res γ} {f' : α × List Token → Res δ}
    (h : Weak us r r') (hd : ∀ a, Dead (f (a, []))) (hf : ∀ a rest, Leads k (f (a, rest)) (f' (a, rest ++ us))) :
    Leads k (r >>= f) (r' >>= f') := by
  intro c hc
  cases r with
  | ok a =>
    obtain ⟨a, rest⟩ := a
    obtain rfl | e := h a rest rfl
    · exact absurd hc (hd a c)
    · rw [e]; exact hf a rest c hc
  | err _ => cases hc
  | panic _ => cases hc
  | outOfFuel => cases hc

theorem Weak3.bind {us : List Token} {r r' : Res (α × β × List Token)} {f : α × β × List Token → Res γ} {f' : α × β × List Token → Res δ}
    (h : Weak3 us r r') (hd : ∀ a b, Dead (f (a, b, []))) (hf : ∀ a b rest, Leads k (f (a, b, rest)) (f' (a, b, rest ++ us))) :
    Leads k (r >>= f) (r' >>= f') := by
  intro c hc
  cases r with
  | ok a =>
    obtain ⟨a, b, rest⟩ := a
    obtain rfl | e := h a b rest rfl
    · exact absurd hc (hd a b c)
    · rw [e]; exact hf a b rest c hc
  | err _ => cases hc
  | panic _ => cases hc
  | outOfFuel => cases hc

theorem Leads.bind_weak {us : List Token} {r r' : Res (α × β × List Token)} {f f' : α × β × List Token → Res (γ × List Token)}
    (h : Leads (grow3 us) r r') (h0 : ∀ a b x, f (a, b, []) = .ok x → x.2 = [])
    (hf : ∀ a b rest, rest ≠ [] → Leads (grow us) (f (a, b, rest)) (f' (a, b, rest ++ us))) : Weak us (r >>= f) (r' >>= f') := by
  intro c rest e
  cases r with
  | ok x =>
    obtain ⟨a, b, r1⟩ := x
    by_cases h1 : r1 = []
    · subst h1
      exact .inl (h0 a b _ e)
    · rw [h _ rfl]
      exact .inr (hf a b r1 h1 _ e)
  | err _ => cases e
  | panic _ => cases e
  | outOfFuel => cases e

theorem Leads.bind_weak4 {ε : Type} {us : List Token} {r r' : Res (α × β × ε × List Token)} {f f' : α × β × ε × List Token → Res (γ × List Token)}
    (h : Leads (grow4 us) r r') (h0 : ∀ a b c x, f (a, b, c, []) = .ok x → x.2 = [])
    (hf : ∀ a b c rest, rest ≠ [] → Leads (grow us) (f (a, b, c, rest)) (f' (a, b, c, rest ++ us))) : Weak us (r >>= f) (r' >>= f') := by
  intro d rest e
  cases r with
  | ok x =>
    obtain ⟨a, b, c, r1⟩ := x
    by_cases h1 : r1 = []
    · subst h1
      exact .inl (h0 a b c _ e)
    · rw [h _ rfl]
      exact .inr (hf a b c r1 h1 _ e)
  | err _ => cases e
  | panic _ => cases e
  | outOfFuel => cases e

/-- As `Leads.bind`, using what is known about the value. -/
theorem Leads.bind_post {Q : α → Prop} {r : Res α} {r' : Res β} {f : α → Res γ} {f' : β → Res δ} (h : Leads g r r') (hq : Post Q r)
    (hf : ∀ a, Q a → Leads k (f a) (f' (g a))) : Leads k (r >>= f) (r' >>= f') := by
  intro c hc
  cases r with
  | ok a => rw [h a rfl]; exact hf a hq c hc
  | err _ => cases hc
  | panic _ => cases hc
  | outOfFuel => cases hc

/-- A run that, if it succeeds, has used up all tokens. -/
def AtEnd (r : Res (α × List Token)) : Prop := ∀ a rest, r = .ok (a, rest) → rest = []

section
variable {us : List Token}

theorem Weak.ok {a : α} {ts : List Token} : Weak us (.ok (a, ts)) (.ok (a, ts ++ us)) := by
  intro b rest e; cases e; exact .inr rfl

theorem Weak.dead {r r' : Res (α × List Token)} (h : Dead r) : Weak us r r' := fun a rest e => absurd e (h (a, rest))

theorem Weak.ite {c c' : Prop} [Decidable c] [Decidable c'] {a b a' b' : Res (α × List Token)} (hc : c' ↔ c)
    (h₁ : c → Weak us a a') (h₂ : ¬ c → Weak us b b') : Weak us (if c then a else b) (if c' then a' else b') := by
  by_cases h : c
  · rw [if_pos h, if_pos (hc.2 h)]; exact h₁ h
  · rw [if_neg h, if_neg (fun hh => h (hc.1 hh))]; exact h₂ h

theorem Weak.bind_leads {r : Res β} {r' : Res γ} {g : β → γ} {f : β → Res (α × List Token)} {f' : γ → Res (α × List Token)} (h : Leads g r r')
    (hf : ∀ a, Weak us (f a) (f' (g a))) : Weak us (r >>= f) (r' >>= f') := by
  intro c rest hc
  cases r with
  | ok a => rw [h a rfl]; exact hf a c rest hc
  | err _ => cases hc
  | panic _ => cases hc
  | outOfFuel => cases hc

/-- A result that is not `Leads` but `Weak3`, if it ends so. -/
theorem Weak3.bind_leads {r : Res β} {r' : Res γ} {g : β → γ} {f : β → Res (α × δ × List Token)} {f' : γ → Res (α × δ × List Token)}
    (h : Leads g r r') (hf : ∀ a, Weak3 us (f a) (f' (g a))) : Weak3 us (r >>= f) (r' >>= f') := by
  intro c d rest hc
  cases r with
  | ok a => rw [h a rfl]; exact hf a c d rest hc
  | err _ => cases hc
  | panic _ => cases hc
  | outOfFuel => cases hc

theorem Weak3.bind_weak {r r' : Res (β × List Token)} {f f' : β × List Token → Res (α × δ × List Token)} (h : Weak us r r')
    (hd : ∀ a b c rest, f (a, []) = .ok (b, c, rest) → rest = []) (hf : ∀ a rest, Weak3 us (f (a, rest)) (f' (a, rest ++ us))) :
    Weak3 us (r >>= f) (r' >>= f') := by
  intro c d rest hc
  cases r with
  | ok a =>
    obtain ⟨a, rest'⟩ := a
    obtain rfl | e := h a rest' rfl
    · exact .inl (hd a c d rest hc)
    · rw [e]; exact hf a rest' c d rest hc
  | err _ => cases hc
  | panic _ => cases hc
  | outOfFuel => cases hc

theorem Weak3.ok {a : α} {b : β} {ts : List Token} : Weak3 us (.ok (a, b, ts)) (.ok (a, b, ts ++ us)) := by
  intro _ _ rest e; cases e; exact .inr rfl

end

theorem Leads.weak {us : List Token} {r r' : Res (α × List Token)} (h : Leads (grow us) r r') : Weak us r r' :=
  fun a rest e => .inr (h (a, rest) e)

theorem Leads.weak3 {us : List Token} {r r' : Res (α × β × List Token)} (h : Leads (grow3 us) r r') : Weak3 us r r' :=
  fun a b rest e => .inr (h (a, b, rest) e)

end

section
variable {us ts : List Token}

theorem cur_app (h : ts ≠ []) : cur (ts ++ us) = cur ts := by
  cases ts with
  | nil => exact absurd rfl h
  | cons _ _ => rfl

theorem curT_app (h : ts ≠ []) : curT (ts ++ us) = curT ts := by rw [curT, cur_app h, curT]

theorem curL_app (h : ts ≠ []) : curL (ts ++ us) = curL ts := by rw [curL, cur_app h, curL]

theorem tail_app (h : ts ≠ []) : (ts ++ us).tail = ts.tail ++ us := by
  cases ts with
  | nil => exact absurd rfl h
  | cons _ _ => rfl

theorem ne_of_curT {t : TokType} (h : curT ts = t) (ht : t ≠ .EOF) : ts ≠ [] := by
  rintro rfl; exact ht h.symm

theorem ne_of_peekT {t : TokType} (h : peekT ts = t) (ht : t ≠ .EOF) : ts.tail ≠ [] := ne_of_curT h ht

theorem ne_of_tail (h : ts.tail ≠ []) : ts ≠ [] := by
  rintro rfl; exact h rfl

theorem cur_iff_app (hu : Semi us) {t : TokType} (h₁ : t ≠ .EOF) (h₂ : t ≠ .SEMICOLON) : curT (ts ++ us) = t ↔ curT ts = t := by
  cases ts with
  | nil =>
    rw [List.nil_append, hu.cur]
    exact ⟨fun h => absurd h.symm h₂, fun h => absurd h.symm h₁⟩
  | cons _ _ => rfl

theorem test_iff_app (hu : Semi us) {p : TokType → Bool} (hp : p .EOF = p .SEMICOLON) :
    p (curT (ts ++ us)) = true ↔ p (curT ts) = true := by
  cases ts with
  | nil =>
    rw [List.nil_append, hu.cur, ← hp]
    rfl
  | cons _ _ => rfl

theorem eof_or_semi_app (hu : Semi us) : (curT (ts ++ us) = .SEMICOLON ∨ curT (ts ++ us) = .EOF) ↔ (curT ts = .SEMICOLON ∨ curT ts = .EOF) := by
  cases ts with
  | nil =>
    rw [List.nil_append, hu.cur]
    exact ⟨fun _ => .inr rfl, fun _ => .inl rfl⟩
  | cons _ _ => rfl

theorem not_eof_app (h : ¬ curT ts = .EOF) : ¬ curT (ts ++ us) = .EOF := by
  rwa [curT_app (by rintro rfl; exact h rfl)]

theorem not_eof_or_app {t : TokType} (h : ¬ (curT ts = .EOF ∨ curT ts = t)) : ¬ (curT (ts ++ us) = .EOF ∨ curT (ts ++ us) = t) := by
  rwa [curT_app (by rintro rfl; exact h (.inl rfl))]

theorem peekT_app (h : ts ≠ []) : peekT (ts ++ us) = curT (ts.tail ++ us) := by rw [peekT, tail_app h]

theorem peek_iff_app (hu : Semi us) (h : ts ≠ []) {t : TokType} (h₁ : t ≠ .EOF) (h₂ : t ≠ .SEMICOLON) :
    peekT (ts ++ us) = t ↔ peekT ts = t := by
  rw [peekT_app h]
  exact cur_iff_app hu h₁ h₂

theorem peek_end_app (hu : Semi us) (h : ts ≠ []) :
    (peekT (ts ++ us) = .SEMICOLON ∨ peekT (ts ++ us) = .EOF) ↔ (peekT ts = .SEMICOLON ∨ peekT ts = .EOF) := by
  rw [peekT_app h]
  exact eof_or_semi_app hu

theorem peekL_app (h : ts.tail ≠ []) : peekL (ts ++ us) = peekL ts := by rw [peekL, tail_app (ne_of_tail h), curL_app h, peekL]

theorem next_nil : next [] = .ok [] := rfl

theorem next_app (hu : Semi us) (h : ts ≠ []) {r : List Token} (e : next ts = .ok r) : next (ts ++ us) = .ok (ts.tail ++ us) ∧ r = ts.tail := by
  unfold next at e ⊢
  split at e
  · cases e
  rename_i hp
  refine ⟨?_, (Res.ok.inj e).symm⟩
  rw [tail_app h, if_neg]
  cases hts : ts.tail with
  | nil => exact hu.peek
  | cons a l =>
    rw [hts] at hp
    cases l with
    | nil =>
      show curT us ≠ _
      rw [hu.cur]
      decide
    | cons _ _ => exact hp

section
variable {γ δ : Type} {k : γ → δ}

theorem Leads.next_bind (hu : Semi us) {f : List Token → Res γ} {f' : List Token → Res δ} (hd : ts ≠ [] ∨ Dead (f []))
    (hf : ts ≠ [] → Leads k (f ts.tail) (f' (ts.tail ++ us))) : Leads k (next ts >>= f) (next (ts ++ us) >>= f') := by
  by_cases h : ts = []
  · subst h
    exact .dead (Dead.bind_ok next_nil (hd.resolve_left (fun h => h rfl)))
  intro c hc
  cases e : next ts with
  | ok r =>
    obtain ⟨h1, rfl⟩ := next_app hu h e
    rw [e] at hc
    rw [h1]
    exact hf h c hc
  | err _ => rw [e] at hc; cases hc
  | panic _ => rw [e] at hc; cases hc
  | outOfFuel => rw [e] at hc; cases hc

theorem Weak.next_bind {α : Type} (hu : Semi us) {f f' : List Token → Res (α × List Token)} (hd : ts ≠ [] ∨ AtEnd (f []))
    (hf : ts ≠ [] → Weak us (f ts.tail) (f' (ts.tail ++ us))) : Weak us (next ts >>= f) (next (ts ++ us) >>= f') := by
  by_cases h : ts = []
  · subst h
    intro a rest e
    exact .inl (hd.resolve_left (fun h => h rfl) a rest e)
  intro a rest hc
  cases e : next ts with
  | ok r =>
    obtain ⟨h1, rfl⟩ := next_app hu h e
    rw [e] at hc
    rw [h1]
    exact hf h a rest hc
  | err _ => rw [e] at hc; cases hc
  | panic _ => rw [e] at hc; cases hc
  | outOfFuel => rw [e] at hc; cases hc

theorem Weak.checkCur_bind {α : Type} {l : List TokType} {f f' : Unit → Res (α × List Token)} (hl : .EOF ∉ l)
    (hf : curT ts ∈ l → ts ≠ [] → Weak us (f ()) (f' ())) : Weak us (checkCur l ts >>= f) (checkCur l (ts ++ us) >>= f') := by
  by_cases h : curT ts ∈ l
  · have hne : ts ≠ [] := by rintro rfl; exact hl h
    rw [checkCur, checkCur, curT_app hne, if_pos h]
    exact hf h hne
  · rw [checkCur, if_neg h]
    exact .dead (Dead.bind .err)

theorem Weak.checkPeek_bind {α : Type} {l : List TokType} {f f' : Unit → Res (α × List Token)} (hl : .EOF ∉ l)
    (hf : curT ts.tail ∈ l → ts ≠ [] → ts.tail ≠ [] → Weak us (f ()) (f' ())) : Weak us (checkPeek l ts >>= f) (checkPeek l (ts ++ us) >>= f') := by
  by_cases h : curT ts.tail ∈ l
  · have hne : ts.tail ≠ [] := by intro e; rw [e] at h; exact hl h
    have hne' := ne_of_tail hne
    rw [checkPeek, checkPeek, peekT, peekT, tail_app hne', curT_app hne, if_pos h]
    exact hf h hne' hne
  · rw [checkPeek, peekT, if_neg h]
    exact .dead (Dead.bind .err)

theorem Leads.checkCur_bind {l : List TokType} {f : Unit → Res γ} {f' : Unit → Res δ} (hl : .EOF ∉ l)
    (hf : curT ts ∈ l → ts ≠ [] → Leads k (f ()) (f' ())) : Leads k (checkCur l ts >>= f) (checkCur l (ts ++ us) >>= f') := by
  by_cases h : curT ts ∈ l
  · have hne : ts ≠ [] := by rintro rfl; exact hl h
    rw [checkCur, checkCur, curT_app hne, if_pos h]
    exact hf h hne
  · rw [checkCur, if_neg h]
    exact .dead (Dead.bind .err)

theorem Leads.checkPeek_bind {l : List TokType} {f : Unit → Res γ} {f' : Unit → Res δ} (hl : .EOF ∉ l)
    (hf : curT ts.tail ∈ l → ts ≠ [] → ts.tail ≠ [] → Leads k (f ()) (f' ())) : Leads k (checkPeek l ts >>= f) (checkPeek l (ts ++ us) >>= f') := by
  by_cases h : curT ts.tail ∈ l
  · have hne : ts.tail ≠ [] := by intro e; rw [e] at h; exact hl h
    have hne' := ne_of_tail hne
    rw [checkPeek, checkPeek, peekT, peekT, tail_app hne', curT_app hne, if_pos h]
    exact hf h hne' hne
  · rw [checkPeek, peekT, if_neg h]
    exact .dead (Dead.bind .err)

end

end

/-- Proves that a list of tokens is not empty, from what is known about its first token. -/
macro "ahead_ne" : tactic => `(tactic| first
  | assumption
  | (apply ne_of_curT; (focus assumption); decide)
  | (apply ne_of_peekT; (focus assumption); decide)
  | (refine ne_of_tail ?_; assumption)
  | (intro h0; simp_all (config := {decide := true}) [peekT, curT, cur, eofToken]; done))

/-- Solves `c' ↔ c` for the conditions of the parsers. -/
syntax "ahead_cond" : tactic
set_option hygiene false in
macro_rules
  | `(tactic| ahead_cond) => `(tactic| first
    | exact Iff.rfl
    | exact eof_or_semi_app hu
    | (refine peek_end_app hu ?_; ahead_ne)
    | (refine cur_iff_app hu ?_ ?_ <;> decide)
    | (refine peek_iff_app hu ?_ ?_ ?_; (focus ahead_ne); (focus decide); decide)
    | (refine test_iff_app hu ?_; decide)
    | (simp (disch := ahead_ne) only [curT_app]; done)
    | (refine or_congr ?_ ?_ <;> ahead_cond)
    | (refine and_congr ?_ ?_ <;> ahead_cond)
    | (refine not_congr ?_; ahead_cond))

/-- Functions that do not succeed behind the last token; extended after each lemma. -/
syntax "dead_call" : tactic
macro_rules | `(tactic| dead_call) => `(tactic| fail)

/-- Functions that succeed there without a step; extended after each lemma. -/
syntax "dead_pass" : tactic
macro_rules | `(tactic| dead_pass) => `(tactic| fail)

/-- The parser does not succeed behind the last token. -/
syntax "dead" : tactic
macro_rules
  | `(tactic| dead) => `(tactic| first
    | exact Dead.err
    | exact Dead.panic
    | exact Dead.fuel
    | dead_call
    | (refine Dead.bind ?_; dead_call)
    | (refine Dead.bind_ok next_nil ?_; (try dsimp only); dead)
    | (refine Dead.bind (r := checkCur _ []) ?_; exact Dead.err)
    | (refine Dead.bind (r := checkPeek _ []) ?_; exact Dead.err)
    | (refine Dead.bind_ok ?_ ?_; (focus dead_pass); (try dsimp only); dead)
    | (rw [if_neg (by decide)]; dead)
    | (rw [if_pos (by decide)]; dead))

/-- One known parser call; extended after each lemma. -/
syntax "ahead_call" : tactic
set_option hygiene false in
macro_rules | `(tactic| ahead_call) => `(tactic| (refine ih' ?_; omega))

@[inherit_doc tacticAhead_call]
syntax "ahead_weak" : tactic
set_option hygiene false in
macro_rules | `(tactic| ahead_weak) => `(tactic| (refine ih' ?_; omega))

/-- One step. -/
syntax "ahead_step" : tactic
set_option hygiene false in
macro_rules
  | `(tactic| ahead_step) => `(tactic| first
    | exact Leads.dead Dead.err
    | exact Leads.dead Dead.panic
    | exact Leads.dead Dead.fuel
    | exact Leads.ok rfl
    | (refine Leads.next_bind hu ?_ (fun _ => ?_); focus first | (refine Or.inl ?_; ahead_ne) | (refine Or.inr ?_; dead))
    | (refine Leads.checkCur_bind ?_ (fun _ _ => ?_); focus decide)
    | (refine Leads.checkPeek_bind ?_ (fun _ _ _ => ?_); focus decide)
    | (refine Leads.ite (c := _ ∧ _) ?_ (fun ⟨_, _⟩ => ?_) (fun _ => ?_); focus ahead_cond)
    | (refine Leads.ite ?_ (fun _ => ?_) (fun _ => ?_); focus ahead_cond)
    | (refine Leads.ite_err not_eof_app (fun _ => ?_))
    | (refine Leads.ite_err not_eof_or_app (fun _ => ?_))
    | (refine Leads.bind (g := grow us) ?_ ?_; (focus ahead_call); (rintro ⟨_, _⟩; dsimp only [grow]))
    | (refine Leads.bind (g := grow3 us) ?_ ?_; (focus ahead_call); (rintro ⟨_, _, _⟩; dsimp only [grow3]))
    | (refine Weak.bind (us := us) ?_ (fun _ => ?_) ?_; (focus ahead_weak); (focus ((try dsimp only); dead)); (intro _ _; dsimp only))
    | (refine Weak3.bind (us := us) ?_ (fun _ _ => ?_) ?_; (focus ahead_weak); (focus ((try dsimp only); dead)); (intro _ _ _; dsimp only))
    | ahead_call
    | (refine Leads.bind (r := ite _ _ _) (g := grow us) ?_ ?_; rotate_left; (rintro ⟨_, _⟩; dsimp only [grow]))
    | (simp (disch := ahead_ne) only [curL_app, curT_app, peekL_app]; first | exact Leads.ok rfl | ahead_call | skip))

macro "ahead" : tactic => `(tactic| repeat' ahead_step)

/-- Runs that use up all tokens; extended after each lemma. -/
syntax "at_end" : tactic
macro_rules | `(tactic| at_end) => `(tactic| (intro _ _ e; cases e; rfl))

/-- One step towards `Weak`. -/
syntax "weak_step" : tactic
set_option hygiene false in
macro_rules
  | `(tactic| weak_step) => `(tactic| first
    | exact Weak.dead Dead.err
    | exact Weak.dead Dead.panic
    | exact Weak.dead Dead.fuel
    | exact Weak.ok
    | (refine Weak.next_bind hu ?_ (fun _ => ?_); focus first | (refine Or.inl ?_; ahead_ne) | (refine Or.inr ?_; at_end))
    | (refine Weak.checkCur_bind ?_ (fun _ _ => ?_); focus decide)
    | (refine Weak.checkPeek_bind ?_ (fun _ _ _ => ?_); focus decide)
    | (refine Weak.ite ?_ (fun _ => ?_) (fun _ => ?_); focus ahead_cond)
    | (refine Weak.bind_leads (g := grow us) ?_ ?_; (focus ahead_call); (rintro ⟨_, _⟩; dsimp only [grow]))
    | ahead_weak
    | (simp (disch := ahead_ne) only [curL_app, curT_app, peekL_app]; first | exact Weak.ok | ahead_weak | skip))

macro "weak" : tactic => `(tactic| repeat' weak_step)


theorem parseIfNotExists_ahead {us ts : List Token} (hu : Semi us) (hne : ts ≠ []) :
    Leads (grow us) (parseIfNotExists ts) (parseIfNotExists (ts ++ us)) := by
  unfold parseIfNotExists
  ahead

theorem parseIfNotExists_weak {us ts : List Token} (hu : Semi us) : Weak us (parseIfNotExists ts) (parseIfNotExists (ts ++ us)) := by
  by_cases h : ts = []
  · subst h
    intro a rest e
    have : parseIfNotExists [] = .ok (false, []) := rfl
    rw [this] at e
    cases e
    exact .inl rfl
  · exact (parseIfNotExists_ahead hu h).weak
set_option hygiene false in
macro_rules | `(tactic| ahead_weak) => `(tactic| exact parseIfNotExists_weak hu)
theorem parseIfNotExists_nil : parseIfNotExists [] = .ok (false, []) := rfl
macro_rules | `(tactic| dead_pass) => `(tactic| exact parseIfNotExists_nil)

end Ddl
