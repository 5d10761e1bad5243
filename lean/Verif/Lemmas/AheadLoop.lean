import Verif.Lemmas.Ahead
import Verif.Lemmas.Sat
import Verif.Lemmas.LexAppend
import Verif.Lemmas.LexSpec
import Verif.Spec.Follow

/-! # The loop of `Parse` on two texts joined by a semicolon -/

namespace Ddl
open Spec
set_option autoImplicit false

theorem Spec.Adds.nil {S : Type} {r : Res (List S)} (h : r ≠ .outOfFuel) : Adds [] r r := by
  cases r with
  | ok B => exact .ok B
  | err e => exact .err e
  | panic p => exact .panic p
  | outOfFuel => exact absurd rfl h

theorem Spec.Adds.cons {S : Type} {A : List S} {x : S} {r r' : Res (List S)} (h : Adds A r r') :
    Adds (x :: A) r (r' >>= fun l => .ok (x :: l)) := by
  cases h with
  | ok B => exact .ok B
  | err e => exact .err e
  | panic p => exact .panic p

theorem Spec.Adds.bind_cons {S : Type} {x : S} {r : Res (List S)} (h : r ≠ .outOfFuel) : Adds [x] r (r >>= fun l => .ok (x :: l)) :=
  (Adds.nil h).cons

/-- A text without the byte 0 has no token that ends the input. -/
theorem writes_no_eof {d : Dialect} {fin : Bool} {s : Str} {ts : List Token} (h : Writes d fin s ts) (h0 : ∀ c ∈ s, c ≠ nul) :
    ∀ t ∈ ts, t.type ≠ .EOF := by
  induction h with
  | nil => simp
  | blank c s ts hc _ ih => exact ih (fun c hc => h0 c (by simp [hc]))
  | comment body s ts hb hs _ ih => exact ih (fun c hc => h0 c (by simp [hc]))
  | word w t s ts hn hw ht hs _ ih =>
    intro t' ht'
    rcases List.mem_cons.1 ht' with rfl | ht'
    · rcases ht with ht | ⟨rfl, _⟩
      · rintro rfl
        have : ∀ d : Dialect, ∀ k ∈ keywords d, k.2 ≠ .EOF := by
          intro d
          cases d <;> decide +kernel
        exact this d _ ht rfl
      · exact fun h => by cases h
    · exact ih (fun c hc => h0 c (by simp [hc])) t' ht'
  | symbol c t s ts hc hs _ ih =>
    intro t' ht'
    rcases List.mem_cons.1 ht' with rfl | ht'
    · rintro rfl
      have : ∀ k ∈ symbols, k.2 ≠ .EOF := by decide
      exact this _ hc rfl
    · exact ih (fun c hc => h0 c (by simp [hc])) t' ht'
  | nul s ts _ _ => exact absurd rfl (h0 nul (by simp))
  | _ =>
    rename_i ih
    intro t' ht'
    rcases List.mem_cons.1 ht' with rfl | ht'
    · exact fun h => by cases h
    · exact ih (fun c hc => h0 c (by simp [hc])) t' ht'

section
variable {S : Type} {create : List Token → Res (S × List Token)}

/-- More fuel does not change a result. -/
theorem parseLoop_more {n m : Nat} {ts : List Token} (h : parseLoop create n ts ≠ .outOfFuel) (hm : n ≤ m) :
    parseLoop create m ts = parseLoop create n ts := by
  induction n generalizing ts m with
  | zero => exact absurd rfl h
  | succ n ih =>
    obtain ⟨m, rfl⟩ : ∃ k, m = k + 1 := ⟨m - 1, by omega⟩
    have hm' : n ≤ m := by omega
    unfold parseLoop at h ⊢
    by_cases h1 : curT ts = .CREATE
    · rw [if_pos h1] at h ⊢
      rw [if_pos h1]
      cases hc : create ts with
      | ok x =>
        rw [hc] at h
        obtain ⟨stmt, r⟩ := x
        change (next r >>= fun ts => parseLoop create n ts >>= fun stmts => .ok (stmt :: stmts)) ≠ _ at h
        change (next r >>= fun ts => parseLoop create m ts >>= fun stmts => .ok (stmt :: stmts)) =
          (next r >>= fun ts => parseLoop create n ts >>= fun stmts => .ok (stmt :: stmts))
        cases hn : next r with
        | ok r' =>
          rw [hn] at h
          change (parseLoop create n r' >>= fun stmts => .ok (stmt :: stmts)) ≠ _ at h
          change (parseLoop create m r' >>= fun stmts => .ok (stmt :: stmts)) = (parseLoop create n r' >>= fun stmts => .ok (stmt :: stmts))
          rw [ih (by intro h'; rw [h'] at h; exact h rfl) hm']
        | err _ => rfl
        | panic _ => rfl
        | outOfFuel => rfl
      | err _ => rfl
      | panic _ => rfl
      | outOfFuel => rfl
    · rw [if_neg h1] at h ⊢
      rw [if_neg h1]
      by_cases h2 : curT ts = .CLOSE_PAREN ∨ curT ts = .SEMICOLON
      · rw [if_pos h2] at h ⊢
        rw [if_pos h2]
        cases hn : next ts with
        | ok r' =>
          rw [hn] at h
          exact ih h hm'
        | err _ => rfl
        | panic _ => rfl
        | outOfFuel => rfl
      · rw [if_neg h2, if_neg h2]

/-- The statements read behind the semicolon are added to those read in front of it. -/
theorem parseLoop_ahead {us : List Token} (hu : Semi us) (hu2 : next us = .ok us.tail)
    (hc : ∀ ts, Leads (grow us) (create ts) (create (ts ++ us)))
    {n m k : Nat} {ts : List Token} {A : List S} (hs : ∀ x ∈ ts, x.type ≠ .EOF) (hsuf : ∀ t s r, create t = .ok (s, r) → r <:+ t)
    (h : parseLoop create n ts = .ok A) (hr : parseLoop create m us.tail ≠ .outOfFuel) (hk : n + m + 1 ≤ k) :
    Adds A (parseLoop create m us.tail) (parseLoop create k (ts ++ us)) := by
  have hmore : ∀ k, m ≤ k → parseLoop create k us.tail = parseLoop create m us.tail := fun k hk => parseLoop_more hr hk
  generalize parseLoop create m us.tail = R at *
  induction n generalizing ts A k with
  | zero => cases h
  | succ n ih =>
    obtain ⟨k, rfl⟩ : ∃ j, k = j + 1 := ⟨k - 1, by omega⟩
    have hk' : n + m + 1 ≤ k := by omega
    have hnil : ∀ n l, parseLoop create n [] = .ok l → l = [] := by
      intro n l e
      cases n with
      | zero => cases e
      | succ n => cases e; rfl
    unfold parseLoop at h
    by_cases h1 : curT ts = .CREATE
    · rw [if_pos h1] at h
      cases hct : create ts with
      | ok x =>
        obtain ⟨stmt, r⟩ := x
        rw [hct] at h
        change (next r >>= fun ts => parseLoop create n ts >>= fun stmts => .ok (stmt :: stmts)) = .ok A at h
        have hr1 := hsuf _ _ _ hct
        have hct' := hc ts _ hct
        have e1 : parseLoop create (k + 1) (ts ++ us) =
            (next (r ++ us) >>= fun ts => parseLoop create k ts >>= fun stmts => .ok (stmt :: stmts)) := by
          conv => lhs; unfold parseLoop
          rw [if_pos ((cur_iff_app hu (by decide) (by decide)).2 h1), hct']
          rfl
        rw [e1]
        cases hn : next r with
        | ok r' =>
          rw [hn] at h
          change (parseLoop create n r' >>= fun stmts => .ok (stmt :: stmts)) = .ok A at h
          cases hl : parseLoop create n r' with
          | ok l =>
            rw [hl] at h
            cases h
            by_cases h0 : r = []
            · subst h0
              cases hn
              cases hnil _ _ hl
              rw [List.nil_append, hu2]
              change Adds _ _ (parseLoop create k us.tail >>= fun stmts => .ok (stmt :: stmts))
              rw [hmore k (by omega)]
              exact Adds.bind_cons hr
            · obtain ⟨h2, rfl⟩ := next_app hu h0 hn
              rw [h2]
              have hsuf' : r.tail <:+ ts := (List.tail_suffix r).trans hr1
              have := ih (fun x hx => hs x (hsuf'.subset hx)) hl hk'
              change Adds _ _ (parseLoop create k (r.tail ++ us) >>= fun stmts => .ok (stmt :: stmts))
              exact this.cons
          | err _ => rw [hl] at h; cases h
          | panic _ => rw [hl] at h; cases h
          | outOfFuel => rw [hl] at h; cases h
        | err _ => rw [hn] at h; cases h
        | panic _ => rw [hn] at h; cases h
        | outOfFuel => rw [hn] at h; cases h
      | err _ => rw [hct] at h; cases h
      | panic _ => rw [hct] at h; cases h
      | outOfFuel => rw [hct] at h; cases h
    · rw [if_neg h1] at h
      by_cases h2 : curT ts = .CLOSE_PAREN ∨ curT ts = .SEMICOLON
      · rw [if_pos h2] at h
        have hne : ts ≠ [] := by rintro rfl; rcases h2 with h2 | h2 <;> cases h2
        have h1' : ¬ curT (ts ++ us) = .CREATE := by rwa [curT_app hne]
        have h2' : curT (ts ++ us) = .CLOSE_PAREN ∨ curT (ts ++ us) = .SEMICOLON := by rwa [curT_app hne]
        unfold parseLoop
        rw [if_neg h1', if_pos h2']
        cases hn : next ts with
        | ok r' =>
          rw [hn] at h
          obtain ⟨h3, rfl⟩ := next_app hu hne hn
          rw [h3]
          exact ih (fun x hx => hs x (List.mem_of_mem_tail hx)) h hk'
        | err _ => rw [hn] at h; cases h
        | panic _ => rw [hn] at h; cases h
        | outOfFuel => rw [hn] at h; cases h
      · rw [if_neg h2] at h
        by_cases h3 : curT ts = .EOF
        · rw [if_pos h3] at h
          cases h
          cases ts with
          | cons x l => exact absurd h3 (hs x List.mem_cons_self)
          | nil =>
            unfold parseLoop
            rw [List.nil_append, if_neg (by rw [hu.cur]; decide), if_pos (.inr hu.cur), hu2]
            change Adds _ _ (parseLoop create k us.tail)
            rw [hmore k (by omega)]
            exact Adds.nil hr
        · rw [if_neg h3] at h
          cases h

theorem parseTokens_ahead (hc : ∀ us, Semi us → ∀ ts, Leads (grow us) (create ts) (create (ts ++ us)))
    (hsuf : ∀ t s r, create t = .ok (s, r) → r <:+ t) {ts vs : List Token} {x : Token} (hx : x.type = .SEMICOLON) {A : List S}
    (hs : ∀ y ∈ ts, y.type ≠ .EOF) (h : parseTokens create ts = .ok A) (hv : start vs = .ok vs)
    (hr : parseTokens create vs ≠ .outOfFuel) (hj : parseTokens create (ts ++ x :: vs) ≠ .outOfFuel) : Adds A (parseTokens create vs) (parseTokens create (ts ++ x :: vs)) := by
  have hv' : ¬ (curT vs = .PANIC ∨ peekT vs = .PANIC) := by
    intro h'
    rw [start, if_pos h'] at hv
    cases hv
  have hu : Semi (x :: vs) := ⟨hx, fun h' => hv' (.inl h')⟩
  have hu2 : next (x :: vs) = .ok (x :: vs).tail := by
    rw [next, if_neg (show ¬ peekT (x :: vs).tail = .PANIC from fun h' => hv' (.inr h'))]
  have e1 : parseTokens create vs = parseLoop create (vs.length + 1) vs := by
    rw [parseTokens, hv]
    rfl
  rw [parseTokens] at h
  cases hts : start ts with
  | ok y =>
    rw [hts] at h
    have hp : ¬ (curT ts = .PANIC ∨ peekT ts = .PANIC) := by
      intro h'
      rw [start, if_pos h'] at hts
      cases hts
    rw [start, if_neg hp] at hts
    cases hts
    have hs2 : start (ts ++ x :: vs) = .ok (ts ++ x :: vs) := by
      rw [start, if_neg]
      cases ts with
      | nil =>
        rintro (h' | h')
        · change x.type = _ at h'
          rw [hx] at h'
          cases h'
        · exact hv' (.inl h')
      | cons y l =>
        cases l with
        | nil =>
          rintro (h' | h')
          · exact hp (.inl h')
          · change x.type = _ at h'
            rw [hx] at h'
            cases h'
        | cons _ _ => exact hp
    have e2 : parseTokens create (ts ++ x :: vs) = parseLoop create ((ts ++ x :: vs).length + 1) (ts ++ x :: vs) := by
      rw [parseTokens, hs2]
      rfl
    rw [e1] at hr
    rw [e2] at hj
    rw [e1, e2, ← parseLoop_more hj (m := ts.length + vs.length + 3) (by simp; omega)]
    exact parseLoop_ahead hu hu2 (hc _ hu) hs hsuf h hr (by simp; omega)
  | err _ => rw [hts] at h; cases h
  | panic _ => rw [hts] at h; cases h
  | outOfFuel => rw [hts] at h; cases h

/-- On texts. -/
theorem parse_ahead {d : Dialect} (hc : ∀ us, Semi us → ∀ ts, Leads (grow us) (create ts) (create (ts ++ us)))
    (hsuf : ∀ t s r, create t = .ok (s, r) → r <:+ t) (hf : ∀ ts, parseTokens create ts ≠ .outOfFuel) {a b : Str} {ts : List Token}
    (hw : Writes d false a ts) (h0 : ∀ y ∈ ts, y.type ≠ .EOF) {A : List S} (h : parseTokens create (lex d a) = .ok A)
    (hb : ∀ p, parseTokens create (lex d b) ≠ .panic p) :
    Adds A (parseTokens create (lex d b)) (parseTokens create (lex d (a ++ s%";" ++ b))) := by
  have e : lex d (a ++ s%";" ++ b) = ts ++ ⟨.SEMICOLON, s%";"⟩ :: lex d b := by
    have hw1 : Writes d false s%";" [⟨.SEMICOLON, s%";"⟩] := .symbol ';' .SEMICOLON [] [] (by simp [symbols]) (fun h => by cases h) .nil
    have soft : Soft ';' := by decide
    rw [List.append_assoc, lex_append hw (show NoMerge a ([';'] ++ b) from noMerge_cons soft), lex_append hw1 (noMerge_snoc (a := []) soft)]
    rfl
  rw [e]
  rw [lex_of_writes hw] at h
  refine parseTokens_ahead hc hsuf rfl h0 h ?_ (hf _) (hf _)
  have := hb .sliceBounds
  rw [parseTokens] at this
  rw [start] at this ⊢
  by_cases h' : curT (lex d b) = .PANIC ∨ peekT (lex d b) = .PANIC
  · rw [if_pos h'] at this
    exact absurd rfl this
  · rw [if_neg h']

end

end Ddl
