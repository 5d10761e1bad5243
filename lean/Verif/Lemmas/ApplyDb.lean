import Verif.Lemmas.Apply
import Verif.Lemmas.Comment
import Verif.Spec.ApplyDb

/-!
# Lemmas: `apply` with a database server that keeps a state
-/

namespace Ddl
open Spec Cmd Ddl.Apply
set_option autoImplicit false

theorem runs_unique {S X : Type} {exec : S → X → S → Prop} (hf : Functional exec) {d d₁ d₂ : S} {l : List X} (h₁ : Runs exec d l d₁)
    (h₂ : Runs exec d l d₂) : d₁ = d₂ := by
  induction h₁ with
  | nil => cases h₂; rfl
  | cons a _ ih =>
    cases h₂ with
    | cons b r =>
      cases hf _ _ _ _ a b
      exact ih r

section
variable {S X : Type} {reads : Str → Option X} {exec : S → X → S → Prop} {d₀ : S} {db : Hist → Str → Option Str} {state : Hist → S}

/-! ## There are such servers -/

open Classical in
/-- The state after a query, if the server can execute it. -/
noncomputable def after (reads : Str → Option X) (exec : S → X → S → Prop) (d : S) (q : Str) : Option S :=
  if h : ∃ d' x, reads q = some x ∧ exec d x d' then some h.choose else none

/-- The state after the queries. -/
noncomputable def stateAfter (reads : Str → Option X) (exec : S → X → S → Prop) (d : S) (h : Hist) : S :=
  h.foldl (fun d x => (after reads exec d x.1).getD d) d

/-- The answers. -/
noncomputable def answer (reads : Str → Option X) (exec : S → X → S → Prop) (d : S) (msg : Str → Str) (h : Hist) (q : Str) : Option Str :=
  if (after reads exec (stateAfter reads exec d h) q).isSome then none else some (msg q)

theorem serves_answer (hf : Functional exec) (d : S) (msg : Str → Str) :
    Serves reads exec d (answer reads exec d msg) (stateAfter reads exec d) where
  start := rfl
  works h q x d' hr he := by
    have hex : ∃ d' x, reads q = some x ∧ exec (stateAfter reads exec d h) x d' := ⟨d', x, hr, he⟩
    have e : after reads exec (stateAfter reads exec d h) q = some d' := by
      unfold after
      rw [dif_pos hex]
      obtain ⟨x', hr', he'⟩ := hex.choose_spec
      rw [hr] at hr'
      cases hr'
      exact congrArg some (hf _ _ _ _ he' he)
    refine ⟨by simp [answer, e], ?_⟩
    show stateAfter reads exec d (h ++ [(q, none)]) = d'
    simp only [stateAfter, List.foldl_append, List.foldl_cons, List.foldl_nil]
    show (after reads exec (stateAfter reads exec d h) q).getD _ = d'
    rw [e]
    rfl
  refuses h q hn := by
    have hex : ¬ ∃ d' x, reads q = some x ∧ exec (stateAfter reads exec d h) x d' := fun ⟨d', x, h1, h2⟩ => hn x d' h1 h2
    have e : after reads exec (stateAfter reads exec d h) q = none := by
      unfold after
      rw [dif_neg hex]
    refine ⟨msg q, by simp [answer, e], ?_⟩
    simp only [stateAfter, List.foldl_append, List.foldl_cons, List.foldl_nil]
    show (after reads exec (stateAfter reads exec d h) q).getD _ = _
    rw [e]
    rfl

theorem answer_msg {d : S} {msg : Str → Str} {h : Hist} {q m : Str} (e : answer reads exec d msg h q = some m) : m = msg q := by
  unfold answer at e
  split at e
  · cases e
  · exact (Option.some.inj e).symm

/-- The batch in a history can be executed. -/
def CanRun (reads : Str → Option X) (exec : S → X → S → Prop) (d : S) (h : Hist) (d' : S) : Prop :=
  ∃ l, (h.tail.map Prod.fst).map reads = l.map some ∧ Runs exec d l d'

open Classical in
/-- The answers of a server with batches. -/
noncomputable def batchAnswer (reads : Str → Option X) (exec : S → X → S → Prop) (d : S) (h : Hist) (q : Str) : Option Str :=
  if q = s%"RUN BATCH" ∧ ¬ ∃ d', CanRun reads exec d h d' then some s%"failed" else none

open Classical in
/-- The state of a server with batches. -/
noncomputable def batchState (reads : Str → Option X) (exec : S → X → S → Prop) (d : S) (h : Hist) : S :=
  if hr : h.getLast? = some (s%"RUN BATCH", none) ∧ ∃ d', CanRun reads exec d h.dropLast d' then hr.2.choose else d

theorem canRun_unique (hf : Functional exec) {d d₁ d₂ : S} {h : Hist} (h₁ : CanRun reads exec d h d₁) (h₂ : CanRun reads exec d h d₂) :
    d₁ = d₂ := by
  obtain ⟨l, e, r⟩ := h₁
  obtain ⟨l', e', r'⟩ := h₂
  rw [e] at e'
  have : l = l' := List.map_inj_right (fun _ _ h => Option.some.inj h) |>.1 e'
  subst this
  exact runs_unique hf r r'

theorem servesBatch_answer (hf : Functional exec) (d : S) (hread : reads s%"RUN BATCH" = none) :
    ServesBatch reads exec d (batchAnswer reads exec d) (batchState reads exec d) where
  start := by simp [batchState]
  opens := by simp [batchAnswer]
  queues bodies q x hq := by
    unfold batchAnswer
    rw [if_neg]
    rintro ⟨rfl, -⟩
    rw [hread] at hq
    cases hq
  runs bodies l d' hl hr := by
    have hc : CanRun reads exec d (batch bodies) d' := ⟨l, by simpa [batch, Function.comp_def] using hl, hr⟩
    have hex : ∃ d', CanRun reads exec d (batch bodies) d' := ⟨d', hc⟩
    refine ⟨by simp [batchAnswer, hex], ?_⟩
    unfold batchState
    have hlast : (batch bodies ++ [(s%"RUN BATCH", none)]).getLast? = some (s%"RUN BATCH", none) := by simp
    have hdrop : (batch bodies ++ [(s%"RUN BATCH", (none : Option Str))]).dropLast = batch bodies := by simp
    have hex' : ∃ d', CanRun reads exec d (batch bodies ++ [(s%"RUN BATCH", none)]).dropLast d' := by rw [hdrop]; exact hex
    rw [dif_pos ⟨hlast, hex'⟩]
    exact canRun_unique hf hex'.choose_spec (by rw [hdrop]; exact hc)

/-! ## Sending statements -/

theorem pass_runs (hs : Serves reads exec d₀ db state) (ig : Str → Bool) {d' : S} : ∀ (bodies : List Str) (l : List X) (h : Hist),
    (∀ b ∈ bodies, b ≠ []) → bodies.map reads = l.map some → Runs exec (state h) l d' →
    pass db ig (bodies ++ [[]]) h none = (h ++ bodies.map (fun q => (q, none)), none) ∧
      state (h ++ bodies.map fun q => (q, none)) = d'
  | [], [], h, _, _, hr => by
    cases hr
    simp [pass]
  | [], _ :: _, _, _, hl, _ => by simp at hl
  | _ :: _, [], _, _, hl, _ => by simp at hl
  | b :: bodies, x :: l, h, hne, hl, hr => by
    simp only [List.map_cons, List.cons.injEq] at hl
    cases hr with
    | cons he hr =>
      obtain ⟨h1, h2⟩ := hs.works h b x _ hl.1 he
      subst h2
      obtain ⟨i1, i2⟩ := pass_runs hs ig bodies l (h ++ [(b, none)]) (fun y hy => hne y (by simp [hy])) hl.2 hr
      rw [List.cons_append, pass, if_neg (hne b (by simp)), h1]
      simp only [List.append_assoc, List.cons_append, List.nil_append, List.map_cons] at i1 i2 ⊢
      exact ⟨i1, i2⟩

theorem sendAll_batch : ∀ (rest bodies : List Str), (∀ b ∈ rest, b ≠ []) →
    (∀ bodies q, q ∈ rest → db (batch bodies) q = none) → db (batch (bodies ++ rest)) s%"RUN BATCH" = none →
    sendAll db (rest ++ [[]] ++ [s%"RUN BATCH"]) (batch bodies) = (batch (bodies ++ rest) ++ [(s%"RUN BATCH", none)], .ok ())
  | [], bodies, _, _, hr => by
    rw [List.append_nil] at hr ⊢
    simp [sendAll, hr]
  | b :: rest, bodies, hne, hq, hr => by
    have e : batch bodies ++ [(b, none)] = batch (bodies ++ [b]) := by simp [batch]
    have := sendAll_batch rest (bodies ++ [b]) (fun y hy => hne y (by simp [hy])) (fun bs q hq' => hq bs q (by simp [hq']))
      (by simpa using hr)
    rw [List.cons_append, List.cons_append, sendAll, if_neg (hne b (by simp)), hq bodies b (by simp)]
    simp only [e]
    rw [this]
    simp

/-! ## The command -/

theorem run_ready {w : Site} {c : Conf.Config} {left right t stdin : Str} (hr : Ready w c left stdin)
    (hd : diffSources w.toWorld c.dialect c.language left right = .ok t) :
    queriesOf (applyCommand w (.ok c) [left, right] stdin).1 = (applyDdl w c.dialect left t).1 ∧
      (applyCommand w (.ok c) [left, right] stdin).2 = (applyDdl w c.dialect left t).2 := by
  have hx := execute_spec w c.dialect left t
  simp only [applyCommand, hd, approveAndExecute, hr.printed]
  by_cases ha : c.autoApprove = true
  · simp only [ha, if_true, queriesOf]
    exact hx
  · simp only [ha, prompt_ok.2 (hr.approved.resolve_left ha), queriesOf]
    exact hx

theorem applyDdl_opened {w : Site} {d dsn t : Str} (ho : w.openDb (driverName d) dsn = none) (hd : d ∈ dialects)
    (hs : d ≠ s%"spanner") : ∃ ig : Str → Bool, (∀ m, ig m = true ↔ Already d m) ∧ applyDdl w d dsn t = splitExec w ig t := by
  unfold applyDdl
  rw [ho]
  simp only [dialects, List.mem_cons, List.not_mem_nil, or_false] at hd
  rcases hd with rfl | rfl | rfl | rfl
  · exact ⟨fun _ => false, by simp [Already], by simp [driverName, crdbDialect, crdbDriver, myDriver]⟩
  · exact ⟨fun _ => false, by simp [Already], by simp [driverName, crdbDialect, crdbDriver, myDriver]⟩
  · exact ⟨alreadyApplied, by simp [Already, alreadyApplied_iff], by simp [driverName, crdbDialect, myDriver]⟩
  · exact absurd rfl hs

theorem apply_split {w : Site} {c : Conf.Config} {left right t stdin : Str} {bodies : List Str} {l : List X} {d' : S}
    (hr : Ready w c left stdin) (hd : diffSources w.toWorld c.dialect c.language left right = .ok t) (hsp : c.dialect ≠ s%"spanner")
    (hsh : Shown t bodies) (hl : ShortLines t) (hs : Serves reads exec d₀ w.db state) (hb : bodies.map reads = l.map some)
    (hx : Runs exec d₀ l d') :
    (applyCommand w (.ok c) [left, right] stdin).2 = .ok () ∧
    queriesOf (applyCommand w (.ok c) [left, right] stdin).1 = bodies.map (fun q => (q, none)) ∧
    state (queriesOf (applyCommand w (.ok c) [left, right] stdin).1) = d' := by
  obtain ⟨e1, e2⟩ := run_ready hr hd
  rw [e1, e2]
  have hdial := diffSources_supported hd
  have hap : ∃ ig, applyDdl w c.dialect left t = splitExec w ig t :=
    (applyDdl_opened hr.opened hdial hsp).imp fun _ h => h.2
  obtain ⟨ig, h⟩ := hap
  have hp := pass_runs hs ig bodies l [] (fun b hb => (shown_clean hsh b hb).nonempty) hb (by rw [hs.start]; exact hx)
  rw [h, splitExec]
  simp only [pieces_shown hsh hl]
  obtain ⟨n, hn⟩ := Nat.exists_eq_add_of_lt (hr.tries (bodies ++ [[]]).length)
  rw [hn, Nat.zero_add, retryLoop, hr.goesOn, hp.1]
  exact ⟨rfl, rfl, hp.2⟩

theorem apply_batch {w : Site} {c : Conf.Config} {left right t stdin : Str} {bodies : List Str} {l : List X} {d' : S}
    (hr : Ready w c left stdin) (hd : diffSources w.toWorld c.dialect c.language left right = .ok t) (hsp : c.dialect = s%"spanner")
    (hsh : Shown t bodies) (hf : DropsCommentLines w.withoutCommentLines) (hs : ServesBatch reads exec d₀ w.db state)
    (hb : bodies.map reads = l.map some) (hx : Runs exec d₀ l d') :
    (applyCommand w (.ok c) [left, right] stdin).2 = .ok () ∧
    queriesOf (applyCommand w (.ok c) [left, right] stdin).1 = batch bodies ++ [(s%"RUN BATCH", none)] ∧
    state (queriesOf (applyCommand w (.ok c) [left, right] stdin).1) = d' := by
  obtain ⟨e1, e2⟩ := run_ready hr hd
  have ho := hr.opened
  rw [hsp] at ho
  have h : applyDdl w c.dialect left t =
      sendAll w.db (s%"START BATCH DDL" :: splitStmts (w.withoutCommentLines t) ++ [s%"RUN BATCH"]) [] := by
    unfold applyDdl
    rw [hsp, ho]
    simp [driverName, crdbDialect, crdbDriver, myDriver, spDriver, hr.connected]
  obtain ⟨r1, r2⟩ := hs.runs bodies l d' hb hx
  have key := sendAll_batch (db := w.db) bodies [] (fun b hb => (shown_clean hsh b hb).nonempty) (fun bs q hq => by
    have : reads q ∈ bodies.map reads := List.mem_map_of_mem hq
    rw [hb] at this
    obtain ⟨x, -, hx⟩ := List.mem_map.1 this
    exact hs.queues bs q x hx.symm) r1
  have h' : applyDdl w c.dialect left t = (batch bodies ++ [(s%"RUN BATCH", none)], .ok ()) := by
    rw [h, dropLines_shown hf hsh, splitStmts_bodies bodies (fun b hb => (shown_clean hsh b hb).noEnd), List.cons_append, sendAll,
      if_neg (by simp), hs.opens]
    exact key
  rw [e1, e2, h']
  exact ⟨rfl, rfl, r2⟩

end

/-! ## The statements of a migration -/

section
variable {T I A N S : Type} [HasComment T] [HasComment I] [HasComment A] {o : Ops T I A N} {reads : Str → Option (Stmt T I A N)}

theorem sendable_bodies : ∀ l : List (Stmt T I A N), (∀ x ∈ l, Sendable o reads x) → ∃ bodies : List Str,
    l.map (fun s => stmtStr o (bare s)) = bodies.map (fun b => b ++ s%";\n") ∧ (∀ b ∈ bodies, Clean b) ∧
      bodies.map reads = (l.map bare).map some
  | [], _ => ⟨[], rfl, by simp, rfl⟩
  | x :: l, h => by
    obtain ⟨b, h1, h2, h3⟩ := h x (by simp)
    obtain ⟨bodies, i1, i2, i3⟩ := sendable_bodies l (fun y hy => h y (by simp [hy]))
    exact ⟨b :: bodies, by simp [h1, i1], by simpa using ⟨h2, i2⟩, by simp [h3, i3]⟩

theorem runs_bare {exec : S → Stmt T I A N → S → Prop} (hb : ∀ d s d', exec d s d' → exec d (bare s) d') {d d' : S}
    {l : List (Stmt T I A N)} (h : Runs exec d l d') : Runs exec d (l.map bare) d' := by
  induction h with
  | nil => exact .nil _
  | cons a _ ih => exact .cons (hb _ _ _ a) ih

/-- `apply` of a migration that can be executed. -/
theorem apply_migration {exec : S → Stmt T I A N → S → Prop} {w : Site} {c : Conf.Config} {left right stdin : Str} {r : Res (List (Stmt T I A N))}
    {B D : S} {state : Hist → S} (ho : ∀ s, stmtStr o s = commentStr (commentOf s) ++ stmtStr o (bare s))
    (hb : ∀ d s d', exec d s d' → exec d (bare s) d') (hr : Ready w c left stdin)
    (hsrc : diffSources w.toWorld c.dialect c.language left right = r >>= fun l => .ok (ddlStr o l)) (hsp : c.dialect ≠ s%"spanner")
    (hs : Serves reads exec B w.db state) (hsend : ∀ l, r = .ok l → (∀ x ∈ l, Sendable o reads x) ∧ ShortLines (ddlStr o l))
    (h : (∃ l, r = .ok l ∧ Runs exec B l D) ∨ (r = .err .noDifference ∧ B = D)) :
    (applyCommand w (.ok c) [left, right] stdin).2 = .ok () ∧ state (queriesOf (applyCommand w (.ok c) [left, right] stdin).1) = D := by
  rcases h with ⟨l, rfl, hx⟩ | ⟨rfl, rfl⟩
  · obtain ⟨h1, h2⟩ := hsend l rfl
    obtain ⟨bodies, b1, b2, b3⟩ := sendable_bodies l h1
    have := apply_split hr hsrc hsp (shown_ddlStr ho l bodies b1 b2) h2 hs b3 (runs_bare hb hx)
    exact ⟨this.1, this.2.2⟩
  · have hsrc : diffSources w.toWorld c.dialect c.language left right = .err .noDifference := hsrc
    simp only [applyCommand, hsrc, queriesOf]
    exact ⟨trivial, hs.start⟩

/-- The same with batches. -/
theorem apply_migration_batch {exec : S → Stmt T I A N → S → Prop} {w : Site} {c : Conf.Config} {left right stdin : Str}
    {r : Res (List (Stmt T I A N))} {B D : S} {state : Hist → S}
    (ho : ∀ s, stmtStr o s = commentStr (commentOf s) ++ stmtStr o (bare s))
    (hb : ∀ d s d', exec d s d' → exec d (bare s) d') (hr : Ready w c left stdin)
    (hsrc : diffSources w.toWorld c.dialect c.language left right = r >>= fun l => .ok (ddlStr o l)) (hsp : c.dialect = s%"spanner")
    (hf : DropsCommentLines w.withoutCommentLines)
    (hs : ServesBatch reads exec B w.db state) (hsend : ∀ l, r = .ok l → ∀ x ∈ l, Sendable o reads x)
    (h : (∃ l, r = .ok l ∧ Runs exec B l D) ∨ (r = .err .noDifference ∧ B = D)) :
    (applyCommand w (.ok c) [left, right] stdin).2 = .ok () ∧ state (queriesOf (applyCommand w (.ok c) [left, right] stdin).1) = D := by
  rcases h with ⟨l, rfl, hx⟩ | ⟨rfl, rfl⟩
  · obtain ⟨bodies, b1, b2, b3⟩ := sendable_bodies l (hsend l rfl)
    have := apply_batch hr hsrc hsp (shown_ddlStr ho l bodies b1 b2) hf hs b3 (runs_bare hb hx)
    exact ⟨this.1, this.2.2⟩
  · have hsrc : diffSources w.toWorld c.dialect c.language left right = .err .noDifference := hsrc
    simp only [applyCommand, hsrc, queriesOf]
    exact ⟨trivial, hs.start⟩

end

/-! ## Two statements in the wrong order -/

section
variable {S X : Type} {reads : Str → Option X} {exec : S → X → S → Prop} {d₀ D M : S} {w : Site} {state : Hist → S} {q₁ q₂ : Str} {x₁ x₂ : X}

/-- Both statements are refused. -/
theorem pass_refused (hs : Serves reads exec d₀ w.db state) (r₁ : reads q₁ = some x₁) (r₂ : reads q₂ = some x₂) (n₁ : q₁ ≠ []) (n₂ : q₂ ≠ [])
    (h₁ : ∀ d, ¬ exec D x₁ d) (h₂ : ∀ d, ¬ exec D x₂ d) {h : Hist} (hh : state h = D) : ∃ h' m, pass w.db (fun _ => false) [q₁, q₂, []] h none = (h', some m) ∧ state h' = D := by
  obtain ⟨m₁, e₁, f₁⟩ := hs.refuses h q₁ (by rintro x d hx; rw [r₁] at hx; cases hx; rw [hh]; exact h₁ d)
  obtain ⟨m₂, e₂, f₂⟩ := hs.refuses (h ++ [(q₁, some m₁)]) q₂ (by rintro x d hx; rw [r₂] at hx; cases hx; rw [f₁, hh]; exact h₂ d)
  refine ⟨_, m₂, ?_, f₂.trans (f₁.trans hh)⟩
  simp [pass, n₁, n₂, e₁, e₂]

/-- The first one is refused. -/
theorem pass_second (hs : Serves reads exec d₀ w.db state) (r₁ : reads q₁ = some x₁) (r₂ : reads q₂ = some x₂) (n₁ : q₁ ≠ []) (n₂ : q₂ ≠ [])
    (ig : Str → Bool) {h : Hist} (h₁ : ∀ d, ¬ exec (state h) x₁ d) (h₂ : exec (state h) x₂ M) :
    ∃ h' m, pass w.db ig [q₁, q₂, []] h none = (h', if ig m then none else some m) ∧ state h' = M ∧ w.db h q₁ = some m := by
  obtain ⟨m₁, e₁, f₁⟩ := hs.refuses h q₁ (by rintro x d hx; rw [r₁] at hx; cases hx; exact h₁ d)
  obtain ⟨e₂, f₂⟩ := hs.works (h ++ [(q₁, some m₁)]) q₂ x₂ M r₂ (by rw [f₁]; exact h₂)
  refine ⟨_, m₁, ?_, f₂, e₁⟩
  simp [pass, n₁, n₂, e₁, e₂]

/-- The second one is refused. -/
theorem pass_first (hs : Serves reads exec d₀ w.db state) (r₁ : reads q₁ = some x₁) (r₂ : reads q₂ = some x₂) (n₁ : q₁ ≠ []) (n₂ : q₂ ≠ [])
    (ig : Str → Bool) {h : Hist} (h₁ : exec (state h) x₁ D) (h₂ : ∀ d, ¬ exec D x₂ d) :
    ∃ h' m h'', pass w.db ig [q₁, q₂, []] h none = (h', if ig m then none else some m) ∧ state h' = D ∧ w.db h'' q₂ = some m := by
  obtain ⟨e₁, f₁⟩ := hs.works h q₁ x₁ D r₁ h₁
  obtain ⟨m₂, e₂, f₂⟩ := hs.refuses (h ++ [(q₁, none)]) q₂ (by rintro x d hx; rw [r₂] at hx; cases hx; rw [f₁]; exact h₂ d)
  refine ⟨_, m₂, _, ?_, f₂.trans f₁, e₂⟩
  simp [pass, n₁, n₂, e₁, e₂]

theorem retry_refused (hs : Serves reads exec d₀ w.db state) (hc : ∀ h, w.cancelled h = false) (r₁ : reads q₁ = some x₁)
    (r₂ : reads q₂ = some x₂) (n₁ : q₁ ≠ []) (n₂ : q₂ ≠ []) (h₁ : ∀ d, ¬ exec D x₁ d) (h₂ : ∀ d, ¬ exec D x₂ d) : ∀ (n : Nat) (h : Hist),
    state h = D → (retryLoop w (fun _ => false) [q₁, q₂, []] n h).2 ≠ .ok () ∧ state (retryLoop w (fun _ => false) [q₁, q₂, []] n h).1 = D
  | 0, h, hh => by simp [retryLoop, hh]
  | n + 1, h, hh => by
    obtain ⟨h', m, e, f⟩ := pass_refused hs r₁ r₂ n₁ n₂ h₁ h₂ hh
    rw [retryLoop, hc h]
    simp only [e]
    exact retry_refused hs hc r₁ r₂ n₁ n₂ h₁ h₂ n h' f

/-- Nothing is tolerated: the statements are executed, but never in one pass. -/
theorem retry_swapped (hs : Serves reads exec d₀ w.db state) (hc : ∀ h, w.cancelled h = false) (r₁ : reads q₁ = some x₁)
    (r₂ : reads q₂ = some x₂) (n₁ : q₁ ≠ []) (n₂ : q₂ ≠ []) (a₁ : ∀ d, ¬ exec d₀ x₁ d) (a₂ : exec d₀ x₂ M) (a₃ : exec M x₁ D)
    (h₁ : ∀ d, ¬ exec D x₁ d) (h₂ : ∀ d, ¬ exec D x₂ d) (n : Nat) :
    (retryLoop w (fun _ => false) [q₁, q₂, []] (n + 2) []).2 ≠ .ok () ∧
      state (retryLoop w (fun _ => false) [q₁, q₂, []] (n + 2) []).1 = D := by
  obtain ⟨h', m, e, f, -⟩ := pass_second hs r₁ r₂ n₁ n₂ (fun _ => false) (h := []) (by rw [hs.start]; exact a₁) (by rw [hs.start]; exact a₂)
  obtain ⟨h'', m', _, e', f', -⟩ := pass_first hs r₁ r₂ n₁ n₂ (fun _ => false) (h := h') (by rw [f]; exact a₃) h₂
  rw [retryLoop, hc []]
  simp only [e, Bool.false_eq_true, if_false]
  rw [retryLoop, hc h']
  simp only [e', Bool.false_eq_true, if_false]
  exact retry_refused hs hc r₁ r₂ n₁ n₂ h₁ h₂ n h'' f'

/-- The error of the second statement is tolerated, that of the first one is not: the second pass succeeds. -/
theorem retry_tolerated (hs : Serves reads exec d₀ w.db state) (hc : ∀ h, w.cancelled h = false) (r₁ : reads q₁ = some x₁)
    (r₂ : reads q₂ = some x₂) (n₁ : q₁ ≠ []) (n₂ : q₂ ≠ []) (a₁ : ∀ d, ¬ exec d₀ x₁ d) (a₂ : exec d₀ x₂ M) (a₃ : exec M x₁ D)
    (h₂ : ∀ d, ¬ exec D x₂ d) {ig : Str → Bool} (t₁ : ∀ h m, w.db h q₁ = some m → ig m = false)
    (t₂ : ∀ h m, w.db h q₂ = some m → ig m = true) (n : Nat) :
    (retryLoop w ig [q₁, q₂, []] (n + 2) []).2 = .ok () ∧ state (retryLoop w ig [q₁, q₂, []] (n + 2) []).1 = D := by
  obtain ⟨h', m, e, f, g⟩ := pass_second hs r₁ r₂ n₁ n₂ ig (h := []) (by rw [hs.start]; exact a₁) (by rw [hs.start]; exact a₂)
  obtain ⟨h'', m', _, e', f', g'⟩ := pass_first hs r₁ r₂ n₁ n₂ ig (h := h') (by rw [f]; exact a₃) h₂
  rw [retryLoop, hc []]
  simp only [e, t₁ _ _ g, Bool.false_eq_true, if_false]
  rw [retryLoop, hc h']
  simp only [e', t₂ _ _ g', if_true]
  exact ⟨rfl, f'⟩

end

section
variable {T I A N S : Type} [HasComment T] [HasComment I] [HasComment A] {o : Ops T I A N} {reads : Str → Option (Stmt T I A N)}
  {exec : S → Stmt T I A N → S → Prop} {w : Site} {c : Conf.Config} {left right stdin : Str} {x₁ x₂ : Stmt T I A N}
  {B D M : S} {state : Hist → S}

/-- The pieces of a text with two statements. -/
theorem pieces_two (ho : ∀ s, stmtStr o s = commentStr (commentOf s) ++ stmtStr o (bare s)) (s₁ : Sendable o reads x₁)
    (s₂ : Sendable o reads x₂) (hl : ShortLines (ddlStr o [x₁, x₂])) : ∃ q₁ q₂, reads q₁ = some (bare x₁) ∧ reads q₂ = some (bare x₂) ∧
      q₁ ≠ [] ∧ q₂ ≠ [] ∧ splitStmts (removeComments s%"--" (ddlStr o [x₁, x₂])) = [q₁, q₂, []] := by
  obtain ⟨q₁, p₁, c₁, r₁⟩ := s₁
  obtain ⟨q₂, p₂, c₂, r₂⟩ := s₂
  refine ⟨q₁, q₂, r₁, r₂, c₁.nonempty, c₂.nonempty, ?_⟩
  have : Shown (ddlStr o [x₁, x₂]) [q₁, q₂] := shown_ddlStr ho _ _ (by simp [p₁, p₂]) (by simpa using ⟨c₁, c₂⟩)
  rw [pieces_shown this hl]
  rfl

theorem apply_swapped (ho : ∀ s, stmtStr o s = commentStr (commentOf s) ++ stmtStr o (bare s)) (hr : Ready w c left stdin)
    (hsrc : diffSources w.toWorld c.dialect c.language left right = .ok (ddlStr o [x₁, x₂])) (hsp : c.dialect ≠ s%"spanner")
    (hmy : c.dialect ≠ s%"mysql") (hc : ∀ h, w.cancelled h = false) (ht : 2 ≤ w.attempts 3) (hs : Serves reads exec B w.db state)
    (s₁ : Sendable o reads x₁) (s₂ : Sendable o reads x₂) (hl : ShortLines (ddlStr o [x₁, x₂])) (a₁ : ∀ d, ¬ exec B (bare x₁) d)
    (a₂ : exec B (bare x₂) M) (a₃ : exec M (bare x₁) D) (h₁ : ∀ d, ¬ exec D (bare x₁) d) (h₂ : ∀ d, ¬ exec D (bare x₂) d) :
    (applyCommand w (.ok c) [left, right] stdin).2 ≠ .ok () ∧ state (queriesOf (applyCommand w (.ok c) [left, right] stdin).1) = D := by
  obtain ⟨e1, e2⟩ := run_ready hr hsrc
  rw [e1, e2]
  obtain ⟨ig, hig, e3⟩ := applyDdl_opened (t := ddlStr o [x₁, x₂]) hr.opened (diffSources_supported hsrc) hsp
  have : ig = fun _ => false := by
    funext m
    rw [Bool.eq_false_iff]
    exact fun h => hmy ((hig m).1 h).1
  subst this
  obtain ⟨q₁, q₂, r₁, r₂, n₁, n₂, e4⟩ := pieces_two ho s₁ s₂ hl
  rw [e3, splitExec]
  simp only [e4, List.length_cons, List.length_nil]
  obtain ⟨n, hn⟩ := Nat.exists_eq_add_of_le' ht
  rw [hn]
  exact retry_swapped hs hc r₁ r₂ n₁ n₂ a₁ a₂ a₃ h₁ h₂ n

theorem apply_tolerated (ho : ∀ s, stmtStr o s = commentStr (commentOf s) ++ stmtStr o (bare s)) (hr : Ready w c left stdin)
    (hsrc : diffSources w.toWorld c.dialect c.language left right = .ok (ddlStr o [x₁, x₂])) (hsp : c.dialect ≠ s%"spanner")
    (hc : ∀ h, w.cancelled h = false) (ht : 2 ≤ w.attempts 3) (hs : Serves reads exec B w.db state)
    (s₁ : Sendable o reads x₁) (s₂ : Sendable o reads x₂) (hl : ShortLines (ddlStr o [x₁, x₂])) (a₁ : ∀ d, ¬ exec B (bare x₁) d)
    (a₂ : exec B (bare x₂) M) (a₃ : exec M (bare x₁) D) (h₂ : ∀ d, ¬ exec D (bare x₂) d)
    (t₁ : ∀ h q m, reads q = some (bare x₁) → w.db h q = some m → ¬ Already c.dialect m)
    (t₂ : ∀ h q m, reads q = some (bare x₂) → w.db h q = some m → Already c.dialect m) :
    (applyCommand w (.ok c) [left, right] stdin).2 = .ok () ∧ state (queriesOf (applyCommand w (.ok c) [left, right] stdin).1) = D := by
  obtain ⟨e1, e2⟩ := run_ready hr hsrc
  rw [e1, e2]
  obtain ⟨ig, hig, e3⟩ := applyDdl_opened (t := ddlStr o [x₁, x₂]) hr.opened (diffSources_supported hsrc) hsp
  obtain ⟨q₁, q₂, r₁, r₂, n₁, n₂, e4⟩ := pieces_two ho s₁ s₂ hl
  rw [e3, splitExec]
  simp only [e4, List.length_cons, List.length_nil]
  obtain ⟨n, hn⟩ := Nat.exists_eq_add_of_le' ht
  rw [hn]
  exact retry_tolerated hs hc r₁ r₂ n₁ n₂ a₁ a₂ a₃ h₂ (fun h m hm => by rw [Bool.eq_false_iff]; exact fun hh => t₁ h q₁ m r₁ hm ((hig m).1 hh))
    (fun h m hm => (hig m).2 (t₂ h q₂ m r₂ hm)) n

end

/-! ## The sources -/

section
variable {w : World} {lang left right s s' : Str}

theorem sources_postgres {b a : List Pg.PStmt} (hl : resolve w lang s%"postgres" left = .ok s) (hr : resolve w lang s%"postgres" right = .ok s')
    (hb : Pg.parse s = .ok b) (ha : Pg.parse s' = .ok a) : diffSources w s%"postgres" lang left right =
      diff (Pg.ops w.sd) (some b) (some a) >>= fun l => .ok (ddlStr (Pg.ops w.sd) l) := by
  simp [diffSources, hl, hr, diffText, hb, ha, myDialect, pgDialect]

theorem sources_cockroachdb {b a : List Crdb.CStmt} (hl : resolve w lang s%"cockroachdb" left = .ok s)
    (hr : resolve w lang s%"cockroachdb" right = .ok s') (hb : Crdb.parse s = .ok b) (ha : Crdb.parse s' = .ok a) :
    diffSources w s%"cockroachdb" lang left right =
      diff (Crdb.ops w.sd) (some b) (some a) >>= fun l => .ok (ddlStr (Crdb.ops w.sd) l) := by
  simp [diffSources, hl, hr, diffText, hb, ha, myDialect, pgDialect, crdbDialect]

theorem sources_mysql {b a : List My.MStmt} (hl : resolve w lang s%"mysql" left = .ok s) (hr : resolve w lang s%"mysql" right = .ok s')
    (hb : My.parse s = .ok b) (ha : My.parse s' = .ok a) : diffSources w s%"mysql" lang left right =
      diff (My.ops w.sd) (some b) (some a) >>= fun l => .ok (ddlStr (My.ops w.sd) l) := by
  simp [diffSources, hl, hr, diffText, hb, ha, myDialect]

theorem sources_spanner {b a : List Sp.SStmt} (hl : resolve w lang s%"spanner" left = .ok s) (hr : resolve w lang s%"spanner" right = .ok s')
    (hb : Sp.parse s = .ok b) (ha : Sp.parse s' = .ok a) : diffSources w s%"spanner" lang left right =
      diff (Sp.ops w.sd) (some b) (some a) >>= fun l => .ok (ddlStr (Sp.ops w.sd) l) := by
  simp [diffSources, hl, hr, diffText, hb, ha, myDialect, pgDialect, crdbDialect, spDialect]

end

end Ddl
