import Verif.Spec.GenerateRun
import Verif.Lemmas.Files
import Verif.Lemmas.Cmd

/-!
# Lemmas on runs of `generate`
-/

namespace Ddl
open Gen Spec Cmd
set_option autoImplicit false

theorem parse_path {env : Gen.Env} {p : Path} {g : DDL} :
    Gen.parse env p = .ok g ↔ ∃ l, PathStmts env p l ∧ g = newDDL l := by
  cases p with
  | missing => simp [Gen.parse, PathStmts]
  | file f =>
    simp only [Gen.parse, PathStmts, bind_ok_iff, Res.ok.injEq]
    constructor
    · rintro ⟨l, h, rfl⟩
      refine ⟨l, ⟨fun hu => ?_, h⟩, rfl⟩
      rw [parseFile_notFound.2 hu] at h
      cases h
    · rintro ⟨l, ⟨-, h⟩, rfl⟩
      exact ⟨l, h, rfl⟩
  | dir es =>
    simp only [Gen.parse, PathStmts, bind_ok_iff, Res.ok.injEq, walk_ok]
    constructor
    · rintro ⟨l, h, rfl⟩; exact ⟨l, h, rfl⟩
    · rintro ⟨l, h, rfl⟩; exact ⟨l, h, rfl⟩

theorem fprint_newDDL (short : Str → Str) (f : Flavor) (l : List Gen.Stmt) : fprint short f (newDDL l) = generated short f l := by
  have h : fprintComments [] (newDDL l).header = s%"-- Code generated by ddlctl. DO NOT EDIT.\n--\n" := rfl
  rw [fprint, h, generated, List.flatMap]
  rfl

theorem genText_printers {w : World} {d : Str} {g : DDL} {t : Str} :
    genText w d g = .ok t ↔ ∃ f, (d, f) ∈ printers ∧ t = fprint w.short f g := by
  constructor
  · intro h
    unfold genText at h
    split at h
    · rename_i e; cases h; exact ⟨_, by rw [e]; decide, rfl⟩
    split at h
    · rename_i e
      cases h
      rcases e with e | e
      · exact ⟨_, by rw [e]; decide, rfl⟩
      · exact ⟨_, by rw [e]; decide, rfl⟩
    split at h
    · rename_i e; cases h; exact ⟨_, by rw [e]; decide, rfl⟩
    split at h <;> cases h
  · rintro ⟨f, hf, rfl⟩
    simp only [printers, List.mem_cons, Prod.mk.injEq, List.not_mem_nil, or_false] at hf
    rcases hf with ⟨rfl, rfl⟩ | ⟨rfl, rfl⟩ | ⟨rfl, rfl⟩ | ⟨rfl, rfl⟩ <;> rfl

theorem generateText_path {w : World} {env : Gen.Env} {p : Path} {src d lang t : Str} (hp : w.parseGo src = Gen.parse env p) :
    generateText w src d lang = .ok t ↔ lang = s%"go" ∧ ∃ f l, (d, f) ∈ printers ∧ PathStmts env p l ∧ t = generated w.short f l := by
  rw [generateText, bind_ok_iff]
  constructor
  · rintro ⟨g, h1, h2⟩
    unfold parseLang at h1
    split at h1
    · rename_i hl
      rw [hp, parse_path] at h1
      obtain ⟨l, hl', rfl⟩ := h1
      obtain ⟨f, hf, rfl⟩ := genText_printers.1 h2
      exact ⟨hl, f, l, hf, hl', fprint_newDDL _ _ _⟩
    · cases h1
  · rintro ⟨rfl, f, l, hf, hl, rfl⟩
    exact ⟨newDDL l, by rw [parseLang, if_pos rfl, hp]; exact parse_path.2 ⟨l, hl, rfl⟩, genText_printers.2 ⟨f, hf, (fprint_newDDL _ _ _).symm⟩⟩

/-- A successful run. -/
theorem generateCommand_ok {w : World} {c : Conf.Config} {src dst : Str} {rest : List Str} :
    (generateCommand w (.ok c) (src :: dst :: rest)).out.result = .ok () ↔
      w.openFile (destination w dst) = none ∧ ∃ t, generateText w src c.dialect c.language = .ok t ∧ w.write t = none := by
  rw [generateCommand, ← destination]
  cases ho : w.openFile (destination w dst) with
  | some e => simp
  | none =>
    simp only [generate]
    cases hg : generateText w src c.dialect c.language with
    | ok t =>
      simp only [Out.after, writeOut, true_and, Res.ok.injEq, exists_eq_left']
      cases w.write t <;> simp
    | _ => simp [Out.after]

theorem generateCommand_text {w : World} {c : Conf.Config} {src dst : Str} {rest : List Str} {t : Str}
    (ho : w.openFile (destination w dst) = none) (hg : generateText w src c.dialect c.language = .ok t) :
    (generateCommand w (.ok c) (src :: dst :: rest)).emptied = some (destination w dst) ∧
    (generateCommand w (.ok c) (src :: dst :: rest)).out.writes = [t] := by
  rw [generateCommand, ← destination, ho]
  simp [generate, hg, Out.after, writeOut]

/-- A struct that becomes a table has a name. -/
theorem translateSource_named {env : Gen.Env} {r : Source} {l : List Gen.Stmt} (hr : r.fields ≠ none → r.typeName ≠ none)
    (h : translateSource env r = .ok l) : ∀ s ∈ l, Named s := by
  obtain ⟨t, idx, ht, rfl⟩ := translateSource_ok h
  obtain ⟨-, -, h3, -, -, h6⟩ := translateTable_contents ht
  intro s hs
  rcases List.mem_append.1 hs with hs | hs
  · rw [h6, List.mem_filterMap] at hs
    obtain ⟨c, -, hc⟩ := hs
    split at hc
    · cases hc; trivial
    · cases hc
  · split at hs
    · cases hs
    · rename_i hcol
      rw [List.mem_singleton] at hs
      subst hs
      show t.createTable ≠ []
      have hn : r.typeName ≠ none := by
        apply hr
        intro hf
        obtain ⟨h1, -, -⟩ := translateTable_ok (tags := fun _ => []) (by rw [hf]; simp) ht
        rw [hf] at h1
        exact hcol (by simpa using h1)
      obtain ⟨n, hn⟩ := Option.ne_none_iff_exists'.1 hn
      rw [h3, hn]
      generalize hl : (List.filterMap (fun s => match classify s with | .table x => some (setCreateTable x) | _ => none)
        (r.comments.map (fun c => trimComment c.text))).getLast? = o
      cases o with
      | none => exact setCreateTable_ne n
      | some x =>
        have := List.mem_of_getLast? hl
        rw [List.mem_filterMap] at this
        obtain ⟨s, -, hs⟩ := this
        split at hs
        · cases hs; exact setCreateTable_ne _
        · cases hs

theorem parseFile_named {env : Gen.Env} {f : GoFile} {l : List Gen.Stmt} (h : parseFile env f = .ok l) : ∀ s ∈ l, Named s := by
  obtain ⟨nodes, rs, ls, -, h2, -, h4, rfl⟩ := parseFile_ok h
  intro s hs
  rw [(sortStmts_perm _).mem_iff, List.mem_flatten] at hs
  obtain ⟨x, hx, hs⟩ := hs
  obtain ⟨r, hr, hrx⟩ := forall₂_mem_r (mem_of_map_ok h4) x hx
  obtain ⟨p, -, -, -, -, h5, h6⟩ := forall₂_mem_r h2 r hr
  refine translateSource_named ?_ hrx s hs
  rw [h5, h6]
  cases p.1.specs <;> simp

theorem pathStmts_named {env : Gen.Env} {p : Path} {l : List Gen.Stmt} (h : PathStmts env p l) : ∀ s ∈ l, Named s := by
  cases p with
  | missing => cases h
  | file f => exact parseFile_named h.2
  | dir es =>
    obtain ⟨-, rfl⟩ := h
    intro s hs
    obtain ⟨e, -, hs⟩ := List.mem_flatMap.1 hs
    cases e with
    | file f =>
      simp only [contribution, statementsOf] at hs
      split at hs
      · split at hs
        · rename_i hl; exact parseFile_named hl s hs
        · cases hs
      · cases hs
    | _ => cases hs

end Ddl
