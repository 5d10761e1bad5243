import Verif.Spec.Cmd
import Verif.Lemmas.PgSat
import Verif.Lemmas.CrdbSat
import Verif.Lemmas.MySat
import Verif.Lemmas.SpSat

/-! Lemmas about the commands. -/

namespace Ddl
open Spec Cmd
set_option autoImplicit false

theorem envAll (heads : List TokType) (dt : TokType → Bool) (ts : List Token) : Env heads dt True ts :=
  ⟨fun _ => trivial, fun _ _ _ _ => trivial⟩

theorem sat_ne_noDifference {α : Type} {pan : Prop} {Q : α → Prop} {r : Res α} (h : Sat pan Q r) :
    r ≠ .err .noDifference := by
  rintro rfl
  exact h rfl

theorem Pg.parse_ne (s : Str) : Pg.parse s ≠ .err .noDifference :=
  sat_ne_noDifference (Pg.parseTokens_sat (envAll _ _ _))

theorem Crdb.parse_ne (s : Str) : Crdb.parse s ≠ .err .noDifference :=
  sat_ne_noDifference (Crdb.parseTokens_sat (envAll _ _ _))

theorem My.parse_ne (s : Str) : My.parse s ≠ .err .noDifference :=
  sat_ne_noDifference (My.parseTokens_sat (envAll [] (fun _ => false) _))

theorem Sp.parse_ne (s : Str) : Sp.parse s ≠ .err .noDifference :=
  sat_ne_noDifference (Sp.parseTokens_sat (envAll _ _ _))

theorem bind_ok_iff {α β : Type} {r : Res α} {f : α → Res β} {b : β} :
    (r >>= f) = .ok b ↔ ∃ a, r = .ok a ∧ f a = .ok b := by
  cases r <;> simp

theorem bind_err_iff {α β : Type} {r : Res α} {f : α → Res β} {e : Err} :
    (r >>= f) = .err e ↔ r = .err e ∨ ∃ a, r = .ok a ∧ f a = .err e := by
  cases r <;> simp

/-- An outcome of the dispatch is the outcome of parsing and diffing. -/
theorem diffText_diffed {w : World} {d s1 s2 : Str} {r : Res Str} (h : diffText w d s1 s2 = r)
    (hr : (∃ t, r = .ok t) ∨ r = .err .noDifference) : Diffed w.sd d s1 s2 r := by
  unfold diffText at h
  split at h
  · rename_i hd; subst hd
    cases h1 : My.parse s1 with
    | ok b =>
      cases h2 : My.parse s2 with
      | ok a =>
        rw [h1, h2] at h
        rw [← h]
        exact .my s1 s2 b a h1 h2
      | err e =>
        rw [h1, h2] at h
        subst h
        have := My.parse_ne s2
        simp_all
      | _ => rw [h1, h2] at h; subst h; simp at hr
    | err e =>
      rw [h1] at h
      subst h
      have := My.parse_ne s1
      simp_all
    | _ => rw [h1] at h; subst h; simp at hr
  split at h
  · rename_i hd; subst hd
    cases h1 : Pg.parse s1 with
    | ok b =>
      cases h2 : Pg.parse s2 with
      | ok a =>
        rw [h1, h2] at h
        rw [← h]
        exact .pg s1 s2 b a h1 h2
      | err e =>
        rw [h1, h2] at h
        subst h
        have := Pg.parse_ne s2
        simp_all
      | _ => rw [h1, h2] at h; subst h; simp at hr
    | err e =>
      rw [h1] at h
      subst h
      have := Pg.parse_ne s1
      simp_all
    | _ => rw [h1] at h; subst h; simp at hr
  split at h
  · rename_i hd; subst hd
    cases h1 : Crdb.parse s1 with
    | ok b =>
      cases h2 : Crdb.parse s2 with
      | ok a =>
        rw [h1, h2] at h
        rw [← h]
        exact .crdb s1 s2 b a h1 h2
      | err e =>
        rw [h1, h2] at h
        subst h
        have := Crdb.parse_ne s2
        simp_all
      | _ => rw [h1, h2] at h; subst h; simp at hr
    | err e =>
      rw [h1] at h
      subst h
      have := Crdb.parse_ne s1
      simp_all
    | _ => rw [h1] at h; subst h; simp at hr
  split at h
  · rename_i hd; subst hd
    cases h1 : Sp.parse s1 with
    | ok b =>
      cases h2 : Sp.parse s2 with
      | ok a =>
        rw [h1, h2] at h
        rw [← h]
        exact .sp s1 s2 b a h1 h2
      | err e =>
        rw [h1, h2] at h
        subst h
        have := Sp.parse_ne s2
        simp_all
      | _ => rw [h1, h2] at h; subst h; simp at hr
    | err e =>
      rw [h1] at h
      subst h
      have := Sp.parse_ne s1
      simp_all
    | _ => rw [h1] at h; subst h; simp at hr
  split at h <;> (subst h; simp at hr)

theorem diffText_of_diffed {w : World} {d s1 s2 : Str} {r : Res Str} (h : Diffed w.sd d s1 s2 r) :
    diffText w d s1 s2 = r := by
  cases h with
  | pg _ _ b a h1 h2 => simp [diffText, h1, h2, myDialect, pgDialect]
  | crdb _ _ b a h1 h2 => simp [diffText, h1, h2, myDialect, pgDialect, crdbDialect]
  | my _ _ b a h1 h2 => simp [diffText, h1, h2, myDialect]
  | sp _ _ b a h1 h2 => simp [diffText, h1, h2, myDialect, pgDialect, crdbDialect, spDialect]

theorem diffText_unsupported {w : World} {d s1 s2 : Str} (h : d ∉ dialects) : diffText w d s1 s2 = .err (dialectErr d) := by
  simp only [dialects, List.mem_cons, List.not_mem_nil, or_false, not_or] at h
  unfold diffText dialectErr
  rw [if_neg (by simpa [myDialect] using h.2.2.1), if_neg (by simpa [pgDialect] using h.1),
    if_neg (by simpa [crdbDialect] using h.2.1), if_neg (by simpa [spDialect] using h.2.2.2)]
  split <;> rfl

theorem genText_unsupported {w : World} {d : Str} {g : Gen.DDL} (h : d ∉ dialects) : genText w d g = .err (dialectErr d) := by
  simp only [dialects, List.mem_cons, List.not_mem_nil, or_false, not_or] at h
  unfold genText dialectErr
  rw [if_neg (by simpa [spDialect] using h.2.2.2), if_neg (by simpa [pgDialect, crdbDialect] using And.intro h.1 h.2.1),
    if_neg (by simpa [myDialect] using h.2.2.1)]
  split <;> rfl

theorem showSwitch_unsupported {w : World} {d dsn : Str} (h : d ∉ dialects) : showSwitch w d dsn = .err .notSupported := by
  simp only [dialects, List.mem_cons, List.not_mem_nil, or_false, not_or] at h
  unfold showSwitch
  rw [if_neg]
  simp only [myDialect, pgDialect, crdbDialect, spDialect]
  rintro (h' | h' | h' | h')
  · exact h.2.2.1 h'
  · exact h.1 h'
  · exact h.2.1 h'
  · exact h.2.2.2 h'

theorem generateText_ne {w : World} (hw : Honest w) (a d l : Str) : generateText w a d l ≠ .err .noDifference := by
  unfold generateText
  intro h
  rcases bind_err_iff.1 h with h | ⟨g, h1, h⟩
  · unfold parseLang at h
    split at h
    · exact hw.parseGo _ h
    · simp at h
  · unfold genText at h
    repeat (split at h; · simp at h)
    simp at h

theorem showDb_ne {w : World} (hw : Honest w) (d a : Str) : showDb w d a ≠ .err .noDifference := by
  unfold showDb
  intro h
  split at h
  · rename_i e he
    simp at h
    subst h
    exact hw.openDb _ _ he
  · split at h
    · split at h
      · simp at h
      · rename_i e he
        simp at h
        subst h
        exact hw.closeDb _ he
    · unfold showSwitch at h
      split at h
      · exact hw.showTables _ _ h
      · simp at h

theorem resolve_ne {w : World} (hw : Honest w) (l d a : Str) : resolve w l d a ≠ .err .noDifference := by
  unfold resolve
  split
  · exact hw.readFile a
  split
  · exact generateText_ne hw _ _ _
  · exact showDb_ne hw _ _

theorem after_err {r : Res Str} {e : Err} {k : Str → Out} (h : r = .err e) : Out.after r k = ⟨[], .err e⟩ := by
  subst h; rfl

theorem after_fails {r : Res Str} {k : Str → Out} (h : ∀ t, r ≠ .ok t) :
    (Out.after r k).writes = [] ∧ (Out.after r k).result.isOk = false := by
  cases r with
  | ok t => exact absurd rfl (h t)
  | _ => exact ⟨rfl, rfl⟩

end Ddl
