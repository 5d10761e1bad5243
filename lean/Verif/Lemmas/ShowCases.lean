import Verif.Lemmas.ShowSeen

/-! # Spanner: databases for the examples of C47 -/

namespace Ddl.Props
open Ddl Spec Sp.Show
set_option autoImplicit false

/-- A database with everything that is shown. -/
def showExample : Db :=
  [⟨s%"users",
    [⟨s%"id", (s%"STRING", .STRING), some s%"36", none, true, []⟩,
     ⟨s%"age", (s%"INT64", .INT64), none, some ⟨s%"0", lex .spanner s%"0"⟩, true, []⟩,
     ⟨s%"at", (s%"TIMESTAMP", .TIMESTAMP), none, none, false, [(s%"allow_commit_timestamp", ⟨s%"true", lex .spanner s%"true"⟩)]⟩],
    [(s%"id", false)], none, [], some (s%"at", s%"30"), [⟨s%"by_age", true, [(s%"age", false), (s%"id", false)], []⟩]⟩,
   ⟨s%"t", [⟨s%"x", (s%"BOOL", .BOOL), none, none, false, []⟩], [(s%"x", false)], none, [], none, []⟩]

theorem showExample_plain : showExample.Plain := by
  refine ⟨?_, by decide +kernel⟩
  simp only [showExample, List.mem_cons, List.not_mem_nil, or_false]
  have h0 : Text.Ok ⟨s%"0", lex .spanner s%"0"⟩ :=
    textOk (by decide +kernel) (by decide +kernel) (.cons _ _ (by decide +kernel) .nil) (by decide +kernel) (List.isChain_singleton _)
  have h1 : Text.Ok ⟨s%"true", lex .spanner s%"true"⟩ :=
    textOk (by decide +kernel) (by decide +kernel) (.cons _ _ (by decide +kernel) .nil) (by decide +kernel) (List.isChain_singleton _)
  rintro t (rfl | rfl)
  · refine ⟨by decide +kernel, ?_, by decide +kernel, by decide +kernel, by decide +kernel, by decide +kernel, by decide +kernel, by decide +kernel⟩
    simp only [List.mem_cons, List.not_mem_nil, or_false]
    rintro c (rfl | rfl | rfl)
    · exact ⟨by decide +kernel, by decide, by decide +kernel, by simp, by simp, by simp, by simp⟩
    · exact ⟨by decide +kernel, by decide, by simp, by simpa using h0, by simp, by simp, by simp⟩
    · exact ⟨by decide +kernel, by decide, by simp, by simp, by simp; decide +kernel, by
        simp only [List.mem_cons, List.not_mem_nil, or_false, forall_eq]; exact ⟨h1, by decide +kernel⟩, by simp⟩
  · refine ⟨by decide +kernel, ?_, by decide +kernel, by decide +kernel, by simp, by simp, by simp, by simp⟩
    simp only [List.mem_cons, List.not_mem_nil, or_false]
    rintro c rfl
    exact ⟨by decide +kernel, by decide, by simp, by simp, by simp, by simp, by simp⟩

/-- A table `t` with the columns `a` and `b`. -/
def showTable (key : List (Str × Bool)) (parent : Option Str) (checks : List (Str × Text)) (indexes : List Idx) : Tbl :=
  ⟨s%"t", [⟨s%"a", (s%"INT64", .INT64), none, none, true, []⟩, ⟨s%"b", (s%"INT64", .INT64), none, none, false, []⟩],
    key, parent, checks, none, indexes⟩

theorem showTable_plain {key : List (Str × Bool)} {parent : Option Str} {checks : List (Str × Text)} {indexes : List Idx}
    (hk : key ≠ [] ∧ ∀ k ∈ key, IsPlain k.1) (hn : (indexes.map (·.name)).Nodup)
    (hi : ∀ i ∈ indexes, IsPlain i.name ∧ i.name ≠ s%"PRIMARY_KEY" ∧ ∀ c ∈ i.columns, IsPlain c.1) (hs : ∀ i ∈ indexes, i.stored = []) :
    Db.Plain [showTable key parent checks indexes] := by
  refine ⟨?_, by simp⟩
  simp only [List.mem_cons, List.not_mem_nil, or_false]
  rintro t rfl
  refine ⟨(by decide +kernel : IsPlain s%"t"), ?_, by simp [showTable], hk, by simp [showTable], hn, hi, hs⟩
  simp only [showTable, List.mem_cons, List.not_mem_nil, or_false]
  rintro c (rfl | rfl) <;> exact ⟨by decide +kernel, by decide, by simp, by simp, by simp, by simp, by simp⟩

/-- A table with one column. -/
def oneColumn (c : Col) : Db := [⟨s%"t", [c], [(c.name, false)], none, [], none, []⟩]

end Ddl.Props
