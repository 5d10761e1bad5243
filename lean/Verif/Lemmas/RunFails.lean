import Verif.Lemmas.Run

/-! # Alterations that do not work -/

namespace Ddl
open Spec
set_option autoImplicit false

theorem Spec.Runs.head {S A : Type} {step : S → A → S → Prop} {s s' : S} {a : A} {l : List A} (h : Runs step s (a :: l) s') : ∃ x, step s a x := by
  cases h with
  | cons h _ => exact ⟨_, h⟩

/-- Only one statement. -/
theorem Spec.Runs.only {S A : Type} {step : S → A → S → Prop} {s s' : S} {a : A} (h : Runs step s [a] s') : step s a s' := by
  cases h with
  | cons h h' => cases h'; exact h

theorem Sp.Run.not_dropColumn {T : Sp.Run.Tbl} {D : Option Sp.Run.Tbl} {k : Ident} {j cm : Str} {tn : ObjectName} {c : Sp.Run.Con} {l : List Sp.SStmt} (hc : T.cons j = some c)
    (hk : k.name ∈ c.definition.mentions) : ¬ Runs Sp.Run.Step (some T) (.alterTable ⟨cm, tn, .dropColumn k⟩ :: l) D := by
  intro h
  obtain ⟨x, hx⟩ := h.head
  cases hx with
  | alterTable _ _ _ _ _ _ h => cases h with
    | dropColumn _ _ h => exact h _ _ hc hk

theorem Crdb.Run.not_dropColumn {T : Crdb.Run.Tbl} {D : Option Crdb.Run.Tbl} {k : Ident} {j cm : Str} {tn : ObjectName} {c : Crdb.Run.Con} {l : List Crdb.CStmt} (hc : T.cons j = some c)
    (hk : k.name ∈ c.definition.mentions) : ¬ Runs Crdb.Run.Step (some T) (.alterTable ⟨cm, tn, .dropColumn k⟩ :: l) D := by
  intro h
  obtain ⟨x, hx⟩ := h.head
  cases hx with
  | alterTable _ _ _ _ _ _ h => cases h with
    | dropColumn _ _ h => exact h _ _ hc hk

theorem Crdb.Run.not_dropConstraint {T : Crdb.Run.Tbl} {D : Option Crdb.Run.Tbl} {k : Ident} {cm : Str} {tn : ObjectName} {l : List Crdb.CStmt} {uq v : Bool} {pre post : Str}
    {cs : List Crdb.ColumnIdent} (hc : T.cons k.name = some ⟨.index uq pre cs post, v⟩) :
    ¬ Runs Crdb.Run.Step (some T) (.alterTable ⟨cm, tn, .dropConstraint k⟩ :: l) D := by
  intro h
  obtain ⟨x, hx⟩ := h.head
  cases hx with
  | alterTable _ _ _ _ _ _ h => cases h with
    | dropConstraint _ _ _ h => rw [hc] at h; cases h

theorem My.Run.not_dropColumn {T : My.Run.Tbl} {D : Option My.Run.Tbl} {k : Ident} {j cm : Str} {tn : ObjectName} {c : My.Run.Con} {l : List My.MStmt} (hc : T.cons j = some c)
    (hk : k.name ∈ c.definition.mentions) : ¬ Runs My.Run.Step (some T) (.alterTable ⟨cm, tn, .dropColumn k⟩ :: l) D := by
  intro h
  obtain ⟨x, hx⟩ := h.head
  cases hx with
  | alterTable _ _ _ _ _ _ h => cases h with
    | dropColumn _ _ h => exact h _ _ hc hk

theorem My.Run.not_dropConstraint {T : My.Run.Tbl} {D : Option My.Run.Tbl} {k : Ident} {cm : Str} {tn : ObjectName} {l : List My.MStmt} {c : My.Run.Con}
    (hc : T.cons k.name = some c) (hi : c.definition.IsIndex) :
    ¬ Runs My.Run.Step (some T) (.alterTable ⟨cm, tn, .dropConstraint k⟩ :: l) D := by
  intro h
  obtain ⟨x, hx⟩ := h.head
  cases hx with
  | alterTable _ _ _ _ _ _ h => cases h with
    | dropConstraint _ _ h h' => rw [hc] at h; cases h; exact h' hi

theorem My.Run.modify_characterSet {T D : My.Run.Tbl} {cm : Str} {tn : ObjectName} {m : My.Modify}
    (h : Runs My.Run.Step (some T) [.alterTable ⟨cm, tn, .modifyColumn m⟩] (some D)) :
    (D.cols m.name.name).map (·.characterSet) = some (m.characterSet.map Ident.bare) := by
  cases h.only with
  | alterTable _ _ _ _ _ _ h => cases h with
    | modifyColumn _ _ => simp

theorem My.Run.rename_name {T D : My.Run.Tbl} {cm : Str} {tn n : ObjectName}
    (h : Runs My.Run.Step (some T) [.alterTable ⟨cm, tn, .renameTable n⟩] (some D)) : D.name = n.diffStr := by
  cases h.only with
  | alterTable _ _ _ _ _ _ h => cases h with
    | renameTable _ => rfl

end Ddl
