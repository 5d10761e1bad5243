import Verif.Lemmas.Once
import Verif.Lemmas.Shape
import Verif.Lemmas.DiffTotal
import Verif.Lemmas.RunSp

/-! # No statement is repeated: the comparison of two tables -/

namespace Ddl
open Spec
set_option autoImplicit false

/-- The deed is about the constraint or index `n` of the table `tn`; `qd` and `qc` are how index names are written. -/
def Tells (qd qc : Str → Str) (tn n : Str) (d : Deed) : Prop :=
  d = .part tn .dropConstraint (some n) ∨ d = .part tn .addConstraint (some n) ∨ d = .drop (.index (qd n)) ∨ d = .create (.index (qc n))

theorem Tells.unique {qd qc : Str → Str} (hd : Function.Injective qd) (hc : Function.Injective qc) {tn n m : Str} {d : Deed}
    (h : Tells qd qc tn n d) (h' : Tells qd qc tn m d) : n = m := by
  rcases h with rfl | rfl | rfl | rfl <;> rcases h' with e | e | e | e <;> simp at e <;> first | exact e | exact hd e | exact hc e

/-- The deed is about a column, an option or the policy of the table. -/
def OfColumn (tn : Str) (d : Deed) : Prop := ∃ v n, d = .part tn v n ∧ v ≠ .dropConstraint ∧ v ≠ .addConstraint

theorem OfColumn.not_tells {qd qc : Str → Str} {tn n : Str} {d : Deed} (h : OfColumn tn d) : ¬ Tells qd qc tn n d := by
  obtain ⟨v, m, rfl, h1, h2⟩ := h
  rintro (e | e | e | e) <;> simp at e
  · exact h1 e.1
  · exact h2 e.1

/-- Dropped, changed and new constraints, and columns, are told apart. -/
theorem combine_once {qd qc : Str → Str} (hd : Function.Injective qd) (hc : Function.Injective qc) {tn : Str} {N N' : List Str}
    {D1 D2 D3 D4 : List Deed} (n1 : D1.Nodup) (n2 : D2.Nodup) (n3 : D3.Nodup) (n4 : D4.Nodup)
    (h1 : ∀ d ∈ D1, ∃ n, n ∈ N ∧ n ∉ N' ∧ Tells qd qc tn n d) (h2 : ∀ d ∈ D2, OfColumn tn d)
    (h3 : ∀ d ∈ D3, ∃ n, n ∈ N ∧ n ∈ N' ∧ Tells qd qc tn n d) (h4 : ∀ d ∈ D4, ∃ n, n ∉ N ∧ Tells qd qc tn n d) :
    (D1 ++ D2 ++ D3 ++ D4).Nodup := by
  refine List.nodup_append.2 ⟨List.nodup_append.2 ⟨List.nodup_append.2 ⟨n1, n2, ?_⟩, n3, ?_⟩, n4, ?_⟩
  · rintro x hx y hy rfl
    obtain ⟨n, -, -, hn⟩ := h1 x hx
    exact (h2 x hy).not_tells hn
  · rintro x hx y hy rfl
    obtain ⟨m, m1, m2, hm⟩ := h3 x hy
    rcases List.mem_append.1 hx with hx | hx
    · obtain ⟨n, -, hn, ht⟩ := h1 x hx
      exact hn (ht.unique hd hc hm ▸ m2)
    · exact (h2 x hx).not_tells hm
  · rintro x hx y hy rfl
    obtain ⟨m, m1, hm⟩ := h4 x hy
    simp only [List.mem_append] at hx
    rcases hx with (hx | hx) | hx
    · obtain ⟨n, hn, -, ht⟩ := h1 x hx
      exact m1 (ht.unique hd hc hm ▸ hn)
    · exact (h2 x hx).not_tells hm
    · obtain ⟨n, hn, -, ht⟩ := h3 x hx
      exact m1 (ht.unique hd hc hm ▸ hn)

/-- A list made constraint by constraint. -/
theorem tells_nodup {α : Type} {qd qc : Str → Str} (hd : Function.Injective qd) (hc : Function.Injective qc) {tn : Str} {l : List α}
    {key : α → Str} (hl : (l.map key).Nodup) {f : α → List Deed} (h1 : ∀ x ∈ l, (f x).Nodup) (h2 : ∀ x ∈ l, ∀ d ∈ f x, Tells qd qc tn (key x) d) :
    (l.flatMap f).Nodup :=
  nodup_flatMap_key hl h1 fun x hx y hy d hd1 hd2 => (h2 x hx d hd1).unique hd hc (h2 y hy d hd2)

/-- A list made column by column, and the new columns. -/
theorem columns_nodup {α : Type} {tn : Str} {l l' : List α} {key : α → Str} (hl : (l.map key).Nodup) (hl' : (l'.map key).Nodup)
    {f : α → List Deed} (h1 : ∀ x ∈ l, (f x).Nodup)
    (h2 : ∀ x ∈ l, ∀ d ∈ f x, ∃ v, d = .part tn v (some (key x)) ∧ v ≠ .addColumn) :
    (l.flatMap f ++ l'.map (fun x => Deed.part tn .addColumn (some (key x)))).Nodup := by
  refine List.nodup_append.2 ⟨nodup_flatMap_key hl h1 fun x hx y hy d hd1 hd2 => ?_, ?_, ?_⟩
  · obtain ⟨v, rfl, -⟩ := h2 x hx d hd1
    obtain ⟨w, e, -⟩ := h2 y hy _ hd2
    simp at e
    exact e.2
  · have := hl'.map (f := fun n => Deed.part tn .addColumn (some n)) fun _ _ e => by simpa using e
    rwa [List.map_map] at this
  · rintro x hx y hy rfl
    obtain ⟨z, hz, hd⟩ := List.mem_flatMap.1 hx
    obtain ⟨v, rfl, hv⟩ := h2 z hz _ hd
    obtain ⟨w, -, e⟩ := List.mem_map.1 hy
    simp at e
    exact hv e.1.symm

/-! ## PostgreSQL -/

namespace Pg
variable {sd : Str → Str → Str}

theorem alterColumn_once {tn : ObjectName} {b a : Column} :
    (((alterColumn sd tn b a).map Stmt.alterTable).map (deedOf (ops sd) deedPart)).Nodup ∧
      ∀ d ∈ ((alterColumn sd tn b a).map Stmt.alterTable).map (deedOf (ops sd) deedPart),
        ∃ v, d = .part tn.diffStr v (some a.name.name) ∧ v ≠ .addColumn ∧ v ≠ .dropConstraint ∧ v ≠ .addConstraint := by
  unfold alterColumn
  split_ifs <;> simp [deedOf, deedPart, ops]

theorem columnRound_once {tn : ObjectName} {l' : List Column} {b : Column} :
    (((columnRound sd tn l' b).map Stmt.alterTable).map (deedOf (ops sd) deedPart)).Nodup ∧
      ∀ d ∈ ((columnRound sd tn l' b).map Stmt.alterTable).map (deedOf (ops sd) deedPart),
        ∃ v, d = .part tn.diffStr v (some b.name.name) ∧ v ≠ .addColumn ∧ v ≠ .dropConstraint ∧ v ≠ .addConstraint := by
  unfold columnRound
  split
  · simp [deedOf, deedPart, ops]
  · rename_i a h
    rw [← (find?_some_mem (f := fun c : Column => c.name.name) h).2]
    exact alterColumn_once

theorem diffColumns_once {tn : ObjectName} {l l' : List Column} (hl : (l.map (·.name.name)).Nodup) (hl' : (l'.map (·.name.name)).Nodup) :
    (((diffColumns sd tn l l').map Stmt.alterTable).map (deedOf (ops sd) deedPart)).Nodup ∧
      ∀ d ∈ ((diffColumns sd tn l l').map Stmt.alterTable).map (deedOf (ops sd) deedPart), OfColumn tn.diffStr d := by
  have e : ((diffColumns sd tn l l').map Stmt.alterTable).map (deedOf (ops sd) deedPart) =
      l.flatMap (fun b => ((columnRound sd tn l' b).map Stmt.alterTable).map (deedOf (ops sd) deedPart)) ++
        (onlyLeftColumn l' l).map (fun x => Deed.part tn.diffStr .addColumn (some x.name.name)) := by
    simp only [diffColumns, List.map_append, List.map_flatMap, List.map_map]
    rfl
  rw [e]
  constructor
  · exact columns_nodup (key := fun c : Column => c.name.name) hl (hl'.sublist (List.filter_sublist.map _)) (fun b _ => columnRound_once.1)
      fun b _ d hd => by
        obtain ⟨v, h1, h2, -⟩ := columnRound_once.2 d hd
        exact ⟨v, h1, h2⟩
  · intro d hd
    rcases List.mem_append.1 hd with hd | hd
    · obtain ⟨b, -, hd⟩ := List.mem_flatMap.1 hd
      obtain ⟨v, h1, -, h2, h3⟩ := columnRound_once.2 d hd
      exact ⟨v, _, h1, h2, h3⟩
    · obtain ⟨c, -, rfl⟩ := List.mem_map.1 hd
      exact ⟨_, _, rfl, by simp, by simp⟩

theorem drop_once {tn : ObjectName} {l l' : List Constraint} (hl : (l.map (·.name.name)).Nodup) :
    (((dropConstraints sd tn l l').map Stmt.alterTable).map (deedOf (ops sd) deedPart)).Nodup ∧
      ∀ d ∈ ((dropConstraints sd tn l l').map Stmt.alterTable).map (deedOf (ops sd) deedPart),
        ∃ n, n ∈ l.map (·.name.name) ∧ n ∉ l'.map (·.name.name) ∧ Tells id id tn.diffStr n d := by
  simp only [dropConstraints, List.map_flatMap]
  have h : ∀ b : Constraint, ∀ d ∈ ((match findConstraint b.name.name l' with
      | none => [(⟨sd b.str [], tn, .dropConstraint b.name⟩ : AlterTable)]
      | some _ => []).map Stmt.alterTable).map (deedOf (ops sd) deedPart), b.name.name ∉ l'.map (·.name.name) ∧ Tells id id tn.diffStr b.name.name d := by
    intro b d hd
    split at hd
    · rename_i hf
      simp only [List.map_cons, List.map_nil, List.mem_singleton] at hd
      subst hd
      exact ⟨(find?_none_iff (f := fun c : Constraint => c.name.name)).1 hf, .inl rfl⟩
    · simp at hd
  constructor
  · refine tells_nodup Function.injective_id Function.injective_id (key := fun c : Constraint => c.name.name) hl (fun b _ => ?_) fun b _ d hd => (h b d hd).2
    split <;> simp
  · intro d hd
    obtain ⟨b, hb, hd⟩ := List.mem_flatMap.1 hd
    exact ⟨_, List.mem_map_of_mem hb, h b d hd⟩

theorem replace_once {nv : Bool} {tn : ObjectName} {l l' : List Constraint} (hl : (l.map (·.name.name)).Nodup) :
    (((replaceConstraints sd nv tn l l').map Stmt.alterTable).map (deedOf (ops sd) deedPart)).Nodup ∧
      ∀ d ∈ ((replaceConstraints sd nv tn l l').map Stmt.alterTable).map (deedOf (ops sd) deedPart),
        ∃ n, n ∈ l.map (·.name.name) ∧ n ∈ l'.map (·.name.name) ∧ Tells id id tn.diffStr n d := by
  have h : ∀ b : Constraint, ∀ L : List AlterTable, L = (match findConstraint b.name.name l' with
      | none => []
      | some a =>
        if b.diffStr ≠ a.diffStr then
          [⟨sd b.str [], tn, .dropConstraint b.name⟩, ⟨sd [] a.str, tn, .addConstraint a nv⟩]
        else []) → ((L.map Stmt.alterTable).map (deedOf (ops sd) deedPart)).Nodup ∧ ∀ d ∈ (L.map Stmt.alterTable).map (deedOf (ops sd) deedPart),
      b.name.name ∈ l'.map (·.name.name) ∧ Tells id id tn.diffStr b.name.name d := by
    rintro b L rfl
    split
    · simp
    · rename_i a hf
      obtain ⟨ha, hn⟩ := find?_some_mem (f := fun c : Constraint => c.name.name) hf
      split
      · refine ⟨by simp [deedOf, deedPart], ?_⟩
        intro d hd
        refine ⟨List.mem_map.2 ⟨a, ha, hn⟩, ?_⟩
        simp only [List.map_cons, List.map_nil, List.mem_cons, List.not_mem_nil, or_false] at hd
        rcases hd with rfl | rfl
        · exact .inl rfl
        · exact .inr (.inl (by simp only [deedOf, deedPart, hn]; rfl))
      · simp
  simp only [replaceConstraints, List.map_flatMap]
  constructor
  · exact tells_nodup Function.injective_id Function.injective_id (key := fun c : Constraint => c.name.name) hl
      (fun b _ => (h b _ rfl).1) fun b _ d hd => ((h b _ rfl).2 d hd).2
  · intro d hd
    obtain ⟨b, hb, hd⟩ := List.mem_flatMap.1 hd
    exact ⟨_, List.mem_map_of_mem hb, (h b _ rfl).2 d hd⟩

theorem add_once {nv : Bool} {tn : ObjectName} {l l' : List Constraint} :
    (((addConstraints sd nv tn l l').map Stmt.alterTable).map (deedOf (ops sd) deedPart)).Nodup ∧
      ∀ d ∈ ((addConstraints sd nv tn l l').map Stmt.alterTable).map (deedOf (ops sd) deedPart),
        ∃ n, n ∉ l.map (·.name.name) ∧ Tells id id tn.diffStr n d := by
  have e : ((addConstraints sd nv tn l l').map Stmt.alterTable).map (deedOf (ops sd) deedPart) =
      ((onlyLeftConstraint l' l).map (·.name.name)).map (fun n => Deed.part tn.diffStr .addConstraint (some n)) := by
    simp only [addConstraints, List.map_map]
    rfl
  rw [e]
  constructor
  · refine List.Nodup.map (fun _ _ e => by simpa using e) ?_
    exact NodupNames.foldl (cs := []) List.nodup_nil _
  · intro d hd
    obtain ⟨n, hn, rfl⟩ := List.mem_map.1 hd
    obtain ⟨c, hc, rfl⟩ := List.mem_map.1 hn
    exact ⟨_, (onlyLeftConstraint_spec.1 c hc).2, .inr (.inl rfl)⟩

theorem table_once {t t' : CreateTable} {l : List PStmt} (hn : t.name.diffStr = t'.name.diffStr) (cb : (t.columns.map (·.name.name)).Nodup)
    (ca : (t'.columns.map (·.name.name)).Nodup) (kb : (t.constraints.map (·.name.name)).Nodup) (h : (ops sd).diffTable t t' = .ok l) :
    TableOnce (ops sd) deedPart (fun _ => []) t t' l := by
  obtain ⟨rfl, _, _⟩ := diffTable_ok h
  have hr : renamedName t.name t'.name = t'.name := by simp [renamedName, hn]
  have h0 : renameTable sd t.name t'.name = [] := by simp [renameTable, hn]
  rw [hr, h0]
  obtain ⟨a1, a2⟩ := drop_once (sd := sd) (tn := t'.name) (l' := t'.constraints) kb
  obtain ⟨b1, b2⟩ := diffColumns_once (sd := sd) (tn := t'.name) cb ca
  obtain ⟨c1, c2⟩ := replace_once (sd := sd) (nv := false) (tn := t'.name) (l' := t'.constraints) kb
  obtain ⟨d1, d2⟩ := add_once (sd := sd) (nv := false) (tn := t'.name) (l := t.constraints) (l' := t'.constraints)
  have hm : ∀ v n, Mine (ops sd) (fun _ => []) (.createTable t) (.createTable t') (.part t'.name.diffStr v n) := by
    intro v n
    simp [Mine, objects, ops, hn]
  constructor
  · simp only [List.nil_append, List.map_append]
    exact combine_once Function.injective_id Function.injective_id a1 b1 c1 d1 a2 b2 c2 d2
  · intro d hd
    obtain ⟨x, hx, rfl⟩ := List.mem_map.1 hd
    obtain ⟨a, rfl, ha⟩ := diffTable_about hn h x (by rw [hr, h0]; exact hx)
    exact by simp [Mine, objects, ops, deedOf, ha]
end Pg

/-! ## CockroachDB -/

namespace Crdb
variable {sd : Str → Str → Str}

theorem alterColumn_once {tn : ObjectName} {b a : Column} :
    (((alterColumn sd tn b a).map Stmt.alterTable).map (deedOf (ops sd) deedPart)).Nodup ∧
      ∀ d ∈ ((alterColumn sd tn b a).map Stmt.alterTable).map (deedOf (ops sd) deedPart),
        ∃ v, d = .part tn.diffStr v (some a.name.name) ∧ v ≠ .addColumn ∧ v ≠ .dropConstraint ∧ v ≠ .addConstraint := by
  unfold alterColumn
  split_ifs <;> simp [deedOf, deedPart, ops]

theorem columnRound_once {tn : ObjectName} {l' : List Column} {b : Column} :
    (((columnRound sd tn l' b).map Stmt.alterTable).map (deedOf (ops sd) deedPart)).Nodup ∧
      ∀ d ∈ ((columnRound sd tn l' b).map Stmt.alterTable).map (deedOf (ops sd) deedPart),
        ∃ v, d = .part tn.diffStr v (some b.name.name) ∧ v ≠ .addColumn ∧ v ≠ .dropConstraint ∧ v ≠ .addConstraint := by
  unfold columnRound
  split
  · split_ifs <;> simp [deedOf, deedPart, ops]
  · rename_i a h
    rw [← (find?_some_mem (f := fun c : Column => c.name.name) h).2]
    exact alterColumn_once

theorem diffColumns_once {tn : ObjectName} {l l' : List Column} (hl : (l.map (·.name.name)).Nodup) (hl' : (l'.map (·.name.name)).Nodup) :
    (((diffColumns sd tn l l').map Stmt.alterTable).map (deedOf (ops sd) deedPart)).Nodup ∧
      ∀ d ∈ ((diffColumns sd tn l l').map Stmt.alterTable).map (deedOf (ops sd) deedPart), OfColumn tn.diffStr d := by
  have e : ((diffColumns sd tn l l').map Stmt.alterTable).map (deedOf (ops sd) deedPart) =
      l.flatMap (fun b => ((columnRound sd tn l' b).map Stmt.alterTable).map (deedOf (ops sd) deedPart)) ++
        (onlyLeftColumn l' l).map (fun x => Deed.part tn.diffStr .addColumn (some x.name.name)) := by
    simp only [diffColumns, List.map_append, List.map_flatMap, List.map_map]
    rfl
  rw [e]
  constructor
  · exact columns_nodup (key := fun c : Column => c.name.name) hl (hl'.sublist (List.filter_sublist.map _)) (fun b _ => columnRound_once.1)
      fun b _ d hd => by
        obtain ⟨v, h1, h2, -⟩ := columnRound_once.2 d hd
        exact ⟨v, h1, h2⟩
  · intro d hd
    rcases List.mem_append.1 hd with hd | hd
    · obtain ⟨b, -, hd⟩ := List.mem_flatMap.1 hd
      obtain ⟨v, h1, -, h2, h3⟩ := columnRound_once.2 d hd
      exact ⟨v, _, h1, h2, h3⟩
    · obtain ⟨c, -, rfl⟩ := List.mem_map.1 hd
      exact ⟨_, _, rfl, by simp, by simp⟩

theorem mem_indexNames {l : List Constraint} {n : Ident} {uq : Bool} {pre : Option Using} {cs : List ColumnIdent} {post : Option Using}
    (h : .index n uq pre cs post ∈ l) : n.name ∈ indexNames l :=
  List.mem_filterMap.2 ⟨_, h, rfl⟩

/-- The deed drops only indexes among `L` and creates only indexes among `L'`. -/
def Own (qd qc : Str → Str) (L L' : List Str) (tn : Str) (n : Str) (d : Deed) : Prop :=
  (d = .part tn .dropConstraint (some n) ∨ d = .part tn .addConstraint (some n)) ∨
    (d = .drop (.index (qd n)) ∧ n ∈ L) ∨ (d = .create (.index (qc n)) ∧ n ∈ L')

theorem Own.tells {qd qc : Str → Str} {L L' : List Str} {tn n : Str} {d : Deed} (h : Own qd qc L L' tn n d) : Tells qd qc tn n d := by
  rcases h with (h | h) | ⟨h, -⟩ | ⟨h, -⟩ <;> simp [Tells, h]

theorem drop_once {tn : ObjectName} {l l' : List Constraint} (hl : (l.map (·.name.name)).Nodup) :
    ((dropConstraints sd tn l l').map (deedOf (ops sd) deedPart)).Nodup ∧
      ∀ d ∈ (dropConstraints sd tn l l').map (deedOf (ops sd) deedPart),
        ∃ n, n ∈ l.map (·.name.name) ∧ n ∉ l'.map (·.name.name) ∧ Own id id (indexNames l) (indexNames l') tn.diffStr n d := by
  have h : ∀ b ∈ l, ∀ L : List CStmt, L = (match findConstraint b.name.name l' with
      | none =>
        match b with
        | .index .. => [.dropIndex (sd b.diffStr []) false b.name]
        | _ => [.alterTable ⟨sd b.str [], tn, .dropConstraint b.name⟩]
      | some _ => []) → (L.map (deedOf (ops sd) deedPart)).Nodup ∧ ∀ d ∈ L.map (deedOf (ops sd) deedPart),
      b.name.name ∉ l'.map (·.name.name) ∧ Own id id (indexNames l) (indexNames l') tn.diffStr b.name.name d := by
    rintro b hb L rfl
    split
    · rename_i hf
      have hn := (find?_none_iff (f := fun c : Constraint => c.name.name)).1 hf
      split
      · refine ⟨by simp, fun d hd => ⟨hn, ?_⟩⟩
        simp only [List.map_cons, List.map_nil, List.mem_singleton] at hd
        subst hd
        exact .inr (.inl ⟨rfl, mem_indexNames hb⟩)
      · refine ⟨by simp, fun d hd => ⟨hn, ?_⟩⟩
        simp only [List.map_cons, List.map_nil, List.mem_singleton] at hd
        subst hd
        exact .inl (.inl rfl)
    · simp
  simp only [dropConstraints, List.map_flatMap]
  constructor
  · exact tells_nodup Function.injective_id Function.injective_id (qd := id) (qc := id) (tn := tn.diffStr) (key := fun c : Constraint => c.name.name) hl
      (fun b hb => (h b hb _ rfl).1) fun b hb d hd => ((h b hb _ rfl).2 d hd).2.tells
  · intro d hd
    obtain ⟨b, hb, hd⟩ := List.mem_flatMap.1 hd
    exact ⟨_, List.mem_map_of_mem hb, (h b hb _ rfl).2 d hd⟩

theorem replace_once {nv : Bool} {tn : ObjectName} {l l' : List Constraint} (hl : (l.map (·.name.name)).Nodup)
    (hk : ∀ n ∈ indexNames l', n ∈ l.map (·.name.name) → n ∈ indexNames l) :
    ((replaceConstraints sd nv tn l l').map (deedOf (ops sd) deedPart)).Nodup ∧
      ∀ d ∈ (replaceConstraints sd nv tn l l').map (deedOf (ops sd) deedPart),
        ∃ n, n ∈ l.map (·.name.name) ∧ n ∈ l'.map (·.name.name) ∧ Own id id (indexNames l) (indexNames l') tn.diffStr n d := by
  have h : ∀ b ∈ l, ∀ L : List CStmt, L = (match findConstraint b.name.name l' with
      | none => []
      | some a =>
        if b.diffStr ≠ a.diffStr then
          match a with
          | .index n uq pre cs post => [.dropIndex (sd b.str a.str) false b.name, indexStmt [] tn n uq pre cs post]
          | _ => [.alterTable ⟨sd b.str [], tn, .dropConstraint b.name⟩, .alterTable ⟨sd [] a.str, tn, .addConstraint a nv⟩]
        else []) → (L.map (deedOf (ops sd) deedPart)).Nodup ∧ ∀ d ∈ L.map (deedOf (ops sd) deedPart),
      b.name.name ∈ l'.map (·.name.name) ∧ Own id id (indexNames l) (indexNames l') tn.diffStr b.name.name d := by
    rintro b hb L rfl
    split
    · simp
    · rename_i a hf
      obtain ⟨ha, hn⟩ := find?_some_mem (f := fun c : Constraint => c.name.name) hf
      have hm : b.name.name ∈ l'.map (·.name.name) := List.mem_map.2 ⟨a, ha, hn⟩
      have hb' := List.mem_map_of_mem (f := fun c : Constraint => c.name.name) hb
      split
      · split
        · have hi := mem_indexNames ha
          rename_i n _ _ _ _ _
          change n.name = b.name.name at hn
          refine ⟨by simp [deedOf, indexStmt], fun d hd => ⟨hm, ?_⟩⟩
          simp only [List.map_cons, List.map_nil, List.mem_cons, List.not_mem_nil, or_false] at hd
          rw [hn] at hi
          rcases hd with rfl | rfl
          · exact .inr (.inl ⟨rfl, hk _ hi hb'⟩)
          · exact .inr (.inr ⟨by rw [← hn]; rfl, hi⟩)
        · refine ⟨by simp [deedOf, deedPart], fun d hd => ⟨hm, ?_⟩⟩
          simp only [List.map_cons, List.map_nil, List.mem_cons, List.not_mem_nil, or_false] at hd
          rcases hd with rfl | rfl
          · exact .inl (.inl rfl)
          · exact .inl (.inr (by simp only [deedOf, deedPart, hn]; rfl))
      · simp
  simp only [replaceConstraints, List.map_flatMap]
  constructor
  · exact tells_nodup Function.injective_id Function.injective_id (qd := id) (qc := id) (tn := tn.diffStr) (key := fun c : Constraint => c.name.name) hl
      (fun b hb => (h b hb _ rfl).1) fun b hb d hd => ((h b hb _ rfl).2 d hd).2.tells
  · intro d hd
    obtain ⟨b, hb, hd⟩ := List.mem_flatMap.1 hd
    exact ⟨_, List.mem_map_of_mem hb, (h b hb _ rfl).2 d hd⟩

theorem add_once {nv : Bool} {tn : ObjectName} {l l' : List Constraint} :
    ((addConstraints sd nv tn l l').map (deedOf (ops sd) deedPart)).Nodup ∧
      ∀ d ∈ (addConstraints sd nv tn l l').map (deedOf (ops sd) deedPart),
        ∃ n, n ∉ l.map (·.name.name) ∧ Own id id (indexNames l) (indexNames l') tn.diffStr n d := by
  have h : ∀ c ∈ onlyLeftConstraint l' l, Own id id (indexNames l) (indexNames l') tn.diffStr c.name.name (deedOf (ops sd) deedPart (match c with
      | .index n uq pre cs post => indexStmt (sd [] c.diffStr) tn n uq pre cs post
      | _ => .alterTable ⟨sd [] c.str, tn, .addConstraint c nv⟩)) := by
    intro c hc
    have hc' := (onlyLeftConstraint_spec.1 c hc).1
    split
    · exact .inr (.inr ⟨rfl, mem_indexNames hc'⟩)
    · exact .inl (.inr rfl)
  have hnd : ((onlyLeftConstraint l' l).map (·.name.name)).Nodup := NodupNames.foldl (cs := []) List.nodup_nil _
  simp only [addConstraints, List.map_map]
  constructor
  · rw [List.nodup_map_iff_inj_on (List.Nodup.of_map _ hnd)]
    intro x hx y hy e
    have h1 := (h x hx).tells
    have h2 := (h y hy).tells
    simp only [Function.comp_apply] at e
    exact List.inj_on_of_nodup_map hnd hx hy (h1.unique Function.injective_id Function.injective_id (e.symm ▸ h2))
  · intro d hd
    obtain ⟨c, hc, rfl⟩ := List.mem_map.1 hd
    exact ⟨_, (onlyLeftConstraint_spec.1 c hc).2, h c hc⟩

theorem table_once {t t' : CreateTable} {l : List CStmt} (hn : t.name.diffStr = t'.name.diffStr) (cb : (t.columns.map (·.name.name)).Nodup)
    (ca : (t'.columns.map (·.name.name)).Nodup) (kb : (t.constraints.map (·.name.name)).Nodup)
    (hk : ∀ n ∈ indexNames t'.constraints, n ∈ t.constraints.map (·.name.name) → n ∈ indexNames t.constraints)
    (h : (ops sd).diffTable t t' = .ok l) :
    TableOnce (ops sd) deedPart inlineIndexes t t' l := by
  obtain ⟨rfl, _, _⟩ := diffTable_ok h
  have hr : renamedName t.name t'.name = t'.name := by simp [renamedName, hn]
  have h0 : renameTable sd t.name t'.name = [] := by simp [renameTable, hn]
  rw [hr, h0]
  obtain ⟨a1, a2⟩ := drop_once (sd := sd) (tn := t'.name) (l' := t'.constraints) kb
  obtain ⟨b1, b2⟩ := diffColumns_once (sd := sd) (tn := t'.name) cb ca
  obtain ⟨c1, c2⟩ := replace_once (sd := sd) (nv := false) (tn := t'.name) (l' := t'.constraints) kb hk
  obtain ⟨d1, d2⟩ := add_once (sd := sd) (nv := false) (tn := t'.name) (l := t.constraints) (l' := t'.constraints)
  have hp : ∀ v n, Mine (ops sd) inlineIndexes (.createTable t) (.createTable t') (.part t'.name.diffStr v n) := by
    intro v n
    simp [Mine, objects, ops, hn]
  have ho : ∀ n d, Own id id (indexNames t.constraints) (indexNames t'.constraints) t'.name.diffStr n d →
      Mine (ops sd) inlineIndexes (.createTable t) (.createTable t') d := by
    intro n d ho
    rcases ho with (rfl | rfl) | ⟨rfl, hm⟩ | ⟨rfl, hm⟩
    · exact hp _ _
    · exact hp _ _
    · exact List.mem_cons_of_mem _ (List.mem_map_of_mem hm)
    · exact List.mem_cons_of_mem _ (List.mem_map_of_mem hm)
  constructor
  · simp only [List.map_nil, List.nil_append, List.map_append]
    exact combine_once Function.injective_id Function.injective_id (qd := id) (qc := id) a1 b1 c1 d1
      (fun d hd => (a2 d hd).imp fun _ h => ⟨h.1, h.2.1, h.2.2.tells⟩) b2
      (fun d hd => (c2 d hd).imp fun _ h => ⟨h.1, h.2.1, h.2.2.tells⟩) (fun d hd => (d2 d hd).imp fun _ h => ⟨h.1, h.2.tells⟩)
  · intro d hd
    simp only [List.map_nil, List.nil_append, List.map_append, List.mem_append] at hd
    rcases hd with ((hd | hd) | hd) | hd
    · obtain ⟨n, -, -, h⟩ := a2 d hd
      exact ho n d h
    · obtain ⟨v, n, rfl, -⟩ := b2 d hd
      exact hp v n
    · obtain ⟨n, -, -, h⟩ := c2 d hd
      exact ho n d h
    · obtain ⟨n, -, h⟩ := d2 d hd
      exact ho n d h
end Crdb

/-! ## MySQL -/

namespace My
variable {sd : Str → Str → Str}

theorem alterColumn_once {tn : ObjectName} {b a : Column} :
    (((alterColumn sd tn b a).map Stmt.alterTable).map (deedOf (ops sd) deedPart)).Nodup ∧
      ∀ d ∈ ((alterColumn sd tn b a).map Stmt.alterTable).map (deedOf (ops sd) deedPart),
        ∃ v, d = .part tn.diffStr v (some a.name.name) ∧ v ≠ .addColumn ∧ v ≠ .dropConstraint ∧ v ≠ .addConstraint := by
  unfold alterColumn
  split_ifs <;> simp [deedOf, deedPart, ops, modifyOf]

theorem columnRound_once {tn : ObjectName} {l' : List Column} {b : Column} :
    (((columnRound sd tn l' b).map Stmt.alterTable).map (deedOf (ops sd) deedPart)).Nodup ∧
      ∀ d ∈ ((columnRound sd tn l' b).map Stmt.alterTable).map (deedOf (ops sd) deedPart),
        ∃ v, d = .part tn.diffStr v (some b.name.name) ∧ v ≠ .addColumn ∧ v ≠ .dropConstraint ∧ v ≠ .addConstraint := by
  unfold columnRound
  split
  · simp [deedOf, deedPart, ops]
  · rename_i a h
    rw [← (find?_some_mem (f := fun c : Column => c.name.name) h).2]
    exact alterColumn_once

theorem diffColumns_once {tn : ObjectName} {l l' : List Column} (hl : (l.map (·.name.name)).Nodup) (hl' : (l'.map (·.name.name)).Nodup) :
    (((diffColumns sd tn l l').map Stmt.alterTable).map (deedOf (ops sd) deedPart)).Nodup ∧
      ∀ d ∈ ((diffColumns sd tn l l').map Stmt.alterTable).map (deedOf (ops sd) deedPart), OfColumn tn.diffStr d := by
  have e : ((diffColumns sd tn l l').map Stmt.alterTable).map (deedOf (ops sd) deedPart) =
      l.flatMap (fun b => ((columnRound sd tn l' b).map Stmt.alterTable).map (deedOf (ops sd) deedPart)) ++
        (onlyLeftColumn l' l).map (fun x => Deed.part tn.diffStr .addColumn (some x.name.name)) := by
    simp only [diffColumns, List.map_append, List.map_flatMap, List.map_map]
    rfl
  rw [e]
  constructor
  · exact columns_nodup (key := fun c : Column => c.name.name) hl (hl'.sublist (List.filter_sublist.map _)) (fun b _ => columnRound_once.1)
      fun b _ d hd => by
        obtain ⟨v, h1, h2, -⟩ := columnRound_once.2 d hd
        exact ⟨v, h1, h2⟩
  · intro d hd
    rcases List.mem_append.1 hd with hd | hd
    · obtain ⟨b, -, hd⟩ := List.mem_flatMap.1 hd
      obtain ⟨v, h1, -, h2, h3⟩ := columnRound_once.2 d hd
      exact ⟨v, _, h1, h2, h3⟩
    · obtain ⟨c, -, rfl⟩ := List.mem_map.1 hd
      exact ⟨_, _, rfl, by simp, by simp⟩

/-- The name of an index in a schema. -/
def qIndex (s : Option Ident) (n : Str) : Str := (ObjectName.mk s ⟨n, [], n⟩).diffStr

theorem qIndex_inj (s : Option Ident) : Function.Injective (qIndex s) := by
  intro a b h
  cases s with
  | none => exact h
  | some s => exact List.append_cancel_left (show s.diffStr ++ s%"." ++ a = s.diffStr ++ s%"." ++ b from h)

theorem qIndex_eq (s : Option Ident) (n : Ident) : (ObjectName.mk s n).diffStr = qIndex s n.name := by
  cases s <;> rfl

theorem mem_indexNames {l : List Constraint} {n : Ident} {uq : Bool} {cs : List ColumnIdent}
    (h : .index n uq cs ∈ l) : n.name ∈ indexNames l :=
  List.mem_filterMap.2 ⟨_, h, rfl⟩

/-- The deed drops only indexes among `L` and creates only indexes among `L'`. -/
def Own (qd qc : Str → Str) (L L' : List Str) (tn : Str) (n : Str) (d : Deed) : Prop :=
  (d = .part tn .dropConstraint (some n) ∨ d = .part tn .addConstraint (some n)) ∨
    (d = .drop (.index (qd n)) ∧ n ∈ L) ∨ (d = .create (.index (qc n)) ∧ n ∈ L')

theorem Own.tells {qd qc : Str → Str} {L L' : List Str} {tn n : Str} {d : Deed} (h : Own qd qc L L' tn n d) : Tells qd qc tn n d := by
  rcases h with (h | h) | ⟨h, -⟩ | ⟨h, -⟩ <;> simp [Tells, h]

theorem drop_once {bs : Option Ident} {tn : ObjectName} {l l' : List Constraint} (hl : (l.map (·.name.name)).Nodup) :
    ((dropConstraints sd bs tn l l').map (deedOf (ops sd) deedPart)).Nodup ∧
      ∀ d ∈ (dropConstraints sd bs tn l l').map (deedOf (ops sd) deedPart),
        ∃ n, n ∈ l.map (·.name.name) ∧ n ∉ l'.map (·.name.name) ∧ Own (qIndex bs) (qIndex tn.schema) (indexNames l) (indexNames l') tn.diffStr n d := by
  have h : ∀ b ∈ l, ∀ L : List MStmt, L = (match findConstraint b.name.name l' with
      | none =>
        match b with
        | .index .. => [.dropIndex (sd b.diffStr []) false ⟨bs, b.name⟩]
        | _ => [.alterTable ⟨sd b.str [], tn, .dropConstraint b.name⟩]
      | some _ => []) → (L.map (deedOf (ops sd) deedPart)).Nodup ∧ ∀ d ∈ L.map (deedOf (ops sd) deedPart),
      b.name.name ∉ l'.map (·.name.name) ∧ Own (qIndex bs) (qIndex tn.schema) (indexNames l) (indexNames l') tn.diffStr b.name.name d := by
    rintro b hb L rfl
    split
    · rename_i hf
      have hn := (find?_none_iff (f := fun c : Constraint => c.name.name)).1 hf
      split
      · refine ⟨by simp, fun d hd => ⟨hn, ?_⟩⟩
        simp only [List.map_cons, List.map_nil, List.mem_singleton] at hd
        subst hd
        exact .inr (.inl ⟨congrArg (fun x => Deed.drop (.index x)) (qIndex_eq bs _), mem_indexNames hb⟩)
      · refine ⟨by simp, fun d hd => ⟨hn, ?_⟩⟩
        simp only [List.map_cons, List.map_nil, List.mem_singleton] at hd
        subst hd
        exact .inl (.inl rfl)
    · simp
  simp only [dropConstraints, List.map_flatMap]
  constructor
  · exact tells_nodup (qIndex_inj _) (qIndex_inj _) (qd := (qIndex bs)) (qc := (qIndex tn.schema)) (tn := tn.diffStr) (key := fun c : Constraint => c.name.name) hl
      (fun b hb => (h b hb _ rfl).1) fun b hb d hd => ((h b hb _ rfl).2 d hd).2.tells
  · intro d hd
    obtain ⟨b, hb, hd⟩ := List.mem_flatMap.1 hd
    exact ⟨_, List.mem_map_of_mem hb, (h b hb _ rfl).2 d hd⟩

theorem replace_once {nv : Bool} {bs : Option Ident} {tn : ObjectName} {l l' : List Constraint} (hl : (l.map (·.name.name)).Nodup)
    (hk : ∀ n ∈ indexNames l', n ∈ l.map (·.name.name) → n ∈ indexNames l) :
    ((replaceConstraints sd nv bs tn l l').map (deedOf (ops sd) deedPart)).Nodup ∧
      ∀ d ∈ (replaceConstraints sd nv bs tn l l').map (deedOf (ops sd) deedPart),
        ∃ n, n ∈ l.map (·.name.name) ∧ n ∈ l'.map (·.name.name) ∧ Own (qIndex bs) (qIndex tn.schema) (indexNames l) (indexNames l') tn.diffStr n d := by
  have h : ∀ b ∈ l, ∀ L : List MStmt, L = (match findConstraint b.name.name l' with
      | none => []
      | some a =>
        if b.diffStr ≠ a.diffStr then
          match a with
          | .index n uq cs => [.dropIndex [] false ⟨bs, b.name⟩, indexStmt [] tn n uq cs]
          | _ => [.alterTable ⟨sd b.str [], tn, .dropConstraint b.name⟩, .alterTable ⟨sd [] a.str, tn, .addConstraint a nv⟩]
        else []) → (L.map (deedOf (ops sd) deedPart)).Nodup ∧ ∀ d ∈ L.map (deedOf (ops sd) deedPart),
      b.name.name ∈ l'.map (·.name.name) ∧ Own (qIndex bs) (qIndex tn.schema) (indexNames l) (indexNames l') tn.diffStr b.name.name d := by
    rintro b hb L rfl
    split
    · simp
    · rename_i a hf
      obtain ⟨ha, hn⟩ := find?_some_mem (f := fun c : Constraint => c.name.name) hf
      have hm : b.name.name ∈ l'.map (·.name.name) := List.mem_map.2 ⟨a, ha, hn⟩
      have hb' := List.mem_map_of_mem (f := fun c : Constraint => c.name.name) hb
      split
      · split
        · have hi := mem_indexNames ha
          rename_i n _ _ _
          change n.name = b.name.name at hn
          refine ⟨by simp [deedOf, indexStmt], fun d hd => ⟨hm, ?_⟩⟩
          simp only [List.map_cons, List.map_nil, List.mem_cons, List.not_mem_nil, or_false] at hd
          rw [hn] at hi
          rcases hd with rfl | rfl
          · exact .inr (.inl ⟨congrArg (fun x => Deed.drop (.index x)) (qIndex_eq bs _), hk _ hi hb'⟩)
          · exact .inr (.inr ⟨by rw [← hn]; exact congrArg (fun x => Deed.create (.index x)) (qIndex_eq tn.schema _), hi⟩)
        · refine ⟨by simp [deedOf, deedPart], fun d hd => ⟨hm, ?_⟩⟩
          simp only [List.map_cons, List.map_nil, List.mem_cons, List.not_mem_nil, or_false] at hd
          rcases hd with rfl | rfl
          · exact .inl (.inl rfl)
          · exact .inl (.inr (by simp only [deedOf, deedPart, hn]; rfl))
      · simp
  simp only [replaceConstraints, List.map_flatMap]
  constructor
  · exact tells_nodup (qIndex_inj _) (qIndex_inj _) (qd := (qIndex bs)) (qc := (qIndex tn.schema)) (tn := tn.diffStr) (key := fun c : Constraint => c.name.name) hl
      (fun b hb => (h b hb _ rfl).1) fun b hb d hd => ((h b hb _ rfl).2 d hd).2.tells
  · intro d hd
    obtain ⟨b, hb, hd⟩ := List.mem_flatMap.1 hd
    exact ⟨_, List.mem_map_of_mem hb, (h b hb _ rfl).2 d hd⟩

theorem add_once {nv : Bool} {bs : Option Ident} {tn : ObjectName} {l l' : List Constraint} :
    ((addConstraints sd nv tn l l').map (deedOf (ops sd) deedPart)).Nodup ∧
      ∀ d ∈ (addConstraints sd nv tn l l').map (deedOf (ops sd) deedPart),
        ∃ n, n ∉ l.map (·.name.name) ∧ Own (qIndex bs) (qIndex tn.schema) (indexNames l) (indexNames l') tn.diffStr n d := by
  have h : ∀ c ∈ onlyLeftConstraint l' l, Own (qIndex bs) (qIndex tn.schema) (indexNames l) (indexNames l') tn.diffStr c.name.name (deedOf (ops sd) deedPart (match c with
      | .index n uq cs => indexStmt (sd [] c.diffStr) tn n uq cs
      | _ => .alterTable ⟨sd [] c.str, tn, .addConstraint c nv⟩)) := by
    intro c hc
    have hc' := (onlyLeftConstraint_spec.1 c hc).1
    split
    · exact .inr (.inr ⟨congrArg (fun x => Deed.create (.index x)) (qIndex_eq tn.schema _), mem_indexNames hc'⟩)
    · exact .inl (.inr rfl)
  have hnd : ((onlyLeftConstraint l' l).map (·.name.name)).Nodup := NodupNames.foldl (cs := []) List.nodup_nil _
  simp only [addConstraints, List.map_map]
  constructor
  · rw [List.nodup_map_iff_inj_on (List.Nodup.of_map _ hnd)]
    intro x hx y hy e
    have h1 := (h x hx).tells
    have h2 := (h y hy).tells
    simp only [Function.comp_apply] at e
    exact List.inj_on_of_nodup_map hnd hx hy (h1.unique (qIndex_inj _) (qIndex_inj _) (e.symm ▸ h2))
  · intro d hd
    obtain ⟨c, hc, rfl⟩ := List.mem_map.1 hd
    exact ⟨_, (onlyLeftConstraint_spec.1 c hc).2, h c hc⟩

theorem options_once {tn : ObjectName} {l l' : List TableOption} (hl : (l.map (·.name)).Nodup) (hl' : (l'.map (·.name)).Nodup) :
    (((changeOptions sd tn l l' ++ addOptions sd tn l l').map Stmt.alterTable).map (deedOf (ops sd) deedPart)).Nodup ∧
      ∀ d ∈ ((changeOptions sd tn l l' ++ addOptions sd tn l l').map Stmt.alterTable).map (deedOf (ops sd) deedPart),
        ∃ n, d = .part tn.diffStr .setOption (some n) := by
  have h1 : ∀ b : TableOption, ∀ L : List AlterTable, L = (if upper b.name = s%"AUTO_INCREMENT" then []
      else match findOption b.name l' with
        | none => []
        | some a => if b.diffStr ≠ a.diffStr then [⟨sd b.str a.str, tn, .tableOption a⟩] else []) →
      ((L.map Stmt.alterTable).map (deedOf (ops sd) deedPart)).Nodup ∧
        ∀ d ∈ (L.map Stmt.alterTable).map (deedOf (ops sd) deedPart), d = .part tn.diffStr .setOption (some b.name) := by
    rintro b L rfl
    split
    · simp
    · split
      · simp
      · rename_i a hf
        obtain ⟨ha, hn⟩ := find?_some_mem (f := fun c : TableOption => c.name) hf
        split
        · refine ⟨by simp, ?_⟩
          simp [deedOf, deedPart, ops, hn]
        · simp
  have h2 : ∀ a : TableOption, ∀ L : List AlterTable, L = (if upper a.name = s%"AUTO_INCREMENT" then [] else [⟨sd [] a.str, tn, .tableOption a⟩]) →
      ((L.map Stmt.alterTable).map (deedOf (ops sd) deedPart)).Nodup ∧
        ∀ d ∈ (L.map Stmt.alterTable).map (deedOf (ops sd) deedPart), d = .part tn.diffStr .setOption (some a.name) := by
    rintro a L rfl
    split <;> simp [deedOf, deedPart, ops]
  have h3 : ∀ d ∈ ((changeOptions sd tn l l').map Stmt.alterTable).map (deedOf (ops sd) deedPart), ∃ n ∈ l.map (·.name), d = .part tn.diffStr .setOption (some n) := by
    intro d hd
    simp only [changeOptions, List.map_flatMap] at hd
    obtain ⟨b, hb, hd⟩ := List.mem_flatMap.1 hd
    exact ⟨_, List.mem_map_of_mem hb, (h1 b _ rfl).2 d hd⟩
  have h4 : ∀ d ∈ ((addOptions sd tn l l').map Stmt.alterTable).map (deedOf (ops sd) deedPart), ∃ n, n ∉ l.map (·.name) ∧ d = .part tn.diffStr .setOption (some n) := by
    intro d hd
    simp only [addOptions, List.map_flatMap] at hd
    obtain ⟨a, ha, hd⟩ := List.mem_flatMap.1 hd
    have hf : findOption a.name l = none := by simpa [Option.isNone_iff_eq_none] using (List.mem_filter.1 ha).2
    exact ⟨_, (find?_none_iff (f := fun c : TableOption => c.name)).1 hf, (h2 a _ rfl).2 d hd⟩
  simp only [List.map_append]
  constructor
  · refine List.nodup_append.2 ⟨?_, ?_, ?_⟩
    · simp only [changeOptions, List.map_flatMap]
      refine nodup_flatMap_key (key := fun c : TableOption => c.name) hl (fun b _ => (h1 b _ rfl).1) fun x _ y _ d hd hd' => ?_
      have := ((h1 x _ rfl).2 d hd).symm.trans ((h1 y _ rfl).2 d hd')
      simpa using this
    · simp only [addOptions, List.map_flatMap]
      refine nodup_flatMap_key (key := fun c : TableOption => c.name) (hl'.sublist (List.filter_sublist.map _)) (fun b _ => (h2 b _ rfl).1) fun x _ y _ d hd hd' => ?_
      have := ((h2 x _ rfl).2 d hd).symm.trans ((h2 y _ rfl).2 d hd')
      simpa using this
    · rintro x hx y hy rfl
      obtain ⟨n, hn, rfl⟩ := h3 x hx
      obtain ⟨m, hm, e⟩ := h4 _ hy
      simp at e
      exact hm (e ▸ hn)
  · intro d hd
    rcases List.mem_append.1 hd with hd | hd
    · obtain ⟨n, -, h⟩ := h3 d hd
      exact ⟨n, h⟩
    · obtain ⟨n, -, h⟩ := h4 d hd
      exact ⟨n, h⟩

theorem mem_inline {t : CreateTable} {n : Str} (h : n ∈ indexNames t.constraints) : qIndex t.name.schema n ∈ inlineIndexes t := by
  obtain ⟨c, hc, e⟩ := List.mem_filterMap.1 h
  cases c <;> simp at e
  subst e
  exact List.mem_filterMap.2 ⟨_, hc, congrArg some (qIndex_eq _ _)⟩

theorem columns_not_option {tn : ObjectName} {l l' : List Column} {n : Str}
    (h : Deed.part tn.diffStr .setOption (some n) ∈ ((diffColumns sd tn l l').map Stmt.alterTable).map (deedOf (ops sd) deedPart)) : False := by
  simp only [diffColumns, List.map_append, List.map_flatMap, List.map_map, List.mem_append] at h
  rcases h with h | h
  · obtain ⟨b, -, h⟩ := List.mem_flatMap.1 h
    obtain ⟨x, hx, e⟩ := List.mem_map.1 h
    simp only [columnRound, alterColumn] at hx
    split at hx
    · simp at hx
      subst hx
      simp [deedOf, deedPart] at e
    · split_ifs at hx <;> simp at hx <;> first
        | (subst hx; simp [deedOf, deedPart] at e)
        | (rcases hx with rfl | rfl <;> simp [deedOf, deedPart] at e)
  · obtain ⟨x, -, e⟩ := List.mem_map.1 h
    simp [deedOf, deedPart] at e

theorem table_once {t t' : CreateTable} {l : List MStmt} (hn : t.name.diffStr = t'.name.diffStr) (cb : (t.columns.map (·.name.name)).Nodup)
    (ca : (t'.columns.map (·.name.name)).Nodup) (kb : (t.constraints.map (·.name.name)).Nodup) (ob : (t.options.map (·.name)).Nodup)
    (oa : (t'.options.map (·.name)).Nodup)
    (hk : ∀ n ∈ indexNames t'.constraints, n ∈ t.constraints.map (·.name.name) → n ∈ indexNames t.constraints)
    (h : (ops sd).diffTable t t' = .ok l) :
    TableOnce (ops sd) deedPart inlineIndexes t t' l := by
  obtain ⟨rfl, _, _⟩ := diffTable_ok h
  have hr : renamedName t.name t'.name = t'.name := by simp [renamedName, hn]
  have h0 : renameTable sd t.name t'.name = [] := by simp [renameTable, hn]
  rw [hr, h0]
  obtain ⟨a1, a2⟩ := drop_once (sd := sd) (bs := t.name.schema) (tn := t'.name) (l' := t'.constraints) kb
  obtain ⟨b1, b2⟩ := diffColumns_once (sd := sd) (tn := t'.name) cb ca
  obtain ⟨c1, c2⟩ := replace_once (sd := sd) (nv := false) (bs := t.name.schema) (tn := t'.name) (l' := t'.constraints) kb hk
  obtain ⟨d1, d2⟩ := add_once (sd := sd) (nv := false) (bs := t.name.schema) (tn := t'.name) (l := t.constraints) (l' := t'.constraints)
  obtain ⟨e1, e2⟩ := options_once (sd := sd) (tn := t'.name) ob oa
  have hp : ∀ v n, Mine (ops sd) inlineIndexes (.createTable t) (.createTable t') (.part t'.name.diffStr v n) := by
    intro v n
    simp [Mine, objects, ops, hn]
  have ho : ∀ n d, Own (qIndex t.name.schema) (qIndex t'.name.schema) (indexNames t.constraints) (indexNames t'.constraints) t'.name.diffStr n d →
      Mine (ops sd) inlineIndexes (.createTable t) (.createTable t') d := by
    intro n d ho
    rcases ho with (rfl | rfl) | ⟨rfl, hm⟩ | ⟨rfl, hm⟩
    · exact hp _ _
    · exact hp _ _
    · exact List.mem_cons_of_mem _ (List.mem_map_of_mem (mem_inline hm))
    · exact List.mem_cons_of_mem _ (List.mem_map_of_mem (mem_inline hm))
  constructor
  · rw [List.map_append]
    refine List.nodup_append.2 ⟨?_, e1, ?_⟩
    · simp only [List.map_nil, List.nil_append, List.map_append]
      exact combine_once (qIndex_inj _) (qIndex_inj _) (qd := (qIndex t.name.schema)) (qc := (qIndex t'.name.schema)) a1 b1 c1 d1
        (fun d hd => (a2 d hd).imp fun _ h => ⟨h.1, h.2.1, h.2.2.tells⟩) b2
        (fun d hd => (c2 d hd).imp fun _ h => ⟨h.1, h.2.1, h.2.2.tells⟩) (fun d hd => (d2 d hd).imp fun _ h => ⟨h.1, h.2.tells⟩)
    · rintro x hx y hy rfl
      obtain ⟨n, rfl⟩ := e2 x hy
      simp only [List.map_nil, List.nil_append, List.map_append, List.mem_append] at hx
      rcases hx with ((hd | hd) | hd) | hd
      · obtain ⟨m, -, -, hm⟩ := a2 _ hd
        exact OfColumn.not_tells ⟨_, _, rfl, by simp, by simp⟩ hm.tells
      · exact columns_not_option hd
      · obtain ⟨m, -, -, hm⟩ := c2 _ hd
        exact OfColumn.not_tells ⟨_, _, rfl, by simp, by simp⟩ hm.tells
      · obtain ⟨m, -, hm⟩ := d2 _ hd
        exact OfColumn.not_tells ⟨_, _, rfl, by simp, by simp⟩ hm.tells
  · intro d hd
    rw [List.map_append, List.mem_append] at hd
    rcases hd with hd | hd
    swap
    · obtain ⟨n, rfl⟩ := e2 d hd
      exact hp _ _
    simp only [List.map_nil, List.nil_append, List.map_append, List.mem_append] at hd
    rcases hd with ((hd | hd) | hd) | hd
    · obtain ⟨n, -, -, h⟩ := a2 d hd
      exact ho n d h
    · obtain ⟨v, n, rfl, -⟩ := b2 d hd
      exact hp v n
    · obtain ⟨n, -, -, h⟩ := c2 d hd
      exact ho n d h
    · obtain ⟨n, -, h⟩ := d2 d hd
      exact ho n d h
end My

/-! ## Spanner -/

namespace Sp
variable {sd : Str → Str → Str}

theorem alterColumn_once {tn : ObjectName} {b a : Column} :
    (((alterColumn sd tn b a).map Stmt.alterTable).map (deedOf (ops sd) deedPart)).Nodup ∧
      ∀ d ∈ ((alterColumn sd tn b a).map Stmt.alterTable).map (deedOf (ops sd) deedPart),
        ∃ v, d = .part tn.diffStr v (some a.name.name) ∧ v ≠ .addColumn ∧ v ≠ .dropConstraint ∧ v ≠ .addConstraint := by
  unfold alterColumn
  split_ifs <;> simp [deedOf, deedPart, ops]

theorem columnRound_once {tn : ObjectName} {l' : List Column} {b : Column} :
    (((columnRound sd tn l' b).map Stmt.alterTable).map (deedOf (ops sd) deedPart)).Nodup ∧
      ∀ d ∈ ((columnRound sd tn l' b).map Stmt.alterTable).map (deedOf (ops sd) deedPart),
        ∃ v, d = .part tn.diffStr v (some b.name.name) ∧ v ≠ .addColumn ∧ v ≠ .dropConstraint ∧ v ≠ .addConstraint := by
  unfold columnRound
  split
  · simp [deedOf, deedPart, ops]
  · rename_i a h
    rw [← (find?_some_mem (f := fun c : Column => c.name.name) h).2]
    exact alterColumn_once

theorem diffColumns_once {tn : ObjectName} {l l' : List Column} (hl : (l.map (·.name.name)).Nodup) (hl' : (l'.map (·.name.name)).Nodup) :
    (((diffColumns sd tn l l').map Stmt.alterTable).map (deedOf (ops sd) deedPart)).Nodup ∧
      ∀ d ∈ ((diffColumns sd tn l l').map Stmt.alterTable).map (deedOf (ops sd) deedPart), OfColumn tn.diffStr d := by
  have e : ((diffColumns sd tn l l').map Stmt.alterTable).map (deedOf (ops sd) deedPart) =
      l.flatMap (fun b => ((columnRound sd tn l' b).map Stmt.alterTable).map (deedOf (ops sd) deedPart)) ++
        (onlyLeftColumn l' l).map (fun x => Deed.part tn.diffStr .addColumn (some x.name.name)) := by
    simp only [diffColumns, List.map_append, List.map_flatMap, List.map_map]
    rfl
  rw [e]
  constructor
  · exact columns_nodup (key := fun c : Column => c.name.name) hl (hl'.sublist (List.filter_sublist.map _)) (fun b _ => columnRound_once.1)
      fun b _ d hd => by
        obtain ⟨v, h1, h2, -⟩ := columnRound_once.2 d hd
        exact ⟨v, h1, h2⟩
  · intro d hd
    rcases List.mem_append.1 hd with hd | hd
    · obtain ⟨b, -, hd⟩ := List.mem_flatMap.1 hd
      obtain ⟨v, h1, -, h2, h3⟩ := columnRound_once.2 d hd
      exact ⟨v, _, h1, h2, h3⟩
    · obtain ⟨c, -, rfl⟩ := List.mem_map.1 hd
      exact ⟨_, _, rfl, by simp, by simp⟩

theorem constraint_named {tn : ObjectName} {l l' : List Constraint} {r : List AlterTable}
    (h : flatMapRes (dropConstraint sd tn l') l = .ok r) : ∀ c ∈ l, c.name ≠ none := by
  intro c hc hn
  rw [flatMapRes_crash l (fun x _ => dropConstraint_okOrNil sd _ _ x) ⟨c, hc, by simp [dropConstraint, nameStr_none hn]⟩] at h
  cases h

theorem added_named {l l' r : List Constraint} (h : onlyLeftConstraint l [] l' = .ok r) : ∀ c ∈ l', c.name ≠ none := by
  intro c hc hn
  rw [onlyLeftConstraint_nil l l' [] ⟨c, hc, hn⟩] at h
  cases h

theorem keys_nodup {l : List Constraint} (hl : (l.map (fun c => c.name.map (·.name))).Nodup) (h : ∀ c ∈ l, c.name ≠ none) :
    (l.map Constraint.key).Nodup := by
  have e : l.map (fun c => c.name.map (·.name)) = (l.map Constraint.key).map some := by
    rw [List.map_map]
    refine List.map_congr_left fun c hc => ?_
    obtain ⟨i, hi⟩ := Option.ne_none_iff_exists'.1 (h c hc)
    simp [Constraint.key, hi]
  rw [e] at hl
  exact List.Nodup.of_map _ hl

theorem rounds {f : Constraint → Res (List AlterTable)} {l : List Constraint} {r : List AlterTable} (h : flatMapRes f l = .ok r) :
    ∃ g : Constraint → List AlterTable, (∀ c ∈ l, f c = .ok (g c)) ∧ r = l.flatMap g := by
  induction l generalizing r with
  | nil =>
    cases h
    exact ⟨fun _ => [], by simp, rfl⟩
  | cons c l ih =>
    simp only [flatMapRes, bind_eq_ok] at h
    obtain ⟨x, hx, y, hy, e⟩ := h
    cases e
    obtain ⟨g, hg, rfl⟩ := ih hy
    refine ⟨fun c => match f c with | .ok x => x | _ => [], ?_, ?_⟩
    · intro d hd
      rcases List.mem_cons.1 hd with rfl | hd
      · simp only [hx]
      · simp only [hg d hd]
    · rw [List.flatMap_cons]
      simp only [hx]
      congr 1
      exact List.flatMap_congr fun d hd => by simp only [hg d hd]

theorem drop_once {tn : ObjectName} {l l' : List Constraint} {r : List AlterTable} (hl : (l.map Constraint.key).Nodup)
    (h : flatMapRes (dropConstraint sd tn l') l = .ok r) :
    ((r.map Stmt.alterTable).map (deedOf (ops sd) deedPart)).Nodup ∧
      ∀ d ∈ (r.map Stmt.alterTable).map (deedOf (ops sd) deedPart),
        ∃ n, n ∈ l.map Constraint.key ∧ n ∉ l'.map Constraint.key ∧ Tells id id tn.diffStr n d := by
  obtain ⟨g, hg, rfl⟩ := rounds h
  have h1 : ∀ b ∈ l, (((g b).map Stmt.alterTable).map (deedOf (ops sd) deedPart)).Nodup ∧
      ∀ d ∈ ((g b).map Stmt.alterTable).map (deedOf (ops sd) deedPart), b.key ∉ l'.map Constraint.key ∧ Tells id id tn.diffStr b.key d := by
    intro b hb
    have := hg b hb
    simp only [dropConstraint, bind_eq_ok] at this
    obtain ⟨n, hn, f, hf, e⟩ := this
    obtain ⟨i, hi, rfl⟩ := nameStr_ok.1 hn
    have hk := nameStr_key hn
    cases f with
    | none =>
      simp only [Res.ok.injEq] at e
      rw [← e]
      refine ⟨by simp, fun d hd => ⟨hk ▸ findConstraint_none hf, .inl ?_⟩⟩
      simp only [List.map_cons, List.map_nil, List.mem_singleton] at hd
      subst hd
      simp [deedOf, deedPart, ops, hi, hk]
    | some c =>
      simp only [Res.ok.injEq] at e
      rw [← e]
      simp
  simp only [List.map_flatMap]
  constructor
  · exact tells_nodup Function.injective_id Function.injective_id hl (fun b hb => (h1 b hb).1) fun b hb d hd => ((h1 b hb).2 d hd).2
  · intro d hd
    obtain ⟨b, hb, hd⟩ := List.mem_flatMap.1 hd
    exact ⟨_, List.mem_map_of_mem hb, (h1 b hb).2 d hd⟩

theorem replace_once {nv : Bool} {tn : ObjectName} {l l' : List Constraint} {r : List AlterTable} (hl : (l.map Constraint.key).Nodup)
    (ha : ∀ c ∈ l', c.name ≠ none)
    (h : flatMapRes (replaceConstraint sd nv tn l') l = .ok r) :
    ((r.map Stmt.alterTable).map (deedOf (ops sd) deedPart)).Nodup ∧
      ∀ d ∈ (r.map Stmt.alterTable).map (deedOf (ops sd) deedPart),
        ∃ n, n ∈ l.map Constraint.key ∧ n ∈ l'.map Constraint.key ∧ Tells id id tn.diffStr n d := by
  obtain ⟨g, hg, rfl⟩ := rounds h
  have h1 : ∀ b ∈ l, (((g b).map Stmt.alterTable).map (deedOf (ops sd) deedPart)).Nodup ∧
      ∀ d ∈ ((g b).map Stmt.alterTable).map (deedOf (ops sd) deedPart), b.key ∈ l'.map Constraint.key ∧ Tells id id tn.diffStr b.key d := by
    intro b hb
    have := hg b hb
    simp only [replaceConstraint, bind_eq_ok] at this
    obtain ⟨n, hn, f, hf, e⟩ := this
    obtain ⟨i, hi, rfl⟩ := nameStr_ok.1 hn
    have hk := nameStr_key hn
    cases f with
    | none =>
      simp only [Res.ok.injEq] at e
      rw [← e]
      simp
    | some c =>
      obtain ⟨hc, hck⟩ := findConstraint_some hf
      obtain ⟨j, hj⟩ := Option.ne_none_iff_exists'.1 (ha c hc)
      have hji : j.name = i.name := by rw [← hck, Constraint.key, hj]; rfl
      simp only at e
      split at e
      · simp only [Res.ok.injEq] at e
        rw [← e]
        refine ⟨by simp [deedOf, deedPart], fun d hd => ⟨List.mem_map.2 ⟨c, hc, hck.trans hk.symm⟩, ?_⟩⟩
        simp only [List.map_cons, List.map_nil, List.mem_cons, List.not_mem_nil, or_false] at hd
        rcases hd with rfl | rfl
        · exact .inl (by simp [deedOf, deedPart, ops, hi, hk])
        · exact .inr (.inl (by simp [deedOf, deedPart, ops, hj, hk, hji]))
      · simp only [Res.ok.injEq] at e
        rw [← e]
        simp
  simp only [List.map_flatMap]
  constructor
  · exact tells_nodup Function.injective_id Function.injective_id hl (fun b hb => (h1 b hb).1) fun b hb d hd => ((h1 b hb).2 d hd).2
  · intro d hd
    obtain ⟨b, hb, hd⟩ := List.mem_flatMap.1 hd
    exact ⟨_, List.mem_map_of_mem hb, (h1 b hb).2 d hd⟩

theorem add_once {nv : Bool} {tn : ObjectName} {l l' r : List Constraint} (hb : ∀ c ∈ l, c.name ≠ none) (ha : ∀ c ∈ l', c.name ≠ none)
    (hl' : (l'.map Constraint.key).Nodup)
    (h : onlyLeftConstraint l [] l' = .ok r) :
    (((r.map (fun c => AlterTable.mk (sd [] c.str) tn (.addConstraint c nv))).map Stmt.alterTable).map (deedOf (ops sd) deedPart)).Nodup ∧
      ∀ d ∈ ((r.map (fun c => AlterTable.mk (sd [] c.str) tn (.addConstraint c nv))).map Stmt.alterTable).map (deedOf (ops sd) deedPart),
        ∃ n, n ∉ l.map Constraint.key ∧ Tells id id tn.diffStr n d := by
  rw [Run.onlyLeft_eq hb ha [] (by simp) (by simpa using hl')] at h
  simp only [List.nil_append, Res.ok.injEq] at h
  have hr : ∀ c ∈ r, c ∈ l' ∧ c.key ∉ l.map Constraint.key := by
    intro c hc
    rw [← h, List.mem_filter] at hc
    exact ⟨hc.1, by simpa using hc.2⟩
  have e : ((r.map (fun c => AlterTable.mk (sd [] c.str) tn (.addConstraint c nv))).map Stmt.alterTable).map (deedOf (ops sd) deedPart) =
      (r.map Constraint.key).map (fun n => Deed.part tn.diffStr .addConstraint (some n)) := by
    simp only [List.map_map]
    refine List.map_congr_left fun c hc => ?_
    obtain ⟨i, hi⟩ := Option.ne_none_iff_exists'.1 (ha c (hr c hc).1)
    simp [deedOf, deedPart, ops, hi, Constraint.key]
  rw [e]
  constructor
  · refine List.Nodup.map (fun _ _ e => by simpa using e) ?_
    rw [← h]
    exact hl'.sublist (List.filter_sublist.map _)
  · intro d hd
    obtain ⟨n, hn, rfl⟩ := List.mem_map.1 hd
    obtain ⟨c, hc, rfl⟩ := List.mem_map.1 hn
    exact ⟨_, (hr c hc).2, .inr (.inl rfl)⟩

theorem policy_once {tn : ObjectName} {b a : Option TableOption} :
    (((diffRowDeletionPolicy sd tn b a).map Stmt.alterTable).map (deedOf (ops sd) deedPart)).Nodup ∧
      ∀ d ∈ ((diffRowDeletionPolicy sd tn b a).map Stmt.alterTable).map (deedOf (ops sd) deedPart),
        ∃ v, d = .part tn.diffStr v none ∧ v ≠ .dropConstraint ∧ v ≠ .addConstraint := by
  unfold diffRowDeletionPolicy
  split
  · cases b <;> cases a <;> simp [deedOf, deedPart, ops]
  · simp

theorem columns_not_policy {tn : ObjectName} {l l' : List Column} {v : Verb}
    (h : Deed.part tn.diffStr v none ∈ ((diffColumns sd tn l l').map Stmt.alterTable).map (deedOf (ops sd) deedPart)) : False := by
  simp only [diffColumns, List.map_append, List.mem_append, List.map_flatMap] at h
  rcases h with h | h
  · obtain ⟨b, -, h⟩ := List.mem_flatMap.1 h
    obtain ⟨v, e, -⟩ := columnRound_once.2 _ h
    simp at e
  · simp [deedOf, deedPart] at h

theorem table_once {t t' : CreateTable} {l : List SStmt} (hn : t.name.diffStr = t'.name.diffStr) (cb : (t.columns.map (·.name.name)).Nodup)
    (ca : (t'.columns.map (·.name.name)).Nodup) (kb : (t.constraints.map (fun c => c.name.map (·.name))).Nodup)
    (ka : (t'.constraints.map (fun c => c.name.map (·.name))).Nodup)
    (h : (ops sd).diffTable t t' = .ok l) : TableOnce (ops sd) deedPart (fun _ => []) t t' l := by
  rcases diffTable_ok h with ⟨-, rfl⟩ | ⟨-, -, -, dr, re, ad, h1, h2, h3, rfl⟩
  · constructor
    · simp [deedOf]
    · simp [deedOf, Mine, objects, ops]
  · have hr : renamedName t.name t'.name = t'.name := by simp [renamedName, hn]
    have h0 : renameTable sd t.name t'.name = [] := by simp [renameTable, hn]
    rw [hr] at h1 h2
    rw [hr, h0]
    have nb := constraint_named h1
    have na := added_named h3
    have kb := keys_nodup kb nb
    have ka := keys_nodup ka na
    obtain ⟨a1, a2⟩ := drop_once kb h1
    obtain ⟨b1, b2⟩ := diffColumns_once (sd := sd) (tn := t'.name) cb ca
    obtain ⟨c1, c2⟩ := replace_once kb na h2
    obtain ⟨d1, d2⟩ := add_once (sd := sd) (nv := false) (tn := t'.name) nb na ka h3
    obtain ⟨e1, e2⟩ := policy_once (sd := sd) (tn := t'.name) (b := t.rowDeletionPolicy) (a := t'.rowDeletionPolicy)
    have hp : ∀ v n, Mine (ops sd) (fun _ => []) (.createTable t) (.createTable t') (.part t'.name.diffStr v n) := by
      intro v n
      simp [Mine, objects, ops, hn]
    have ho : ∀ n d, Tells id id t'.name.diffStr n d → d ∈ (((dr ++ diffColumns sd t'.name t.columns t'.columns ++ re ++
        ad.map (fun c => AlterTable.mk (sd [] c.str) t'.name (.addConstraint c false))).map Stmt.alterTable).map (deedOf (ops sd) deedPart)) →
        ∃ v n, d = .part t'.name.diffStr v n := by
      rintro n d (rfl | rfl | rfl | rfl) hd
      · exact ⟨_, _, rfl⟩
      · exact ⟨_, _, rfl⟩
      · simp [deedOf] at hd
      · simp [deedOf] at hd
    constructor
    · simp only [List.nil_append]
      rw [List.map_append, List.map_append]
      refine List.nodup_append.2 ⟨?_, e1, ?_⟩
      · simp only [List.map_append]
        exact combine_once Function.injective_id Function.injective_id a1 b1 c1 d1 a2 b2 c2 d2
      · rintro x hx y hy rfl
        obtain ⟨v, rfl, v1, v2⟩ := e2 x hy
        simp only [List.map_append, List.mem_append] at hx
        rcases hx with ((hd | hd) | hd) | hd
        · obtain ⟨m, -, -, hm⟩ := a2 _ hd
          exact OfColumn.not_tells ⟨_, _, rfl, v1, v2⟩ hm
        · exact columns_not_policy hd
        · obtain ⟨m, -, -, hm⟩ := c2 _ hd
          exact OfColumn.not_tells ⟨_, _, rfl, v1, v2⟩ hm
        · obtain ⟨m, -, hm⟩ := d2 _ hd
          exact OfColumn.not_tells ⟨_, _, rfl, v1, v2⟩ hm
    · intro d hd
      simp only [List.nil_append] at hd
      rw [List.map_append, List.map_append, List.mem_append] at hd
      rcases hd with hd | hd
      swap
      · obtain ⟨v, rfl, -⟩ := e2 d hd
        exact hp _ _
      have hd' := hd
      simp only [List.map_append, List.mem_append] at hd
      rcases hd with ((hd | hd) | hd) | hd
      · obtain ⟨n, -, -, h⟩ := a2 d hd
        obtain ⟨v, m, rfl⟩ := ho n d h hd'
        exact hp _ _
      · obtain ⟨v, n, rfl, -⟩ := b2 d hd
        exact hp v n
      · obtain ⟨n, -, -, h⟩ := c2 d hd
        obtain ⟨v, m, rfl⟩ := ho n d h hd'
        exact hp _ _
      · obtain ⟨n, -, h⟩ := d2 d hd
        obtain ⟨v, m, rfl⟩ := ho n d h hd'
        exact hp _ _
end Sp

end Ddl
