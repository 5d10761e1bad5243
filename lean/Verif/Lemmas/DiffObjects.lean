import Verif.Lemmas.Diff

/-! # Objects mentioned by the generic `diff`, given how the dialect's table diff behaves -/

namespace Ddl
open Spec

variable {T I A N : Type} {o : Ops T I A N}

theorem creates_name {s : Stmt T I A N} {t : T} (h : s = .createTable t) :
    creates o s = some (.table (o.tableName t).diffStr) := by subst h; rfl

theorem isDropFor_drops {s d : Stmt T I A N} (h : IsDropFor o s d) : drops o d = creates o s := by
  cases h <;> rfl

theorem isDropFor_some {s d : Stmt T I A N} (h : IsDropFor o s d) : (creates o s).isSome := by
  cases h <;> rfl

theorem alterOf_defines {b a : List (Stmt T I A N)} {s : Stmt T I A N} (hs : s ∈ b)
    {P : Stmt T I A N → Prop}
    (hT : ∀ t t' r, .createTable t ∈ b → .createTable t' ∈ a → (o.tableName t).diffStr = (o.tableName t').diffStr →
      o.diffTable t t' = .ok r → ∀ x ∈ r, P x)
    (hI : ∀ i i' c, .createIndex i ∈ b → .createIndex i' ∈ a →
      o.nDiffStr (o.indexName i) = o.nDiffStr (o.indexName i') → o.indexDiffStr i ≠ o.indexDiffStr i' →
      P (.dropIndex c false (o.indexName i)) ∧ P (.createIndex i'))
    {l : List (Stmt T I A N)} (h : alterOf o a s = .ok l) : ∀ x ∈ l, P x := by
  rcases alterOf_ok h with rfl | ⟨t, t', rfl, h1, h2, h3⟩ | ⟨i, i', rfl, h1, h2, h3, rfl⟩
  · simp
  · exact hT t t' l hs h1 h2 h3
  · intro x hx
    have := hI i i' (o.sd (o.indexDiffStr i) (o.indexDiffStr i')) hs h1 h2 h3
    simp only [List.mem_cons, List.not_mem_nil, or_false] at hx
    rcases hx with rfl | rfl
    · exact this.1
    · exact this.2

/-- Every statement of the third part of a diff satisfies `P` when the statements of the table diffs and index replacements
do. -/
theorem alters_all {b a : List (Stmt T I A N)} {rs : List (List (Stmt T I A N))}
    (h : List.Forall₂ (fun s l => alterOf o a s = .ok l) b rs) {P : Stmt T I A N → Prop}
    (hT : ∀ t t' r, .createTable t ∈ b → .createTable t' ∈ a → (o.tableName t).diffStr = (o.tableName t').diffStr →
      o.diffTable t t' = .ok r → ∀ x ∈ r, P x)
    (hI : ∀ i i' c, .createIndex i ∈ b → .createIndex i' ∈ a →
      o.nDiffStr (o.indexName i) = o.nDiffStr (o.indexName i') → o.indexDiffStr i ≠ o.indexDiffStr i' →
      P (.dropIndex c false (o.indexName i)) ∧ P (.createIndex i')) :
    ∀ x ∈ rs.flatten, P x := by
  intro x hx
  obtain ⟨l, hl, hxl⟩ := List.mem_flatten.1 hx
  obtain ⟨s, hs, h'⟩ := forall₂_mem_right h l hl
  exact alterOf_defines hs hT hI h' x hxl

/-- The diff in three parts: plain DROPs of exactly the objects defined before only, the CREATE statements of exactly the objects
defined after only, and the rest. -/
theorem diff_parts {b a r : List (Stmt T I A N)} (h : diff o (some b) (some a) = .ok r) :
    ∃ gone ds cs rest, r = ds ++ cs ++ rest ∧
      List.Sublist gone b ∧ (∀ s ∈ b, ∀ k, creates o s = some k → (s ∈ gone ↔ ¬ Defines o a k)) ∧
      (∀ s ∈ gone, (creates o s).isSome) ∧ List.Forall₂ (IsDropFor o) gone ds ∧
      List.Sublist cs a ∧ (∀ s ∈ a, ∀ k, creates o s = some k → (s ∈ cs ↔ ¬ Defines o b k)) ∧
      (∀ s ∈ cs, (creates o s).isSome) ∧
      ∃ rs, List.Forall₂ (fun s l => alterOf o a s = .ok l) b rs ∧ rest = rs.flatten := by
  obtain ⟨ds, cs, rs, hd, rfl, hco, hrs, rfl, _⟩ := diff_ok h
  refine ⟨onlyLeftStmt o b a, ds, _, rs.flatten, rfl, List.filter_sublist, ?_, ?_, hd, List.filter_sublist, ?_, hco,
    rs, hrs, rfl⟩
  · intro s hs k hk
    rw [mem_onlyLeft hk]; simp [hs]
  · intro s hs
    obtain ⟨d, _, hd'⟩ := forall₂_mem_left hd s hs
    exact isDropFor_some hd'
  · intro s hs k hk
    rw [mem_onlyLeft hk]; simp [hs]

/-- In `l` every element with `P` is immediately followed by an element related by `Q`. -/
def Followed {α : Type} (P : α → Prop) (Q : α → α → Prop) (l : List α) : Prop :=
  ∀ p x q, l = p ++ x :: q → P x → ∃ y q', q = y :: q' ∧ Q x y

theorem Followed.of_not {α : Type} {P : α → Prop} {Q : α → α → Prop} {l : List α} (h : ∀ x ∈ l, ¬ P x) : Followed P Q l := by
  rintro p x q rfl hx
  exact absurd hx (h x (by simp))

theorem Followed.append {α : Type} {P : α → Prop} {Q : α → α → Prop} {l r : List α} (hl : Followed P Q l)
    (hr : Followed P Q r) : Followed P Q (l ++ r) := by
  intro p x q he hx
  rcases List.append_eq_append_iff.1 he with ⟨m, h1, h2⟩ | ⟨m, h1, h2⟩
  · exact hr m x q h2 hx
  · cases m with
    | nil => exact hr [] x q h2.symm hx
    | cons z m =>
      simp only [List.cons_append, List.cons.injEq] at h2
      obtain ⟨rfl, rfl⟩ := h2
      obtain ⟨y, q', rfl, hq⟩ := hl p x m h1 hx
      exact ⟨y, q' ++ r, by simp, hq⟩

theorem Followed.flatten {α : Type} {P : α → Prop} {Q : α → α → Prop} {ls : List (List α)} (h : ∀ l ∈ ls, Followed P Q l) :
    Followed P Q ls.flatten := by
  induction ls with
  | nil => exact Followed.of_not (by simp)
  | cons l ls ih =>
    rw [List.flatten_cons]
    exact (h l List.mem_cons_self).append (ih (fun l hl => h l (List.mem_cons_of_mem _ hl)))

/-- What a table diff may be about: the table itself, or an index declared inside one of the two definitions. -/
def TableDiffAbout (o : Ops T I A N) (inline : T → List Str) (t t' : T) (x : Stmt T I A N) : Prop :=
  about o x = some (.table (o.tableName t).diffStr) ∨
    ∃ n, about o x = some (.index n) ∧ (n ∈ inline t ∨ n ∈ inline t')

/-- A dropped table that is not dropped by a table diff is undefined afterwards. -/
theorem diff_drops {b a r : List (Stmt T I A N)} (h : diff o (some b) (some a) = .ok r)
    (hT : ∀ t t' l, o.diffTable t t' = .ok l → ∀ x ∈ l, ∀ k, drops o x ≠ some (.table k)) {x : Str}
    (hx : ∃ s ∈ r, drops o s = some (.table x)) : ¬ Defines o a (.table x) ∧ Defines o b (.table x) := by
  obtain ⟨ds, cs, rs, hd, rfl, hco, hrs, rfl, _⟩ := diff_ok h
  obtain ⟨s, hs, hk⟩ := hx
  simp only [List.mem_append] at hs
  rcases hs with (hs | hs) | hs
  · obtain ⟨c, hc, hdc⟩ := forall₂_mem_right hd s hs
    rw [isDropFor_drops hdc] at hk
    have := (mem_onlyLeft hk).1 hc
    exact ⟨this.2, c, this.1, hk⟩
  · have := hco s hs
    cases s <;> simp [creates, drops] at this hk
  · have : ∀ x ∈ rs.flatten, ∀ k, drops o x ≠ some (.table k) := by
      refine alters_all hrs ?_ ?_
      · intro t t' l _ _ _ hl y hy k
        exact hT t t' l hl y hy k
      · intro i i' c _ _ _ _
        refine ⟨fun k => by simp [drops], fun k => by simp [drops]⟩
    exact absurd hk (this s hs x)

theorem isDropFor_about {s d : Stmt T I A N} (h : IsDropFor o s d) : about o d = creates o s := by
  cases h <;> rfl

/-- The diff in three parts with the objects they are about. -/
theorem diff_phases {inline : T → List Str} {b a r : List (Stmt T I A N)} (h : diff o (some b) (some a) = .ok r)
    (hT : ∀ t t' l, .createTable t ∈ b → .createTable t' ∈ a → (o.tableName t).diffStr = (o.tableName t').diffStr →
      o.diffTable t t' = .ok l → ∀ x ∈ l, TableDiffAbout o inline t t' x) :
    ∃ ds cs rest, r = ds ++ cs ++ rest ∧
      (∀ s ∈ ds, ∃ k, drops o s = some k ∧ Defines o b k ∧ ¬ Defines o a k) ∧
      (∀ k, Defines o b k → ¬ Defines o a k → ∃ s ∈ ds, drops o s = some k) ∧
      (∀ s ∈ cs, s ∈ a ∧ ∃ k, creates o s = some k ∧ ¬ Defines o b k) ∧
      (∀ s ∈ a, ∀ k, creates o s = some k → ¬ Defines o b k → s ∈ cs) ∧
      (∀ s ∈ rest, ∃ k, about o s = some k ∧
        ((Defines o b k ∧ Defines o a k) ∨ DeclaresInline inline b k ∨ DeclaresInline inline a k)) := by
  obtain ⟨ds, cs, rs, hd, rfl, hco, hrs, rfl, _⟩ := diff_ok h
  refine ⟨ds, _, _, rfl, ?_, ?_, ?_, ?_, ?_⟩
  · intro s hs
    obtain ⟨c, hc, hdc⟩ := forall₂_mem_right hd s hs
    obtain ⟨k, hk⟩ := Option.isSome_iff_exists.1 (isDropFor_some hdc)
    have := (mem_onlyLeft hk).1 hc
    exact ⟨k, by rw [isDropFor_drops hdc, hk], ⟨c, this.1, hk⟩, this.2⟩
  · rintro k ⟨c, hc, hk⟩ hna
    obtain ⟨d, hd', hdc⟩ := forall₂_mem_left hd c ((mem_onlyLeft hk).2 ⟨hc, hna⟩)
    exact ⟨d, hd', by rw [isDropFor_drops hdc, hk]⟩
  · intro s hs
    obtain ⟨k, hk⟩ := Option.isSome_iff_exists.1 (hco s hs)
    have := (mem_onlyLeft hk).1 hs
    exact ⟨this.1, k, hk, this.2⟩
  · intro s hs k hk hnb
    exact (mem_onlyLeft hk).2 ⟨hs, hnb⟩
  · intro s hs
    refine alters_all hrs (P := fun s => ∃ k, about o s = some k ∧
        ((Defines o b k ∧ Defines o a k) ∨ DeclaresInline inline b k ∨ DeclaresInline inline a k)) ?_ ?_ s hs
    · intro t t' l ht ht' hn hl x hx
      rcases hT t t' l ht ht' hn hl x hx with hk | ⟨n, hk, hn' | hn'⟩
      · exact ⟨_, hk, .inl ⟨⟨_, ht, rfl⟩, ⟨_, ht', by simp [creates, hn]⟩⟩⟩
      · exact ⟨_, hk, .inr (.inl ⟨t, n, ht, hn', rfl⟩)⟩
      · exact ⟨_, hk, .inr (.inr ⟨t', n, ht', hn', rfl⟩)⟩
    · intro i i' c hi hi' hn _
      exact ⟨⟨_, rfl, .inl ⟨⟨_, hi, rfl⟩, ⟨_, hi', by simp [creates, hn]⟩⟩⟩,
        ⟨_, rfl, .inl ⟨⟨_, hi, by simp [creates, hn]⟩, ⟨_, hi', rfl⟩⟩⟩⟩

theorem defines_or {inline : T → List Str} {b a r : List (Stmt T I A N)} (h : diff o (some b) (some a) = .ok r)
    (hT : ∀ t t' l, .createTable t ∈ b → .createTable t' ∈ a → (o.tableName t).diffStr = (o.tableName t').diffStr →
      o.diffTable t t' = .ok l → ∀ x ∈ l, TableDiffAbout o inline t t' x) :
    ∀ s ∈ r, ∃ k, about o s = some k ∧
      (Defines o b k ∨ Defines o a k ∨ DeclaresInline inline b k ∨ DeclaresInline inline a k) := by
  obtain ⟨ds, cs, rest, rfl, h1, _, h3, _, h5⟩ := diff_phases h hT
  intro s hs
  simp only [List.mem_append] at hs
  rcases hs with (hs | hs) | hs
  · obtain ⟨k, hk, hb, _⟩ := h1 s hs
    refine ⟨k, ?_, .inl hb⟩
    cases s <;> simp [drops] at hk <;> subst hk <;> rfl
  · obtain ⟨hm, k, hk, _⟩ := h3 s hs
    exact ⟨k, by simp [about, hk], .inr (.inl ⟨s, hm, hk⟩)⟩
  · obtain ⟨k, hk, h⟩ := h5 s hs
    exact ⟨k, hk, by tauto⟩

theorem table_unique {l : List (Stmt T I A N)} (hl : DistinctObjects o l) {u v : T} (hu : .createTable u ∈ l)
    (hv : .createTable v ∈ l) (he : (o.tableName u).diffStr = (o.tableName v).diffStr) : u = v := by
  induction l with
  | nil => simp at hu
  | cons x l ih =>
    have hsub : DistinctObjects o l := by
      simp only [DistinctObjects, List.filterMap_cons] at hl
      split at hl
      · exact hl
      · exact (List.nodup_cons.1 hl).2
    have hout : ∀ {w z : T}, x = .createTable w → .createTable z ∈ l →
        (o.tableName w).diffStr ≠ (o.tableName z).diffStr := by
      rintro w z rfl hz he'
      simp only [DistinctObjects, List.filterMap_cons, creates] at hl
      refine (List.nodup_cons.1 hl).1 (List.mem_filterMap.2 ⟨_, hz, ?_⟩)
      simp [creates, he']
    rcases List.mem_cons.1 hu with hu | hu <;> rcases List.mem_cons.1 hv with hv | hv
    · have := hu.trans hv.symm; simpa using this
    · exact absurd he (hout hu.symm hv)
    · exact absurd he.symm (hout hv.symm hu)
    · exact ih hsub hu hv

theorem index_unique {l : List (Stmt T I A N)} (hl : DistinctObjects o l) {u v : I} (hu : .createIndex u ∈ l)
    (hv : .createIndex v ∈ l) (he : o.nDiffStr (o.indexName u) = o.nDiffStr (o.indexName v)) : u = v := by
  induction l with
  | nil => simp at hu
  | cons x l ih =>
    have hsub : DistinctObjects o l := by
      simp only [DistinctObjects, List.filterMap_cons] at hl
      split at hl
      · exact hl
      · exact (List.nodup_cons.1 hl).2
    have hout : ∀ {w z : I}, x = .createIndex w → .createIndex z ∈ l →
        o.nDiffStr (o.indexName w) ≠ o.nDiffStr (o.indexName z) := by
      rintro w z rfl hz he'
      simp only [DistinctObjects, List.filterMap_cons, creates] at hl
      refine (List.nodup_cons.1 hl).1 (List.mem_filterMap.2 ⟨_, hz, ?_⟩)
      simp [creates, he']
    rcases List.mem_cons.1 hu with hu | hu <;> rcases List.mem_cons.1 hv with hv | hv
    · have := hu.trans hv.symm; simpa using this
    · exact absurd he (hout hu.symm hv)
    · exact absurd he.symm (hout hv.symm hu)
    · exact ih hsub hu hv

/-- With distinct objects, an index defined alike on both sides and not declared inside a table is not mentioned. -/
theorem index_not_mentioned {inline : T → List Str} {b a r : List (Stmt T I A N)} (h : diff o (some b) (some a) = .ok r)
    (hT : ∀ t t' l, .createTable t ∈ b → .createTable t' ∈ a → (o.tableName t).diffStr = (o.tableName t').diffStr →
      o.diffTable t t' = .ok l → ∀ x ∈ l, TableDiffAbout o inline t t' x)
    (hb : DistinctObjects o b) (ha : DistinctObjects o a) {i i' : I} (hi : .createIndex i ∈ b)
    (hi' : .createIndex i' ∈ a) (hn : o.nDiffStr (o.indexName i) = o.nDiffStr (o.indexName i'))
    (hno : o.indexDiffStr i = o.indexDiffStr i')
    (hib : ¬ DeclaresInline inline b (.index (o.nDiffStr (o.indexName i))))
    (hia : ¬ DeclaresInline inline a (.index (o.nDiffStr (o.indexName i)))) :
    ∀ s ∈ r, about o s ≠ some (.index (o.nDiffStr (o.indexName i))) := by
  obtain ⟨ds, cs, rs, hd, rfl, hco, hrs, rfl, _⟩ := diff_ok h
  intro s hs
  simp only [List.mem_append] at hs
  have hdb : Defines o b (.index (o.nDiffStr (o.indexName i))) := ⟨_, hi, rfl⟩
  have hda : Defines o a (.index (o.nDiffStr (o.indexName i))) := ⟨_, hi', by simp [creates, hn]⟩
  rcases hs with (hs | hs) | hs
  · intro hab
    obtain ⟨c, hc, hdc⟩ := forall₂_mem_right hd s hs
    have hck : creates o c = some (.index (o.nDiffStr (o.indexName i))) := by
      rw [← isDropFor_about hdc, hab]
    exact ((mem_onlyLeft hck).1 hc).2 hda
  · intro hab
    obtain ⟨k, hk⟩ := Option.isSome_iff_exists.1 (hco s hs)
    have : k = .index (o.nDiffStr (o.indexName i)) := by simpa [about, hk] using hab
    subst this
    exact ((mem_onlyLeft hk).1 hs).2 hdb
  · refine alters_all hrs (P := fun s => about o s ≠ some (.index (o.nDiffStr (o.indexName i)))) ?_ ?_ s hs
    · intro u u' l hu hu' hnu hl x hx
      rcases hT u u' l hu hu' hnu hl x hx with hk | ⟨n, hk, hn' | hn'⟩
      · rw [hk]; simp
      · rw [hk]
        intro he
        simp only [Option.some.injEq, Obj.index.injEq] at he
        subst he
        exact hib ⟨u, _, hu, hn', rfl⟩
      · rw [hk]
        intro he
        simp only [Option.some.injEq, Obj.index.injEq] at he
        subst he
        exact hia ⟨u', _, hu', hn', rfl⟩
    · intro j j' c hj hj' hnj hdj
      have key : o.nDiffStr (o.indexName j) ≠ o.nDiffStr (o.indexName i) := by
        intro he
        obtain rfl := index_unique hb hj hi he
        obtain rfl := index_unique ha hj' hi' (by rw [← hnj, hn])
        exact hdj hno
      refine ⟨by simpa [about, creates, drops] using key, ?_⟩
      rw [hnj] at key
      simpa [about, creates] using key

/-- With distinct objects, a table found on both sides with an empty table diff is not mentioned. -/
theorem not_mentioned {inline : T → List Str} {b a r : List (Stmt T I A N)} (h : diff o (some b) (some a) = .ok r)
    (hT : ∀ t t' l, .createTable t ∈ b → .createTable t' ∈ a → (o.tableName t).diffStr = (o.tableName t').diffStr →
      o.diffTable t t' = .ok l → ∀ x ∈ l, TableDiffAbout o inline t t' x)
    (hb : DistinctObjects o b) (ha : DistinctObjects o a) {t t' : T} (ht : .createTable t ∈ b)
    (ht' : .createTable t' ∈ a) (hn : (o.tableName t).diffStr = (o.tableName t').diffStr)
    (hno : ∀ l, o.diffTable t t' ≠ .ok l) :
    ∀ s ∈ r, about o s ≠ some (.table (o.tableName t).diffStr) := by
  obtain ⟨ds, cs, rs, hd, rfl, hco, hrs, rfl, _⟩ := diff_ok h
  intro s hs
  simp only [List.mem_append] at hs
  have hdb : Defines o b (.table (o.tableName t).diffStr) := ⟨_, ht, rfl⟩
  have hda : Defines o a (.table (o.tableName t).diffStr) := ⟨_, ht', by simp [creates, hn]⟩
  rcases hs with (hs | hs) | hs
  · intro hab
    obtain ⟨c, hc, hdc⟩ := forall₂_mem_right hd s hs
    have hck : creates o c = some (.table (o.tableName t).diffStr) := by
      rw [← isDropFor_about hdc, hab]
    exact ((mem_onlyLeft hck).1 hc).2 hda
  · intro hab
    obtain ⟨k, hk⟩ := Option.isSome_iff_exists.1 (hco s hs)
    have : k = .table (o.tableName t).diffStr := by simpa [about, hk] using hab
    subst this
    exact ((mem_onlyLeft hk).1 hs).2 hdb
  · refine alters_all hrs (P := fun s => about o s ≠ some (.table (o.tableName t).diffStr)) ?_ ?_ s hs
    · intro u u' l hu hu' hnu hl x hx
      rcases hT u u' l hu hu' hnu hl x hx with hk | ⟨n, hk, _⟩
      · rw [hk]
        intro he
        simp only [Option.some.injEq, Obj.table.injEq] at he
        obtain rfl := table_unique hb hu ht he
        obtain rfl := table_unique ha hu' ht' (by rw [← hnu, he, hn])
        exact hno l hl
      · rw [hk]; simp
    · intro i i' c _ _ _ _
      exact ⟨by simp [about, creates, drops], by simp [about, creates]⟩

theorem onlyDifferences {inline : T → List Str} {b a r : List (Stmt T I A N)} (h : diff o (some b) (some a) = .ok r)
    (hT : ∀ t t' l, .createTable t ∈ b → .createTable t' ∈ a → (o.tableName t).diffStr = (o.tableName t').diffStr →
      o.diffTable t t' = .ok l → ∀ x ∈ l, TableDiffAbout o inline t t' x)
    (hno : ∀ t l, o.diffTable t t ≠ .ok l) : OnlyDifferences o inline b a r :=
  ⟨defines_or h hT, fun hb ha =>
    ⟨fun t ht ht' => not_mentioned h hT hb ha ht ht' rfl (hno t),
     fun _ hi hi' => index_not_mentioned h hT hb ha hi hi' rfl rfl⟩⟩

theorem threePhases {inline : T → List Str} {b a r : List (Stmt T I A N)} (h : diff o (some b) (some a) = .ok r)
    (hT : ∀ t t' l, .createTable t ∈ b → .createTable t' ∈ a → (o.tableName t).diffStr = (o.tableName t').diffStr →
      o.diffTable t t' = .ok l → ∀ x ∈ l, TableDiffAbout o inline t t' x) : ThreePhases o inline b a r :=
  diff_phases h hT

theorem fromToNothing {T I A N : Type} (o : Ops T I A N) : FromToNothing o := by
  refine ⟨fun a => rfl, ?_, ?_, rfl⟩
  · intro b hb
    induction b with
    | nil => exact ⟨[], rfl, .nil⟩
    | cons s b ih =>
      obtain ⟨ds, h1, h2⟩ := ih (fun x hx => hb x (List.mem_cons_of_mem _ hx))
      have hs := hb s List.mem_cons_self
      simp only [diff] at h1 ⊢
      cases s <;> simp only [creates, Option.isSome_some, Option.isSome_none, Bool.false_eq_true] at hs
      · exact ⟨_ :: ds, by simp [mapRes, dropOf, h1], .cons (.table _) h2⟩
      · exact ⟨_ :: ds, by simp [mapRes, dropOf, h1], .cons (.index _) h2⟩
  · intro b hb
    induction b with
    | nil => exact absurd (by simp [CreateOnly]) hb
    | cons s b ih =>
      by_cases hs : (creates o s).isSome
      · have hb' : ¬ CreateOnly o b := fun hc => hb (by
          intro x hx
          rcases List.mem_cons.1 hx with rfl | hx
          · exact hs
          · exact hc x hx)
        have := ih hb'
        simp only [diff] at this ⊢
        cases s <;> simp only [creates, Option.isSome_some, Option.isSome_none, Bool.false_eq_true] at hs <;>
          simp [mapRes, dropOf, this]
      · simp only [diff]
        cases s <;> simp only [creates, Option.isSome_some, Option.isSome_none, Bool.false_eq_true, not_true,
          not_false_iff] at hs <;> simp [mapRes, dropOf]

theorem sameName_iff {n m : ObjectName} (hn : Undotted n) (hm : Undotted m) : n.diffStr = m.diffStr ↔ SameName n m := by
  obtain ⟨sn, nn⟩ := n
  obtain ⟨sm, nm⟩ := m
  unfold SameName ObjectName.diffStr Ident.diffStr
  have key : ∀ {a b c d : Str}, '.' ∉ b → '.' ∉ d → a ++ '.' :: b = c ++ '.' :: d → a = c ∧ b = d := by
    intro a b c d hb hd h
    rcases List.append_eq_append_iff.1 h with ⟨x, h1, h2⟩ | ⟨x, h1, h2⟩ <;> cases x with
    | nil => simp_all
    | cons y x => simp_all
  cases sn with
  | none => cases sm with
    | none => simp
    | some s =>
      simp only [Option.map_none, Option.map_some, reduceCtorEq, false_and, iff_false]
      intro h
      exact hn.1 (by simp only at h ⊢; rw [h]; simp)
  | some s => cases sm with
    | none =>
      simp only [Option.map_none, Option.map_some, reduceCtorEq, false_and, iff_false]
      intro h
      exact hm.1 (by simp only at h ⊢; rw [← h]; simp)
    | some s' =>
      simp only [Option.map_some, Option.some.injEq, List.append_assoc, List.cons_append, List.nil_append]
      constructor
      · exact key hn.1 hm.1
      · rintro ⟨h1, h2⟩
        rw [h1, h2]

end Ddl
