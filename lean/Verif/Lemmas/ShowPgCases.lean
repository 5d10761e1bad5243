import Verif.Spec.ShowPg
import Verif.Lemmas.LexAppend

/-! # PostgreSQL: databases that the theorems on `show` apply to -/

namespace Ddl.Pg.Show
open Spec
set_option autoImplicit false

/-- A table with keys and default values. -/
def pgUsers : Tbl := ⟨s%"users", false,
  [⟨s%"id", (s%"bigint", .BIGINT), none, none, some ⟨s%"nextval('users_id_seq'::regclass)",
      [plain s%"nextval", plain s%"(", plain s%"'users_id_seq'", plain s%"::", plain s%"regclass", plain s%")"]⟩, true⟩,
    ⟨s%"name", (s%"character varying", .CHARACTER_VARYING), some s%"255", none, some ⟨s%"'x'::character varying",
      [plain s%"'x'", plain s%"::", plain s%"character", plain s%"varying"]⟩, false⟩,
    ⟨s%"since", (s%"timestamp with time zone", .TIMESTAMP_WITH_TIME_ZONE), none, none, none, true⟩],
  [.primaryKey s%"users_pkey" [s%"id"], .unique s%"users_name" [s%"name", s%"since"]]⟩

/-- The table and another one, with an index. -/
def pgSimple : Db := ⟨[⟨s%"groups", false, [⟨s%"id", (s%"uuid", .UUID), none, none, none, false⟩], []⟩, pgUsers],
  [⟨s%"users_since", s%"users", true, s%"btree", [s%"since", s%"id"]⟩]⟩

/-- A server with this database, another schema, and what PostgreSQL adds by itself: the indexes of the keys, and `CHECK` constraints for
`NOT NULL`. -/
def pgViews (db : Db) : Views where
  columns := ⟨s%"other", s%"users", s%"id", s%"bigint", none, s%"NO", none, 1⟩ :: db.views.columns.reverse
  constraints := ⟨pub, s%"users", s%"2200_16385_1_not_null", s%"CHECK"⟩ :: ⟨s%"other", s%"users", s%"other_pkey", s%"PRIMARY KEY"⟩ :: db.views.constraints
  keys := ⟨s%"other", s%"users", s%"other_pkey", s%"id", 1⟩ :: db.views.keys.reverse
  rules := ⟨s%"other", s%"other_fk", s%"NO ACTION", s%"CASCADE"⟩ :: db.views.rules
  indexes := ⟨pub, s%"users_pkey", s%"CREATE UNIQUE INDEX users_pkey ON public.users USING btree (id)"⟩ :: db.views.indexes

/-- The same with a foreign key. -/
def pgForeign : Db := ⟨pgSimple.tables ++ [⟨s%"zz", false, [⟨s%"a", (s%"uuid", .UUID), none, none, none, false⟩],
  [.foreignKey s%"zz_fk" [s%"a"] s%"groups" [s%"id"] s%"NO ACTION" s%"CASCADE"]⟩], pgSimple.indexes⟩

/-- The same with a check constraint, a number with precision, a view, and an index that has the name of the check constraint. -/
def pgLost : Db := ⟨pgSimple.tables ++ [⟨s%"zz", false, [⟨s%"a", (s%"numeric", .NUMERIC), none, some (s%"10", s%"2"), none, false⟩],
  [.check s%"zz_check" [plain s%"a", plain s%">", plain s%"0"]]⟩, ⟨s%"zzz", true, [⟨s%"a", (s%"numeric", .NUMERIC), none, none, none, false⟩], []⟩],
  pgSimple.indexes ++ [⟨s%"zz_check", s%"zz", false, s%"btree", [s%"a"]⟩]⟩

/-- The server of `pgSimple` with a foreign key of another schema that has the name of a key. -/
def pgDisturbed : Views := { pgViews pgSimple with rules := [⟨s%"other", s%"users_pkey", s%"NO ACTION", s%"CASCADE"⟩] }

theorem holds_pgSimple : Holds (pgViews pgSimple) pgSimple where
  columns := by decide +kernel
  tables := by decide +kernel
  constraints := by decide +kernel
  constraint := by decide +kernel
  noConstraint := by decide +kernel
  keys := by decide +kernel
  rules := by decide +kernel
  actions := by decide +kernel
  indexes := by decide +kernel
  noIndex := by decide +kernel

theorem holds_pgForeign : Holds (pgViews pgForeign) pgForeign where
  columns := by decide +kernel
  tables := by decide +kernel
  constraints := by decide +kernel
  constraint := by decide +kernel
  noConstraint := by decide +kernel
  keys := by decide +kernel
  rules := by decide +kernel
  actions := by decide +kernel
  indexes := by decide +kernel
  noIndex := by decide +kernel

theorem holds_pgLost : Holds (pgViews pgLost) pgLost where
  columns := by decide +kernel
  tables := by decide +kernel
  constraints := by decide +kernel
  constraint := by decide +kernel
  noConstraint := by decide +kernel
  keys := by decide +kernel
  rules := by decide +kernel
  actions := by decide +kernel
  indexes := by decide +kernel
  noIndex := by decide +kernel

theorem holds_pgDisturbed : Holds pgDisturbed pgSimple where
  columns := by decide +kernel
  tables := by decide +kernel
  constraints := by decide +kernel
  constraint := by decide +kernel
  noConstraint := by decide +kernel
  keys := by decide +kernel
  rules := by decide +kernel
  actions := by decide +kernel
  indexes := by decide +kernel
  noIndex := by decide +kernel

instance (s : Str) : Decidable (IsPlain s) := by unfold IsPlain; infer_instance

/-- What can be decided of `Tbl.Plain`. -/
def Tbl.Ok (t : Tbl) : Prop := IsPlain t.name ∧ t.columns ≠ [] ∧ (∀ c ∈ t.columns, IsPlain c.name ∧ c.type ∈ typeNames ∧ ∀ n ∈ c.size, IsPlain n) ∧
  (∀ c ∈ t.constraints, IsPlain c.name ∧ ∀ x ∈ c.columns, IsPlain x) ∧ (∀ c ∈ t.constraints, c.type ≠ s%"CHECK" → c.columns ≠ []) ∧
  (t.constraints.map (·.name)).Nodup

instance (t : Tbl) : Decidable t.Ok := by unfold Tbl.Ok; infer_instance

theorem Tbl.Ok.plain {t : Tbl} (h : t.Ok) (hd : ∀ c ∈ t.columns, ∀ e ∈ c.default, e.Ok) : t.Plain where
  name := h.1
  columns := ⟨h.2.1, fun c hc => ⟨(h.2.2.1 c hc).1, (h.2.2.1 c hc).2.1, (h.2.2.1 c hc).2.2, hd c hc⟩⟩
  constraint := h.2.2.2.1
  constraintColumns := h.2.2.2.2.1
  constraintNames := h.2.2.2.2.2

theorem pgUsers_default : ∀ c ∈ pgUsers.columns, ∀ e ∈ c.default, e.Ok := by
  intro c hc e he
  simp only [pgUsers, List.mem_cons, List.not_mem_nil, or_false] at hc
  rcases hc with rfl | rfl | rfl
  · simp only [Option.mem_some_iff] at he
    subst he
    refine ⟨by decide +kernel, _, writes_noDashes (d := .postgres) (by decide +kernel) (by decide +kernel), ?_⟩
    have e : lex .postgres s%"nextval('users_id_seq'::regclass)" = ⟨.IDENT, s%"nextval"⟩ :: ⟨.OPEN_PAREN, s%"("⟩ ::
        ([⟨.IDENT, s%"'users_id_seq'"⟩, ⟨.TYPECAST, s%"::"⟩, ⟨.IDENT, s%"regclass"⟩] ++ ⟨.CLOSE_PAREN, s%")"⟩ :: []) := by decide +kernel
    rw [e]
    exact .word true _ _ _ (by decide) (.group false _ _ [plain s%"'users_id_seq'", plain s%"::", plain s%"regclass"] []
      (.word _ _ _ (by simp [IsCmp]) (by decide) (.word _ _ _ (by simp [IsCmp]) (by decide) (.word _ _ _ (by simp [IsCmp]) (by decide) .nil))) .nil)
  · simp only [Option.mem_some_iff] at he
    subst he
    refine ⟨by decide +kernel, _, writes_noDashes (d := .postgres) (by decide +kernel) (by decide +kernel), ?_⟩
    have e : lex .postgres s%"'x'::character varying" = [⟨.IDENT, s%"'x'"⟩, ⟨.TYPECAST, s%"::"⟩, ⟨.CHARACTER, s%"character"⟩,
        ⟨.VARYING, s%"varying"⟩] := by decide +kernel
    rw [e]
    exact .word true _ _ _ (by decide) (.word false _ _ _ (by decide) (.word false _ _ _ (by decide) (.word false _ _ _ (by decide) .nil)))
  · simp at he

theorem plain_of {db : Db} (h : ∀ t ∈ db.tables, t.Ok) (hd : ∀ t ∈ db.tables, t = pgUsers ∨ ∀ c ∈ t.columns, c.default = none)
    (h1 : (db.tables.map (·.name)).Pairwise (· < ·))
    (h2 : ∀ i ∈ db.indexes, IsPlain i.name ∧ IsPlain i.table ∧ IsPlain i.method ∧ (∀ c ∈ i.columns, IsPlain c) ∧ ¬ s%"_not_null" <:+ i.name)
    (h3 : ∀ i ∈ db.indexes, ∀ t ∈ db.tables, ∀ c ∈ t.constraints, c.IsKey → c.name ≠ i.name) : db.Plain := by
  refine ⟨fun t ht => (h t ht).plain ?_, h1, h2, h3⟩
  intro c hc e he
  rcases hd t ht with rfl | hn
  · exact pgUsers_default c hc e he
  · rw [hn c hc] at he; simp at he

theorem plain_pgSimple : pgSimple.Plain :=
  plain_of (by decide +kernel) (by decide +kernel) (by decide +kernel) (by decide +kernel) (by decide +kernel)

theorem plain_pgForeign : pgForeign.Plain :=
  plain_of (by decide +kernel) (by decide +kernel) (by decide +kernel) (by decide +kernel) (by decide +kernel)

theorem plain_pgLost : pgLost.Plain :=
  plain_of (by decide +kernel) (by decide +kernel) (by decide +kernel) (by decide +kernel) (by decide +kernel)

end Ddl.Pg.Show
