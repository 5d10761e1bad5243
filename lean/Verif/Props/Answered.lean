import Verif.Lemmas.Answered
import Verif.Pg.Parser
import Verif.Crdb.Parser
import Verif.My.Parser
import Verif.Sp.Parser

/-! # Every difference of a changed table is answered: C81

`ColumnsAnswered`, `OptionsAnswered` and `PolicyAnswered` are in `Verif/Spec/Answered.lean`, `tableDefs` in `Verif/Spec/Once.lean`.  `sd` is
`simplediff.Diff(a, b).String()`, arbitrary. -/

namespace Ddl.Props
open Ddl Spec
set_option autoImplicit false

/-- C81 (PostgreSQL): if a table is defined in both schemas with different texts, the tables of the new schema have different names and so have the new table's columns,
the migration answers every difference between the columns of the two tables: the added, the removed, and the type, the default and `NOT NULL` of the kept ones. -/
theorem C81_postgres (sd : Str → Str → Str) (b a r : List Pg.PStmt) (h : diff (Pg.ops sd) (some b) (some a) = .ok r)
    (hu : ((tableDefs a).map fun t => t.name.diffStr).Nodup) (t t' : Pg.CreateTable) (ht : t ∈ tableDefs b) (ht' : t' ∈ tableDefs a)
    (hn : t.name.diffStr = t'.name.diffStr) (hs : t.str ≠ t'.str) (hc : (t'.columns.map (·.name.name)).Nodup) :
    Pg.ColumnsAnswered t t' (fun x => ∃ c, .alterTable ⟨c, t'.name, x⟩ ∈ r) := by
  have key := Pg.table_said (sd := sd) hn hs (said := fun x => .alterTable x ∈ r)
    ((diff_table_said h hu ht ht' hn).imp_right fun ⟨l, h1, h2⟩ => ⟨l, h1, fun s hs x e => e ▸ h2 s hs⟩)
  exact (Pg.columns_answered hc).mono fun x ⟨c, hx⟩ => ⟨c, key _ hx⟩

set_option maxRecDepth 8000 in
example : ∃ b a r t t', Pg.parse s%"CREATE TABLE t (a INT NOT NULL, b TEXT, d INT DEFAULT 1);" = .ok b ∧
    Pg.parse s%"CREATE TABLE t (a TEXT, c INT, d INT DEFAULT 2);" = .ok a ∧
    diff (Pg.ops fun _ _ => []) (some b) (some a) = .ok r ∧ tableDefs b = [t] ∧ tableDefs a = [t'] ∧ r.length = 5 ∧
    ((tableDefs a).map fun t => t.name.diffStr).Nodup ∧ t.name.diffStr = t'.name.diffStr ∧ t.str ≠ t'.str ∧ (t'.columns.map (·.name.name)).Nodup := by
  exact ⟨_, _, _, _, _, rfl, rfl, rfl, rfl, rfl, by decide +kernel, by decide +kernel, by decide +kernel, by decide +kernel, by decide +kernel⟩

/-- C81 (CockroachDB): if a table is defined in both schemas with different texts, the tables of the new schema have different names and so have the new table's columns,
the migration answers every difference between the columns of the two tables: the added, the removed unless hidden and virtual, and the type, the default and `NOT NULL` of the kept ones. -/
theorem C81_cockroachdb (sd : Str → Str → Str) (b a r : List Crdb.CStmt) (h : diff (Crdb.ops sd) (some b) (some a) = .ok r)
    (hu : ((tableDefs a).map fun t => t.name.diffStr).Nodup) (t t' : Crdb.CreateTable) (ht : t ∈ tableDefs b) (ht' : t' ∈ tableDefs a)
    (hn : t.name.diffStr = t'.name.diffStr) (hs : t.str ≠ t'.str) (hc : (t'.columns.map (·.name.name)).Nodup) :
    Crdb.ColumnsAnswered t t' (fun x => ∃ c, .alterTable ⟨c, t'.name, x⟩ ∈ r) := by
  have key := Crdb.table_said (sd := sd) hn hs (said := fun x => .alterTable x ∈ r)
    ((diff_table_said h hu ht ht' hn).imp_right fun ⟨l, h1, h2⟩ => ⟨l, h1, fun s hs x e => e ▸ h2 s hs⟩)
  exact (Crdb.columns_answered hc).mono fun x ⟨c, hx⟩ => ⟨c, key _ hx⟩

set_option maxRecDepth 8000 in
example : ∃ b a r t t', Crdb.parse s%"CREATE TABLE t (a INT NOT NULL, b TEXT, d INT DEFAULT 1);" = .ok b ∧
    Crdb.parse s%"CREATE TABLE t (a TEXT, c INT, d INT DEFAULT 2);" = .ok a ∧
    diff (Crdb.ops fun _ _ => []) (some b) (some a) = .ok r ∧ tableDefs b = [t] ∧ tableDefs a = [t'] ∧ r.length = 5 ∧
    ((tableDefs a).map fun t => t.name.diffStr).Nodup ∧ t.name.diffStr = t'.name.diffStr ∧ t.str ≠ t'.str ∧ (t'.columns.map (·.name.name)).Nodup := by
  exact ⟨_, _, _, _, _, rfl, rfl, rfl, rfl, rfl, by decide +kernel, by decide +kernel, by decide +kernel, by decide +kernel, by decide +kernel⟩

/-- C81 (MySQL): if a table is defined in both schemas with different texts, the tables of the new schema have different names and so have the new table's columns,
the migration answers every difference between the columns of the two tables: the added, the removed, and every attribute of the kept ones, and also every table option that is new or changed except the counter. -/
theorem C81_mysql (sd : Str → Str → Str) (b a r : List My.MStmt) (h : diff (My.ops sd) (some b) (some a) = .ok r)
    (hu : ((tableDefs a).map fun t => t.name.diffStr).Nodup) (t t' : My.CreateTable) (ht : t ∈ tableDefs b) (ht' : t' ∈ tableDefs a)
    (hn : t.name.diffStr = t'.name.diffStr) (hs : t.str ≠ t'.str) (hc : (t'.columns.map (·.name.name)).Nodup)
    (ho : (t'.options.map (·.name)).Nodup) :
    My.ColumnsAnswered t t' (fun x => ∃ c, .alterTable ⟨c, t'.name, x⟩ ∈ r) ∧
      My.OptionsAnswered t t' (fun x => ∃ c, .alterTable ⟨c, t'.name, x⟩ ∈ r) := by
  have key := My.table_said (sd := sd) hn hs (said := fun x => .alterTable x ∈ r)
    ((diff_table_said h hu ht ht' hn).imp_right fun ⟨l, h1, h2⟩ => ⟨l, h1, fun s hs x e => e ▸ h2 s hs⟩)
  exact ⟨(My.columns_answered hc).mono fun x ⟨c, hx⟩ => ⟨c, key _ (List.mem_append_left _ hx)⟩,
    (My.options_answered ho).mono fun x ⟨c, hx⟩ => ⟨c, key _ (List.mem_append_right _ hx)⟩⟩

set_option maxRecDepth 8000 in
example : ∃ b a r t t', My.parse s%"CREATE TABLE t (a INT NOT NULL, b TEXT, d INT DEFAULT 1) ENGINE=InnoDB;" = .ok b ∧
    My.parse s%"CREATE TABLE t (a TEXT, c INT, d INT DEFAULT 2) ENGINE=MyISAM;" = .ok a ∧
    diff (My.ops fun _ _ => []) (some b) (some a) = .ok r ∧ tableDefs b = [t] ∧ tableDefs a = [t'] ∧ r.length = 5 ∧
    ((tableDefs a).map fun t => t.name.diffStr).Nodup ∧ t.name.diffStr = t'.name.diffStr ∧ t.str ≠ t'.str ∧ (t'.columns.map (·.name.name)).Nodup ∧ (t'.options.map (·.name)).Nodup := by
  exact ⟨_, _, _, _, _, rfl, rfl, rfl, rfl, rfl, by decide +kernel, by decide +kernel, by decide +kernel, by decide +kernel, by decide +kernel, by decide +kernel⟩

/-- C81 (Spanner): if a table is defined in both schemas with different texts, the tables of the new schema have different names and so have the new table's columns,
the migration answers every difference between the columns of the two tables: the added, the removed, and the type, the default, the options and `NOT NULL` of the kept ones, and also its row deletion policy. Tables with other
options are dropped and made anew. -/
theorem C81_spanner (sd : Str → Str → Str) (b a r : List Sp.SStmt) (h : diff (Sp.ops sd) (some b) (some a) = .ok r)
    (hu : ((tableDefs a).map fun t => t.name.diffStr).Nodup) (t t' : Sp.CreateTable) (ht : t ∈ tableDefs b) (ht' : t' ∈ tableDefs a)
    (hn : t.name.diffStr = t'.name.diffStr) (hs : t.str ≠ t'.str) (hc : (t'.columns.map (·.name.name)).Nodup)
    (ho : Sp.optionsDiffStr t.options = Sp.optionsDiffStr t'.options) :
    Sp.ColumnsAnswered t t' (fun x => ∃ c, .alterTable ⟨c, t'.name, x⟩ ∈ r) ∧
      Sp.PolicyAnswered t t' (fun x => ∃ c, .alterTable ⟨c, t'.name, x⟩ ∈ r) := by
  have key := Sp.table_said (sd := sd) hn ho hs (said := fun x => .alterTable x ∈ r)
    ((diff_table_said h hu ht ht' hn).imp_right fun ⟨l, h1, h2⟩ => ⟨l, h1, fun s hs x e => e ▸ h2 s hs⟩)
  exact ⟨(Sp.columns_answered hc).mono fun x ⟨c, hx⟩ => ⟨c, key _ (List.mem_append_left _ hx)⟩,
    Sp.policy_answered.mono fun x ⟨c, hx⟩ => ⟨c, key _ (List.mem_append_right _ hx)⟩⟩

set_option maxRecDepth 8000 in
example : ∃ b a r t t', Sp.parse s%"CREATE TABLE t (a INT64 NOT NULL, b STRING(9), d INT64 DEFAULT (1)) PRIMARY KEY (a);" = .ok b ∧
    Sp.parse s%"CREATE TABLE t (a STRING(9), c INT64, d INT64 DEFAULT (2)) PRIMARY KEY (a);" = .ok a ∧
    diff (Sp.ops fun _ _ => []) (some b) (some a) = .ok r ∧ tableDefs b = [t] ∧ tableDefs a = [t'] ∧ r.length = 4 ∧
    ((tableDefs a).map fun t => t.name.diffStr).Nodup ∧ t.name.diffStr = t'.name.diffStr ∧ t.str ≠ t'.str ∧ (t'.columns.map (·.name.name)).Nodup ∧
    Sp.optionsDiffStr t.options = Sp.optionsDiffStr t'.options := by
  exact ⟨_, _, _, _, _, rfl, rfl, rfl, rfl, rfl, by decide +kernel, by decide +kernel, by decide +kernel, by decide +kernel, by decide +kernel, by decide +kernel⟩

end Ddl.Props
