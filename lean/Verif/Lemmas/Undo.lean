import Verif.Lemmas.ApplyExec
import Verif.Lemmas.DbFails
import Verif.Lemmas.DecideSchema
import Verif.Lemmas.DecideSchemaCrdb
import Verif.Lemmas.DecideSchemaMy
import Verif.Spec.Undo

/-!
# Lemmas: going from schema to schema, and back
-/

namespace Ddl
open Spec
set_option autoImplicit false

section
variable {S T I A N : Type} {o : Ops T I A N} {run : S → List (Stmt T I A N) → S → Prop} {b m a : List (Stmt T I A N)} {B M E : S}

theorem migrates_unique (hf : Functional run) {d e e' : S} (h : Migrates o run b a d e) (h' : Migrates o run b a d e') : e = e' := by
  obtain ⟨l, x, y⟩ | ⟨x, rfl⟩ := h <;> obtain ⟨l', x', y'⟩ | ⟨x', rfl⟩ := h' <;> rw [x] at x' <;> cases x'
  exact hf _ _ _ _ y y'

theorem undone_of (hf : Functional run) (h : Migrates o run b a B E) (h' : Migrates o run a b E B) : Undone o run b a B := by
  refine ⟨⟨_, h⟩, fun d hd e => ?_⟩
  cases migrates_unique hf h hd
  exact ⟨fun he => migrates_unique hf he h', fun he => he ▸ h'⟩

theorem anyPath_of (hf : Functional run) (h : Migrates o run b m B M) (h' : Migrates o run m a M E) (h'' : Migrates o run b a B E) :
    AnyPath o run b m a B := by
  refine fun e => ⟨?_, fun he => ⟨M, h, migrates_unique hf h'' he ▸ h'⟩⟩
  rintro ⟨d, hd, he⟩
  cases migrates_unique hf h hd
  cases migrates_unique hf h' he
  exact h''

theorem not_migrates {l : List (Stmt T I A N)} (hd : diff o (some b) (some a) = .ok l) (hn : ∀ D, ¬ run B l D) (D : S) : ¬ Migrates o run b a B D := by
  rintro (⟨l', e, h⟩ | ⟨e, _⟩) <;> rw [hd] at e <;> cases e
  exact hn D h

theorem not_undone (h : Migrates o run b a B E) (hn : ∀ D, ¬ Migrates o run a b E D) : ¬ Undone o run b a B := fun hu =>
  hn B ((hu.2 E h B).2 rfl)

theorem not_anyPath (h : Migrates o run b m B M) (h' : Migrates o run m a M E) (hn : ∀ D, ¬ Migrates o run b a B D) : ¬ AnyPath o run b m a B :=
  fun hu => hn E ((hu E).1 ⟨M, h, h'⟩)

end

namespace Pg.Db

theorem execs_functional : Functional Execs := fun _ _ _ _ h h' => runs_unique exec_functional (execs_runs h) (execs_runs h')

theorem migrates {sd : Str → Str → Str} {b a : List PStmt} {B A : Catalog} (kb : Known sd b B) (ka : Known sd a A) (hz : NoHazard b a) :
    Migrates (ops sd) Execs b a B A :=
  migrate (stmtOk_of_readFrom kb.read.choose_spec) (stmtOk_of_readFrom ka.read.choose_spec) kb.tame ka.tame kb.distinct ka.distinct kb.run ka.run hz

theorem known_of {sd : Str → Str → Str} {s : Str} {b : List PStmt} {B : Catalog} (h : ReadFrom s b) (t : TameSchema b)
    (d : DistinctObjects (ops fun _ _ => []) b) (hB : Execs empty b B) : Known sd b B :=
  ⟨⟨s, h⟩, t, d, hB⟩

theorem undo_fails {sd : Str → Str → Str} {s s' : Str} {b a l : List PStmt} (hb : ReadFrom s b) (ha : ReadFrom s' a) (tb : TameSchema b)
    (ta : TameSchema a) (db : DistinctObjects (ops fun _ _ => []) b) (da : DistinctObjects (ops fun _ _ => []) a) (lb : loadable b)
    (la : loadable a) (hz : noHazard b a) (hd : diff (ops sd) (some a) (some b) = .ok l) (hn : ∀ A, Holds (· ∈ a) A → ∀ D, ¬ Execs A l D) :
    ∃ b a B A, parse s = .ok b ∧ parse s' = .ok a ∧ Known sd b B ∧ Known sd a A ∧ Migrates (ops sd) Execs b a B A ∧
      (∀ D, ¬ Migrates (ops sd) Execs a b A D) ∧ ¬ Undone (ops sd) Execs b a B := by
  obtain ⟨B, hB⟩ := loads lb
  obtain ⟨A, hA, h⟩ := loads_holds la
  have kb : Known sd b B := known_of hb tb db hB
  have ka : Known sd a A := known_of ha ta da hA
  have m := migrates kb ka (noHazard_of hz)
  have n := not_migrates hd (hn A h)
  exact ⟨b, a, B, A, hb.2.2, ha.2.2, kb, ka, m, n, not_undone m n⟩

theorem path_fails {sd : Str → Str → Str} {s s' s'' : Str} {b m a l : List PStmt} (hb : ReadFrom s b) (hm : ReadFrom s' m)
    (ha : ReadFrom s'' a) (tb : TameSchema b) (tm : TameSchema m) (ta : TameSchema a) (db : DistinctObjects (ops fun _ _ => []) b)
    (dm : DistinctObjects (ops fun _ _ => []) m) (da : DistinctObjects (ops fun _ _ => []) a) (lb : loadable b) (lm : loadable m)
    (la : loadable a) (hz : noHazard b m) (hz' : noHazard m a) (hd : diff (ops sd) (some b) (some a) = .ok l)
    (hn : ∀ B, Holds (· ∈ b) B → ∀ D, ¬ Execs B l D) :
    ∃ b m a B M A, parse s = .ok b ∧ parse s' = .ok m ∧ parse s'' = .ok a ∧ Known sd b B ∧ Known sd m M ∧ Known sd a A ∧
      Migrates (ops sd) Execs b m B M ∧ Migrates (ops sd) Execs m a M A ∧ (∀ D, ¬ Migrates (ops sd) Execs b a B D) ∧
      ¬ AnyPath (ops sd) Execs b m a B := by
  obtain ⟨B, hB, h⟩ := loads_holds lb
  obtain ⟨M, hM⟩ := loads lm
  obtain ⟨A, hA⟩ := loads la
  have kb : Known sd b B := known_of hb tb db hB
  have km : Known sd m M := known_of hm tm dm hM
  have ka : Known sd a A := known_of ha ta da hA
  have w := migrates kb km (noHazard_of hz)
  have w' := migrates km ka (noHazard_of hz')
  have n := not_migrates hd (hn B h)
  exact ⟨b, m, a, B, M, A, hb.2.2, hm.2.2, ha.2.2, kb, km, ka, w, w', n, not_anyPath w w' n⟩

end Pg.Db

namespace Crdb.Run

theorem runs_functional : Functional (Runs Exec) := fun _ _ _ _ h h' => runs_unique exec_functional h h'

theorem migrates {sd : Str → Str → Str} {b a : List CStmt} {B A : Db} (kb : Known sd b B) (ka : Known sd a A) (w : Way sd b a) :
    Migrates (ops sd) (Runs Exec) b a B A :=
  migrate kb.creates ka.creates kb.distinct ka.distinct kb.tame ka.tame w.schemas w.hazard w.told kb.run ka.run

theorem known_of {sd : Str → Str → Str} {b : List CStmt} (c : CreateOnly (ops fun _ _ => []) b) (d : DistinctObjects (ops fun _ _ => []) b)
    (t : TameSchema b) (l : loadable b) : Known sd b (st b) :=
  ⟨c, d, t, loads l⟩

theorem way_of {sd : Str → Str → Str} {b a : List CStmt} (t : Told (ops fun _ _ => []) b a) (s : SameSchemas (ops fun _ _ => []) b a)
    (h : noSchemaHazard b a) : Way sd b a :=
  ⟨t, s, noSchemaHazard_of h⟩

theorem undo_fails {sd : Str → Str → Str} {s s' : Str} {b a l : List CStmt} {B A : Db} (hb : parse s = .ok b) (ha : parse s' = .ok a)
    (kb : Known sd b B) (ka : Known sd a A) (w : Way sd b a) (hd : diff (ops sd) (some a) (some b) = .ok l) (hn : ∀ D, ¬ Runs Exec A l D) :
    ∃ b a B A, parse s = .ok b ∧ parse s' = .ok a ∧ Known sd b B ∧ Known sd a A ∧ Migrates (ops sd) (Runs Exec) b a B A ∧
      (∀ D, ¬ Migrates (ops sd) (Runs Exec) a b A D) ∧ ¬ Undone (ops sd) (Runs Exec) b a B :=
  ⟨b, a, B, A, hb, ha, kb, ka, migrates kb ka w, not_migrates hd hn, not_undone (migrates kb ka w) (not_migrates hd hn)⟩

theorem path_fails {sd : Str → Str → Str} {s s' s'' : Str} {b m a l : List CStmt} {B M A : Db} (hb : parse s = .ok b)
    (hm : parse s' = .ok m) (ha : parse s'' = .ok a) (kb : Known sd b B) (km : Known sd m M) (ka : Known sd a A) (w : Way sd b m)
    (w' : Way sd m a) (hd : diff (ops sd) (some b) (some a) = .ok l) (hn : ∀ D, ¬ Runs Exec B l D) :
    ∃ b m a B M A, parse s = .ok b ∧ parse s' = .ok m ∧ parse s'' = .ok a ∧ Known sd b B ∧ Known sd m M ∧ Known sd a A ∧
      Migrates (ops sd) (Runs Exec) b m B M ∧ Migrates (ops sd) (Runs Exec) m a M A ∧ (∀ D, ¬ Migrates (ops sd) (Runs Exec) b a B D) ∧
      ¬ AnyPath (ops sd) (Runs Exec) b m a B :=
  ⟨b, m, a, B, M, A, hb, hm, ha, kb, km, ka, migrates kb km w, migrates km ka w', not_migrates hd hn,
    not_anyPath (migrates kb km w) (migrates km ka w') (not_migrates hd hn)⟩

end Crdb.Run

namespace My.Run

theorem runs_functional : Functional (Runs Exec) := fun _ _ _ _ h h' => runs_unique exec_functional h h'

theorem migrates {sd : Str → Str → Str} {b a : List MStmt} {B A : Db} (kb : Known sd b B) (ka : Known sd a A) (w : Way sd b a) :
    Migrates (ops sd) (Runs Exec) b a B A :=
  migrate kb.creates ka.creates kb.distinct ka.distinct kb.tame ka.tame w.schemas w.hazard w.told kb.run ka.run

theorem known_of {sd : Str → Str → Str} {b : List MStmt} (c : CreateOnly (ops fun _ _ => []) b) (d : DistinctObjects (ops fun _ _ => []) b)
    (t : TameSchema b) (l : loadable b) : Known sd b (st b) :=
  ⟨c, d, t, loads l⟩

theorem way_of {sd : Str → Str → Str} {b a : List MStmt} (t : Told (ops fun _ _ => []) b a) (s : SameSchemas (ops fun _ _ => []) b a)
    (h : noSchemaHazard b a) : Way sd b a :=
  ⟨t, s, noSchemaHazard_of h⟩

theorem undo_fails {sd : Str → Str → Str} {s s' : Str} {b a l : List MStmt} {B A : Db} (hb : parse s = .ok b) (ha : parse s' = .ok a)
    (kb : Known sd b B) (ka : Known sd a A) (w : Way sd b a) (hd : diff (ops sd) (some a) (some b) = .ok l) (hn : ∀ D, ¬ Runs Exec A l D) :
    ∃ b a B A, parse s = .ok b ∧ parse s' = .ok a ∧ Known sd b B ∧ Known sd a A ∧ Migrates (ops sd) (Runs Exec) b a B A ∧
      (∀ D, ¬ Migrates (ops sd) (Runs Exec) a b A D) ∧ ¬ Undone (ops sd) (Runs Exec) b a B :=
  ⟨b, a, B, A, hb, ha, kb, ka, migrates kb ka w, not_migrates hd hn, not_undone (migrates kb ka w) (not_migrates hd hn)⟩

theorem path_fails {sd : Str → Str → Str} {s s' s'' : Str} {b m a l : List MStmt} {B M A : Db} (hb : parse s = .ok b)
    (hm : parse s' = .ok m) (ha : parse s'' = .ok a) (kb : Known sd b B) (km : Known sd m M) (ka : Known sd a A) (w : Way sd b m)
    (w' : Way sd m a) (hd : diff (ops sd) (some b) (some a) = .ok l) (hn : ∀ D, ¬ Runs Exec B l D) :
    ∃ b m a B M A, parse s = .ok b ∧ parse s' = .ok m ∧ parse s'' = .ok a ∧ Known sd b B ∧ Known sd m M ∧ Known sd a A ∧
      Migrates (ops sd) (Runs Exec) b m B M ∧ Migrates (ops sd) (Runs Exec) m a M A ∧ (∀ D, ¬ Migrates (ops sd) (Runs Exec) b a B D) ∧
      ¬ AnyPath (ops sd) (Runs Exec) b m a B :=
  ⟨b, m, a, B, M, A, hb, hm, ha, kb, km, ka, migrates kb km w, migrates km ka w', not_migrates hd hn,
    not_anyPath (migrates kb km w) (migrates km ka w') (not_migrates hd hn)⟩

end My.Run

namespace Sp.Run

theorem runs_functional : Functional (Runs Exec) := fun _ _ _ _ h h' => runs_unique exec_functional h h'

theorem migrates {sd : Str → Str → Str} {b a : List SStmt} {B A : Db} (kb : Known sd b B) (ka : Known sd a A) (w : Way sd b a) :
    Migrates (ops sd) (Runs Exec) b a B A :=
  migrate kb.creates ka.creates kb.distinct ka.distinct kb.tame ka.tame w.schemas w.hazard w.told.1 w.told.2 kb.run ka.run

theorem known_of {sd : Str → Str → Str} {b : List SStmt} (c : CreateOnly (ops fun _ _ => []) b) (d : DistinctObjects (ops fun _ _ => []) b)
    (t : TameSchema b) (l : loadable b) : Known sd b (st b) :=
  ⟨c, d, t, loads l⟩

theorem way_of {sd : Str → Str → Str} {b a : List SStmt} (t : Told (ops fun _ _ => []) b a) (s : SameSchemas (ops fun _ _ => []) b a)
    (h : noSchemaHazard b a) : Way sd b a :=
  ⟨t, s, noSchemaHazard_of h⟩

theorem undo_fails {sd : Str → Str → Str} {s s' : Str} {b a l : List SStmt} {B A : Db} (hb : parse s = .ok b) (ha : parse s' = .ok a)
    (kb : Known sd b B) (ka : Known sd a A) (w : Way sd b a) (hd : diff (ops sd) (some a) (some b) = .ok l) (hn : ∀ D, ¬ Runs Exec A l D) :
    ∃ b a B A, parse s = .ok b ∧ parse s' = .ok a ∧ Known sd b B ∧ Known sd a A ∧ Migrates (ops sd) (Runs Exec) b a B A ∧
      (∀ D, ¬ Migrates (ops sd) (Runs Exec) a b A D) ∧ ¬ Undone (ops sd) (Runs Exec) b a B :=
  ⟨b, a, B, A, hb, ha, kb, ka, migrates kb ka w, not_migrates hd hn, not_undone (migrates kb ka w) (not_migrates hd hn)⟩

theorem path_fails {sd : Str → Str → Str} {s s' s'' : Str} {b m a l : List SStmt} {B M A : Db} (hb : parse s = .ok b)
    (hm : parse s' = .ok m) (ha : parse s'' = .ok a) (kb : Known sd b B) (km : Known sd m M) (ka : Known sd a A) (w : Way sd b m)
    (w' : Way sd m a) (hd : diff (ops sd) (some b) (some a) = .ok l) (hn : ∀ D, ¬ Runs Exec B l D) :
    ∃ b m a B M A, parse s = .ok b ∧ parse s' = .ok m ∧ parse s'' = .ok a ∧ Known sd b B ∧ Known sd m M ∧ Known sd a A ∧
      Migrates (ops sd) (Runs Exec) b m B M ∧ Migrates (ops sd) (Runs Exec) m a M A ∧ (∀ D, ¬ Migrates (ops sd) (Runs Exec) b a B D) ∧
      ¬ AnyPath (ops sd) (Runs Exec) b m a B :=
  ⟨b, m, a, B, M, A, hb, hm, ha, kb, km, ka, migrates kb km w, migrates km ka w', not_migrates hd hn,
    not_anyPath (migrates kb km w) (migrates km ka w') (not_migrates hd hn)⟩

end Sp.Run
end Ddl
