import Verif.Lemmas.Post
import Verif.Spec.Objects
import Verif.Pg.Diff
import Verif.Crdb.Diff
import Verif.My.Diff
import Verif.Sp.Diff
import Verif.Pg.Parser
import Verif.Crdb.Parser
import Verif.My.Parser
import Verif.Sp.Parser

/-! # What is read consists of CREATE statements -/

namespace Ddl
open Spec
set_option autoImplicit false

theorem parseTokens_all {S : Type} {Q : S → Prop} {create : List Token → Res (S × List Token)} (h : ∀ ts, Post (fun r => Q r.1) (create ts))
    (ts : List Token) : Post (fun l => ∀ x ∈ l, Q x) (parseTokens create ts) := by
  have loop : ∀ n ts, Post (fun l => ∀ x ∈ l, Q x) (parseLoop create n ts) := by
    intro n
    induction n with
    | zero => intro ts; exact trivial
    | succ n ih =>
      intro ts
      unfold parseLoop
      split
      · refine (h ts).bind ?_
        rintro ⟨s, ts₁⟩ h1
        refine Post.next_bind ((ih _).bind ?_)
        intro l hl
        refine Post.ok ?_
        intro x hx
        rcases List.mem_cons.1 hx with rfl | hx
        · exact h1
        · exact hl x hx
      split
      · exact Post.next_bind (ih _)
      split
      · exact Post.ok (by simp)
      · exact trivial
  unfold parseTokens
  cases start ts with
  | ok ts => exact loop _ _
  | _ => exact trivial

theorem Post.any {α : Type} (r : Res α) : Post (fun _ => True) r := by cases r <;> exact trivial

variable {sd : Str → Str → Str} {s : Str}

theorem Pg.parse_creates {l : List Pg.PStmt} (h : Pg.parse s = .ok l) : CreateOnly (Pg.ops sd) l := by
  refine Post.get (parseTokens_all (Q := fun x => (creates (Pg.ops sd) x).isSome) (fun ts => ?_) _) h
  unfold Pg.parseCreate
  refine Post.next_bind ?_
  split
  · exact (Post.any _).bind fun _ _ => Post.ok rfl
  split
  · exact (Post.any _).bind fun _ _ => Post.ok rfl
  · exact trivial

theorem Crdb.parse_creates {l : List Crdb.CStmt} (h : Crdb.parse s = .ok l) : CreateOnly (Crdb.ops sd) l := by
  refine Post.get (parseTokens_all (Q := fun x => (creates (Crdb.ops sd) x).isSome) (fun ts => ?_) _) h
  unfold Crdb.parseCreate
  refine Post.next_bind ?_
  split
  · exact (Post.any _).bind fun _ _ => Post.ok rfl
  split
  · exact (Post.any _).bind fun _ _ => Post.ok rfl
  · exact trivial

theorem My.parse_creates {l : List My.MStmt} (h : My.parse s = .ok l) : CreateOnly (My.ops sd) l := by
  refine Post.get (parseTokens_all (Q := fun x => (creates (My.ops sd) x).isSome) (fun ts => ?_) _) h
  unfold My.parseCreate
  refine Post.next_bind ?_
  split
  · exact (Post.any _).bind fun _ _ => Post.ok rfl
  split
  · exact (Post.any _).bind fun _ _ => Post.ok rfl
  · exact trivial

theorem Sp.parse_creates {l : List Sp.SStmt} (h : Sp.parse s = .ok l) : CreateOnly (Sp.ops sd) l := by
  refine Post.get (parseTokens_all (Q := fun x => (creates (Sp.ops sd) x).isSome) (fun ts => ?_) _) h
  unfold Sp.parseCreate
  refine Post.next_bind ?_
  split
  · exact (Post.any _).bind fun _ _ => Post.ok rfl
  split
  · exact (Post.any _).bind fun _ _ => Post.ok rfl
  · exact trivial

end Ddl
