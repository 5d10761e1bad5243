import Verif.Spec.Apply
import Verif.Spec.Comment
import Verif.Spec.Run

/-!
# Specification: a database server that keeps a state

What `apply` talks to: a server with a state `S`, which understands a text as a statement of type `X` (`reads`) and executes it if it
can (`exec`).  `state h` is its state after the queries `h`.
-/

namespace Ddl.Spec
open Ddl.Apply
set_option autoImplicit false

/-- The server executes every query at once, if it can; else it answers with an error and stays as it is. -/
structure Serves {S X : Type} (reads : Str → Option X) (exec : S → X → S → Prop) (d : S) (db : Hist → Str → Option Str) (state : Hist → S) :
    Prop where
  start : state [] = d
  works : ∀ h q x d', reads q = some x → exec (state h) x d' → db h q = none ∧ state (h ++ [(q, none)]) = d'
  refuses : ∀ h q, (∀ x d', reads q = some x → ¬ exec (state h) x d') → ∃ m, db h q = some m ∧ state (h ++ [(q, some m)]) = state h

/-- The queries between `START BATCH DDL` and `RUN BATCH`, all of them accepted. -/
def batch (bodies : List Str) : Hist := (s%"START BATCH DDL", none) :: bodies.map fun q => (q, none)

/-- The server collects the statements of a batch and executes them at its end, in order, if it can. -/
structure ServesBatch {S X : Type} (reads : Str → Option X) (exec : S → X → S → Prop) (d : S) (db : Hist → Str → Option Str)
    (state : Hist → S) : Prop where
  start : state [] = d
  opens : db [] s%"START BATCH DDL" = none
  queues : ∀ bodies q x, reads q = some x → db (batch bodies) q = none
  runs : ∀ bodies l d', bodies.map reads = l.map some → Runs exec d l d' →
    db (batch bodies) s%"RUN BATCH" = none ∧ state (batch bodies ++ [(s%"RUN BATCH", none)]) = d'

/-- Nothing but the database stands in the way: the user approves, the connection and the terminal work, the context is not
cancelled, and there is at least one attempt. -/
structure Ready (w : Site) (c : Conf.Config) (left stdin : Str) : Prop where
  approved : c.autoApprove = true ∨ TypedYes stdin
  opened : w.openDb (Cmd.driverName c.dialect) left = none
  connected : w.conn = none
  printed : ∀ t, w.stdout t = none
  goesOn : w.cancelled [] = false
  tries : ∀ n, 0 < w.attempts n

/-- The statement can be sent: printed without its comment it is a clean text, which the server understands. -/
def Sendable {T I A N : Type} [HasComment T] [HasComment I] [HasComment A] (o : Ops T I A N) (reads : Str → Option (Stmt T I A N))
    (x : Stmt T I A N) : Prop :=
  ∃ body, stmtStr o (bare x) = body ++ s%";\n" ∧ Clean body ∧ reads body = some (bare x)

/-- At most one state can follow. -/
def Functional {S X : Type} (exec : S → X → S → Prop) : Prop := ∀ d x d₁ d₂, exec d x d₁ → exec d x d₂ → d₁ = d₂

end Ddl.Spec
