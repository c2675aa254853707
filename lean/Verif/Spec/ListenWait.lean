import Verif.Model.ListenWait
/-!
# Specification for waiting for listeners (C71)
-/
namespace Verif.Spec
open Verif.Model

/-- Left alone, thread `i` comes out of `vortex_listener_wait`. -/
def canReturn (s : ListenWait) (i : Nat) : Prop :=
  ∃ n r, s.run (List.replicate n (.wait i)) = some r ∧ .returned i ∈ r.2

/-- The step lets the call that has the unlock mutex return. -/
def unlockReturns (s : ListenWait) (op : LwOp) (s' : ListenWait) : Prop :=
  ∃ ev, s.step op = some (s', ev) ∧ .unlocked ∈ ev

/-- Thread 0 is the only one that waits; nobody unlocks while it is on its way to the queue, it does not call again while a thread
unlocks, and no listener fails to start. -/
def orderly (s : ListenWait) : LwOp → Prop
  | .wait i => i = 0 ∧ (s.waiting 0 = .out → s.unlocker = none)
  | .unlock => s.unlocker = none → s.waiting 0 = .out ∨ ∃ q, s.waiting 0 = .blocked q ∨ s.waiting 0 = .popped q
  | .fail => False
  | .go => True

/-- Every step of the schedule is orderly. -/
def orderlyRun (s : ListenWait) : List LwOp → Prop
  | [] => True
  | op :: ops => orderly s op ∧ ∀ r, s.step op = some r → orderlyRun r.1 ops

end Verif.Spec
