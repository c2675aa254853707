import Verif.Model.PoolEvents
/-!
# A pass over the timed events, with nothing else going on
-/
namespace Verif.Spec
open Verif.Model

/-- Thread `t` processes the events `l`; `due`: their time has come, `stop`: their handlers say that they should be removed. -/
def pePassOps (t : Nat) (due stop : Nat → Bool) (l : List Nat) : List PeOp :=
  .start t :: (l.flatMap fun k => if due k then [.look t true, .call t, .ret t (stop k), .settle t] else [.look t false]) ++
    [.look t false, .finish t]

/-- What should be seen of it: the handlers of the events that are due, one after the other. -/
def pePassLog (due stop : Nat → Bool) (l : List Nat) : List PeEvent :=
  l.flatMap fun k => if due k then .began k :: .ended k (stop k) :: (if stop k then [.freed k] else []) else []

/-- A handler was called and did not return yet. -/
def peInHandler (log : List PeEvent) : Prop := ∃ p j q, log = p ++ .began j :: q ∧ ∀ b, PeEvent.ended j b ∉ q

end Verif.Spec
