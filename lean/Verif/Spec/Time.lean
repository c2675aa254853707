import Verif.Model.Time
/-!
# Specification vocabulary: instants
-/
namespace Verif.Spec
open Verif.Model

/-- Microseconds since the epoch. -/
def micros (t : TimeVal) : Int := t.sec * 1000000 + t.usec

/-- As the system gives instants. -/
def Normal (t : TimeVal) : Prop := 0 ≤ t.usec ∧ t.usec < 1000000

/-- How many times an event has run. -/
def runs (id : Nat) : List TimerEvent → Nat
  | [] => 0
  | .ran id' _ :: es => (if id' = id then 1 else 0) + runs id es
  | _ :: es => runs id es

/-- The instants given to the calls of a history are as the system gives them. -/
def NormalOps (ops : List TimerOp) : Prop := ∀ op ∈ ops, match op with
  | .install now _ => Normal now
  | .remove _ => True
  | .pass now _ => Normal now

end Verif.Spec
