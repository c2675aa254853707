import Verif.Model.Idle
/-!
# Specification for notifications of connections without traffic (C69)
-/
namespace Verif.Spec
open Verif.Model

/-- Up to `t` there was nothing on the connection for longer than `period`, nor did a handler return in that time. -/
def quietSince (log : List IdleEvent) (t period : Nat) : Prop :=
  ∀ t', (.active t' ∈ log ∨ .done t' ∈ log) → t' + period < t

/-- How often something was found without traffic. -/
def isFound : IdleEvent → Bool
  | .found _ _ => true
  | _ => false

def isIdleCall : IdleEvent → Bool
  | .call _ _ => true
  | _ => false

def isIdleDone : IdleEvent → Bool
  | .done _ => true
  | _ => false

/-- The handler stays, and the thread pool runs. -/
def idleSteady : IdleOp → Prop
  | .set none => False
  | .stopPool => False
  | _ => True

end Verif.Spec
