import Verif.Model.Alive
/-!
# The alive check as seen from outside
-/
namespace Verif.Spec
open Verif.Model

/-- A period has started and no octet has arrived since the last one did. -/
def silent : List AliveEvent → Bool → Bool
  | [], b => b
  | .period :: l, _ => silent l true
  | .octets :: l, _ => silent l false
  | _ :: l, b => silent l b

/-- Probes not answered. -/
def unanswered (l : List AliveEvent) : Int := l.count .probe - l.count .answer

/-- Nothing arrives from the peer, and nothing else happens to the connection: time passes and checks run. -/
def NothingArrives (ops : List AliveOp) : Prop := ∀ op ∈ ops, op = .tick ∨ ∃ s, op = .wait s

/-- Seconds passed. -/
def secondsIn : List AliveOp → Nat
  | [] => 0
  | .wait s :: l => s + secondsIn l
  | _ :: l => secondsIn l

end Verif.Spec
