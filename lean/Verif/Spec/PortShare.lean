import Verif.Model.PortShare
/-!
# Specification for port sharing (C72)
-/
namespace Verif.Spec
open Verif.Model

/-- All that the peer sent. -/
def shareSent : List ShareOp → List Nat
  | [] => []
  | .arrive os :: ops => os ++ shareSent ops
  | _ :: ops => shareSent ops

/-- The handler was installed for this address and port. -/
def shareFits (h : ShareHandler) (addr port : Nat) : Prop :=
  (h.addr = none ∨ h.addr = some addr) ∧ (h.port = none ∨ h.port = some port)

/-- The handlers asked, in order. -/
def shareAsked : List ShareEvent → List ShareHandler
  | [] => []
  | .ask h _ :: l => h :: shareAsked l
  | _ :: l => shareAsked l

/-- No further transport is negotiated on the connection. -/
def notTuned : ShareOp → Prop
  | .tune => False
  | _ => True

/-- The first time that something is read from the connection, four octets are there. -/
def fourFirst (avail : List Nat) : List ShareOp → Prop
  | [] => True
  | .arrive os :: ops => fourFirst (avail ++ os) ops
  | .read _ _ :: _ => 4 ≤ avail.length
  | _ :: ops => fourFirst avail ops

end Verif.Spec
