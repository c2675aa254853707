import Verif.Model.Pull
/-!
# Event masks as sets of event types, and what is to be delivered
-/
namespace Verif.Spec
open Verif.Model

/-- A mask: the types of event it names, and whether it is enabled. -/
structure MaskSet where
  id : Nat
  names : Nat → Bool
  enabled : Bool

/-- The masks in force after one more operation. -/
def masksStep (l : List MaskSet) : PullOp → List MaskSet
  | .setMask m => if l.any (·.id == m.id) then l else l ++ [⟨m.id, fun k => m.mask.getLsbD k, m.enabled⟩]
  | .maskAdd id ev => l.map fun m => if m.id = id then { m with names := fun k => m.names k || ev.getLsbD k } else m
  | .maskRemove id ev => l.map fun m => if m.id = id then { m with names := fun k => m.names k && !ev.getLsbD k } else m
  | .maskEnable id b => l.map fun m => if m.id = id then { m with enabled := b } else m
  | _ => l

/-- The event type is in a mask that is enabled. -/
def isMasked (l : List MaskSet) (kind : Nat) : Bool := l.any fun m => m.enabled && m.names kind

/-- The event to deliver because of an operation, under these masks. -/
def newEvent (l : List MaskSet) : PullOp → List (Nat × Nat)
  | .happen kind x => if isMasked l kind then [] else [(kind, x)]
  | _ => []

/-- The events that happen and are not masked when they do. -/
def toDeliver : List MaskSet → List PullOp → List (Nat × Nat)
  | _, [] => []
  | l, op :: ops => newEvent l op ++ toDeliver (masksStep l op) ops

/-- The events the application gets. -/
def pulledIn (log : List PullEvent) : List (Nat × Nat) :=
  log.filterMap fun
    | .pulled k x => some (k, x)
    | _ => none

/-- Types of event are the eight of the API. -/
def RealKinds (ops : List PullOp) : Prop := ∀ k x, .happen k x ∈ ops → k < 8

/-- No thread is released from a wait with no reason. -/
def NoSpurious (ops : List PullOp) : Prop := ∀ i, .wake i true ∉ ops

/-- Threads pull one at a time. -/
def OnePuller (p : Pull) : List PullOp → Prop
  | [] => True
  | op :: ops => ((∃ ms, op = .next ms) → p.sleeping = [] ∧ p.woken = []) ∧ OnePuller (p.step op).2 ops

end Verif.Spec
