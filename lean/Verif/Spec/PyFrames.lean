import Verif.Model.PyFrames
/-!
# Specification of the frame received handler of a Python channel (C142)
-/
namespace Verif.Spec
open Verif.Model

/-- The handler and the data in force after a history: those given last, unless they were removed. -/
def pyfInForce : List PyfOp → Option (Nat × Option Nat) → Option (Nat × Option Nat)
  | [], c => c
  | .set h d :: r, _ => pyfInForce r (some (h, d))
  | .clear :: r, _ => pyfInForce r none
  | _ :: r, c => pyfInForce r c

/-- What is called when this happens after the history: the thread that goes on with a frame calls the handler in force with its data. -/
def pyfDue (ops : List PyfOp) : PyfOp → List (Nat × Nat × Option Nat)
  | .enter i =>
    match (pyfRun ops).entered[i]?, pyfInForce ops none with
    | some f, some (h, d) => [(f, h, d)]
    | _, _ => []
  | _ => []

/-- The frames that arrived while there was a handler. -/
def pyfAccepted : List PyfOp → Option (Nat × Option Nat) → List Nat
  | [], _ => []
  | .set h d :: r, _ => pyfAccepted r (some (h, d))
  | .clear :: r, _ => pyfAccepted r none
  | .arrive f :: r, some c => f :: pyfAccepted r (some c)
  | _ :: r, c => pyfAccepted r c

/-- Each of them is in one place: it waits, was given to a handler, or was dropped. -/
def PyfOnce (ops : List PyfOp) : Prop :=
  ∀ f, (pyfAccepted ops none).count f =
    (pyfRun ops).queued.count f + (pyfRun ops).entered.count f + ((pyfRun ops).calls.map (·.1)).count f + (pyfRun ops).dropped.count f

/-- The references held: one to the handler in force, one to its data, and one to the data for each call that runs. None once the channel is gone. -/
def PyfRefs (ops : List PyfOp) : Prop :=
  let s := pyfRun ops
  (s.gone = false → ∀ x,
    s.hrefs x = (if (pyfInForce ops none).map (·.1) = some x then 1 else 0) ∧
    s.drefs x = (if (pyfInForce ops none).map (·.2) = some (some x) then 1 else 0) + (s.running.filter (fun e => e.2 == some x)).length) ∧
  (s.gone = true → ∀ x, s.hrefs x = 0 ∧ s.drefs x = 0)

/-- C142 in full. -/
def C142_statement : Prop :=
  ∀ ops : List PyfOp, (pyfRun ops).bad = false ∧ PyfRefs ops ∧ ((pyfRun ops).gone = false → PyfOnce ops) ∧
    ∀ op, (pyfRun (ops ++ [op])).calls = (pyfRun ops).calls ++ pyfDue ops op

/-- The handler is removed only while no thread is about to call it. -/
def PyfQuiet (ops : List PyfOp) : Prop :=
  ∀ pre post, ops = pre ++ .clear :: post → (pyfRun pre).entered = []

end Verif.Spec
