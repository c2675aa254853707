import Verif.Model.Start
/-!
# Vocabulary of C28 and C44
-/
namespace Verif.Spec
open Verif.Model

/-- The answers sent to a request. -/
def answersTo (req : Nat) (log : List StEvent) : List Bool :=
  log.filterMap fun
    | .answered r b => if r = req then some b else none
    | _ => none

/-- The masks asked about a request, and what they said. -/
def consultations (req : Nat) (log : List StEvent) : List (Nat × Bool) :=
  log.filterMap fun
    | .consulted r m b => if r = req then some (m, b) else none
    | _ => none

/-- Whether a profile is registered after this history. -/
def isRegistered (uri : String) : List StEvent → Bool → Bool
  | [], b => b
  | .registered u :: log, b => isRegistered uri log (b || u == uri)
  | .unregistered u :: log, b => isRegistered uri log (b && u != uri)
  | _ :: log, b => isRegistered uri log b

/-- Masks installed in this history. -/
def masksInstalled (log : List StEvent) : Nat := (log.filter (· == .masked)).length

/-- The application or a mask has still to say something about the request. -/
def undecided (req : Nat) (s : Starts) : Prop :=
  (∃ r ∈ s.running, r.req = req) ∨ (∃ w ∈ s.waiting, w.2 = req)

/-- The application answers each deferred request once and after its start handler returned, and nobody
closes a channel that was not accepted; masks do not take over the answer. -/
def Disciplined (s : Starts) : List StOp → Prop
  | [] => True
  | op :: ops =>
    (match op with
      | .notify chan _ => ∃ r, (chan, r) ∈ s.waiting
      | .close chan => ∀ c, s.live chan = some c → c.opened = true
      | .defer chan => ∃ r ∈ s.running, r.phase = .handler chan
      | .proceed _ filters skip => ¬ (filters = true ∧ skip = true)
      | _ => True) ∧ Disciplined (s.step op).2 ops

end Verif.Spec
