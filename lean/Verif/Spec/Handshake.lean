import Verif.Model.Handshake
/-!
# Closing a channel: what is expected
-/
namespace Verif.Spec
open Verif.Model

/-- How many times an event happened at a side. -/
def hsCount (log : List (Bool × HsEvent)) (s : Bool) (e : HsEvent) : Nat := log.count (s, e)

/-- Nothing about closing the channel is under way. -/
def Settled (n : HsNet) : Prop :=
  n.ab = [] ∧ n.ba = [] ∧ n.a.phase = .idle ∧ n.b.phase = .idle ∧
  n.a.passive = false ∧ n.b.passive = false ∧ n.a.deferred = false ∧ n.b.deferred = false

/-- No message of the channel is unanswered and none of its frames is under way. -/
def NothingPending (n : HsNet) : Prop :=
  n.a.outstanding = 0 ∧ n.b.outstanding = 0 ∧ n.a.owed = 0 ∧ n.b.owed = 0 ∧ n.abData = [] ∧ n.baData = []

/-- Steps excluded from the histories for which the handshake works (each one is a fault shown apart): a wait that
is given up, a request refused or deferred, a message sent after the close started, and a request that arrives
when the closing thread of this side has not stored its waiter, or still waits for replies. -/
def hsOrderlyStep (side : HsSide) (incoming : List HsMsg) : HsOp → Bool
  | .sendLate | .takeLate | .timeout | .decide _ => false
  | .recv d =>
    if incoming.head? = some .close ∧ side.present then
      if side.being then side.phase ≠ .marked && (side.phase ≠ .stored || side.outstanding = 0)
      else d = .accept
    else true
  | _ => true

/-- A history of such steps. -/
def HsOrderly (n : HsNet) : List (Bool × HsOp) → Bool
  | [] => true
  | (s, op) :: ops =>
    (if s then hsOrderlyStep n.a n.ba op else hsOrderlyStep n.b n.ab op) && HsOrderly (n.step s op).1 ops

/-- No decision is deferred in the history. -/
def NoDefer (ops : List (Bool × HsOp)) : Prop := ∀ s, (s, HsOp.recv .defer) ∉ ops

end Verif.Spec
