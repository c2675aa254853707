import Verif.Model.Peers
/-!
# Specification vocabulary: which histories of two peers are covered
-/
namespace Verif.Spec
open Verif.Model

/-- Every message queued is a NUL or has content (an empty message of another type closes the
connection, see C08). -/
def Messages (ops : List PeersOp) : Prop :=
  ∀ m, PeersOp.queue m ∈ ops → m.type = .nul ∨ m.message ≠ []

/-- The application only enlarges its window, and does it while there is room below 2^32 for twice
the new window above what has been queued so far. `total` octets have been queued before, and
`last` is the last window configured. A history that never configures windows satisfies it. -/
def GrowEarly (total : Nat) (last : Int) : List PeersOp → Prop
  | [] => True
  | .queue m :: ops => GrowEarly (total + m.message.length) last ops
  | .setWindow n :: ops =>
    last ≤ n ∧ n < 2147483648 ∧ (total : Int) + 2 * n ≤ 4294967296 ∧ GrowEarly total n ops
  | _ :: ops => GrowEarly total last ops

/-- No SEQ frame sent during the history has one of the two acknos the header parser confuses with
its error codes (see C03). -/
def AcksParse (ch : Int) (p : Peers) : List PeersOp → Prop
  | [] => True
  | op :: ops =>
    (op = .deliverData → ∀ f fs w a n, p.data = f :: fs →
      p.rcv.receive f.seqno f.size = some (w, some (a, n)) → a < 4294967294) ∧
    ∀ p', p.step ch op = some p' → AcksParse ch p' ops

end Verif.Spec
