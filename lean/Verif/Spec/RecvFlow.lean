import Verif.Model.Window
/-!
# Specification vocabulary: the receiver's side of flow control
-/
namespace Verif.Spec
open Verif.Model

/-- What can happen to the receive window of a channel. -/
inductive RecvOp
  /-- a data frame with this seqno and size arrives -/
  | recv (seqno : Nat) (size : Int)
  /-- the application calls `vortex_channel_set_window_size` -/
  | setWindow (size : Int)
  deriving DecidableEq, Repr

/-- What a history produces: the frames accepted and the SEQ frames sent, in order. -/
inductive RecvEvent
  | accepted (size : Int)
  | seq (ackno : Nat) (window : Int)
  deriving DecidableEq, Repr

/-- Run a history from a state, until its end or until a frame is refused. -/
def recvRun (w : RecvWin) : List RecvOp → List RecvEvent
  | [] => []
  | .setWindow n :: ops => recvRun (w.setWindow n) ops
  | .recv seqno size :: ops =>
    match w.receive seqno size with
    | none => []
    | some (w', seq) =>
      .accepted size :: (seq.map fun (a, n) => RecvEvent.seq a n).toList ++ recvRun w' ops

/-- Octets accepted in a list of events. -/
def received : List RecvEvent → Int
  | [] => 0
  | .accepted n :: es => n + received es
  | .seq _ _ :: es => received es

/-- The limits advertised by the SEQ frames of a list of events, counted without wrapping: each SEQ
acknowledges what has been received so far and grants `window` octets more. `pos` is the number of
octets received before the list. -/
def limits (pos : Int) : List RecvEvent → List Int
  | [] => []
  | .accepted n :: es => limits (pos + n) es
  | .seq _ window :: es => (pos + window) :: limits pos es

/-- Every accepted frame ends within the limit advertised at the time it arrives, and every SEQ
acknowledges exactly what has been received. `pos` octets have been received before the events and
`limit` is the limit in force. -/
def WithinLimits (pos limit : Int) : List RecvEvent → Prop
  | [] => True
  | .accepted n :: es => pos + n ≤ limit ∧ WithinLimits (pos + n) limit es
  | .seq ackno window :: es => (ackno : Int) = pos % 4294967296 ∧ WithinLimits pos (pos + window) es

/-- Each element is at least (strictly more than) the previous one, the first compared with `a`. -/
def NonDecreasing (a : Int) : List Int → Prop
  | [] => True
  | b :: l => a ≤ b ∧ NonDecreasing b l
def Increasing (a : Int) : List Int → Prop
  | [] => True
  | b :: l => a < b ∧ Increasing b l

/-- Sizes configured by the application. -/
def configured : List RecvOp → List Int
  | [] => []
  | .setWindow n :: ops => n :: configured ops
  | _ :: ops => configured ops

/-- Sizes of the frames of a history are what the `int` of the header field can hold when it is not
negative. -/
def SizesOk (ops : List RecvOp) : Prop :=
  ∀ s n, RecvOp.recv s n ∈ ops → 0 ≤ n ∧ n < 2147483648

/-- Window sizes are C ints. -/
def WindowsOk (ops : List RecvOp) : Prop := ∀ n, RecvOp.setWindow n ∈ ops → n < 2147483648

end Verif.Spec
