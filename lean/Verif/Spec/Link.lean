import Verif.Model.Link
import Verif.Spec.Peers
/-!
# Specification vocabulary: two endpoints on a byte stream
-/
namespace Verif.Spec
open Verif.Model

/-- Kind, number and content of a frame handed to the application. -/
def seenAs (d : Delivery) : FType × Int × List Byte := (d.type, d.msgno, d.content)

/-- The contents one side asks to send as messages (`vortex_channel_send_msg`), in order. -/
def askedBy (side : Bool) : List (Bool × LinkOp) → List (List Byte)
  | [] => []
  | (s, .send c) :: ops => if s = side then c :: askedBy side ops else askedBy side ops
  | _ :: ops => askedBy side ops

/-- What one side asks to send in the state `l`: messages, and replies when some message received waits for one. -/
def asksNow (e : Endpoint) : LinkOp → List (FType × List Byte)
  | .send c => [(.msg, c)]
  | .reply err c => if e.chan.inc.pending = [] then [] else [(if err then .err else .rpy, c)]
  | _ => []

/-- Everything one side asks to send during a history, in order. -/
def asksToSend (ch : Int) (side : Bool) (l : Link) : List (Bool × LinkOp) → List (FType × List Byte)
  | [] => []
  | (s, op) :: ops =>
    (if s = side then asksNow (if side then l.a else l.b) op else []) ++ asksToSend ch side (l.step ch s op) ops

/-- Messages are numbered from `i` on, one by one, and replies from `j` on. -/
def numbersInOrder : Nat → Nat → List (FType × Int × List Byte) → Prop
  | _, _, [] => True
  | i, j, (t, m, _) :: l =>
    (t = .msg ∧ m = i ∧ numbersInOrder (i + 1) j l) ∨ ((t = .rpy ∨ t = .err) ∧ m = j ∧ numbersInOrder i (j + 1) l)

/-- Octets of all contents one side asks to send. -/
def octetsAsked (side : Bool) : List (Bool × LinkOp) → Nat
  | [] => 0
  | (s, .send c) :: ops | (s, .reply _ c) :: ops => (if s = side then c.length else 0) + octetsAsked side ops
  | _ :: ops => octetsAsked side ops

/-- Contents have at least one octet (see C08) and less than 2^31 - 1 (see C18); windows can be announced in a SEQ
frame. -/
def contentsFit : List (Bool × LinkOp) → Prop
  | [] => True
  | (_, .send c) :: ops | (_, .reply _ c) :: ops => c ≠ [] ∧ c.length < 2147483647 ∧ contentsFit ops
  | (_, .setWindow n) :: ops => n < 2147483640 ∧ contentsFit ops
  | _ :: ops => contentsFit ops

/-- What one direction of the channel (data from `side` to the other) sees of a history: contents queued by `side` and
windows configured by the other, for `GrowEarly`. -/
def direction (side : Bool) : List (Bool × LinkOp) → List PeersOp
  | [] => []
  | (s, .send c) :: ops | (s, .reply _ c) :: ops =>
    if s = side then .queue ⟨.msg, 0, 0, 0, false, c⟩ :: direction side ops else direction side ops
  | (s, .setWindow n) :: ops => if s = side then direction side ops else .setWindow n :: direction side ops
  | _ :: ops => direction side ops

/-- How many times in a row the octets found end inside the header line of a frame, `n` being that number before. -/
def interruptions (n : Nat) (rd : ReadState) (available : List Byte) : Nat :=
  if available = [] then n else if rd.partialFrame = none ∧ LF ∉ available then n + 1 else 0

/-- No header line is received in more than 26 pieces (see C04). -/
def patient (ch : Int) (l : Link) (na nb : Nat) : List (Bool × LinkOp) → Bool
  | [] => true
  | (true, .read k) :: ops =>
    decide (interruptions na l.a.rd (l.ba.take k) ≤ 25) &&
      patient ch (l.step ch true (.read k)) (interruptions na l.a.rd (l.ba.take k)) nb ops
  | (false, .read k) :: ops =>
    decide (interruptions nb l.b.rd (l.ab.take k) ≤ 25) &&
      patient ch (l.step ch false (.read k)) na (interruptions nb l.b.rd (l.ab.take k)) ops
  | (s, op) :: ops => patient ch (l.step ch s op) na nb ops

/-- No SEQ frame was written with one of the two acknos the header parser confuses with its error codes (see C03). -/
def acksReadable (l : Link) : Prop := ∀ n ∈ l.a.acks ++ l.b.acks, n < 4294967294

/-- A step of a thread of the library, not of the application. -/
def ofLibrary : LinkOp → Bool
  | .round | .read _ => true
  | _ => false

/-- No thread of the library can do anything. -/
def atRest (ch : Int) (l : Link) : Prop := ∀ s op, ofLibrary op = true → l.step ch s op = l

/-- Steps of threads of the library, each of which does something. -/
def allMove (ch : Int) (l : Link) : List (Bool × LinkOp) → Prop
  | [] => True
  | (s, op) :: ops => ofLibrary op = true ∧ l.step ch s op ≠ l ∧ allMove ch (l.step ch s op) ops

end Verif.Spec
