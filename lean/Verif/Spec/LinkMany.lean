import Verif.Model.LinkMany
import Verif.Spec.Link
/-!
# Specification vocabulary: two endpoints with several channels
-/
namespace Verif.Spec
open Verif.Model

/-- What is done with channel `c` during a history, apart from reading. -/
def onChannel (c : Nat) : List (Bool × ManyOp) → List (Bool × LinkOp)
  | [] => []
  | (s, .send d x) :: ops => if d = c then (s, .send x) :: onChannel c ops else onChannel c ops
  | (s, .reply d err x) :: ops => if d = c then (s, .reply err x) :: onChannel c ops else onChannel c ops
  | (s, .setWindow d n) :: ops => if d = c then (s, .setWindow n) :: onChannel c ops else onChannel c ops
  | (s, .round d) :: ops => if d = c then (s, .round) :: onChannel c ops else onChannel c ops
  | (_, .read _) :: ops => onChannel c ops

/-- What one side asks to send on channel `c`: messages, and replies when some message received waits for one. -/
def manyAsksNow (e : ManyEnd) (c : Nat) : ManyOp → List (FType × List Byte)
  | .send d x => if d = c then [(.msg, x)] else []
  | .reply d err x => if d = c ∧ (e.chans c).chan.inc.pending ≠ [] then [(if err then .err else .rpy, x)] else []
  | _ => []

/-- Everything one side asks to send on channel `c` during a history, in order. -/
def manyAsks (chs : List Nat) (c : Nat) (side : Bool) (l : ManyLink) : List (Bool × ManyOp) → List (FType × List Byte)
  | [] => []
  | (s, op) :: ops =>
    (if s = side then manyAsksNow (if side then l.a else l.b) c op else []) ++ manyAsks chs c side (l.step chs s op) ops

/-- No header line is received in more than 26 pieces (see C04). -/
def manyPatient (chs : List Nat) (l : ManyLink) (na nb : Nat) : List (Bool × ManyOp) → Bool
  | [] => true
  | (true, .read k) :: ops =>
    decide (interruptions na l.a.rd (l.ba.take k) ≤ 25) &&
      manyPatient chs (l.step chs true (.read k)) (interruptions na l.a.rd (l.ba.take k)) nb ops
  | (false, .read k) :: ops =>
    decide (interruptions nb l.b.rd (l.ab.take k) ≤ 25) &&
      manyPatient chs (l.step chs false (.read k)) na (interruptions nb l.b.rd (l.ab.take k)) ops
  | (s, op) :: ops => manyPatient chs (l.step chs s op) na nb ops

/-- No SEQ frame was written for channel `c` with one of the two acknos the header parser confuses with its error
codes (see C03). -/
def manyAcksReadable (l : ManyLink) (c : Nat) : Prop := ∀ n ∈ (l.a.chans c).acks ++ (l.b.chans c).acks, n < 4294967294

/-- A step of a thread of the library, not of the application. -/
def manyOfLibrary : ManyOp → Bool
  | .round _ | .read _ => true
  | _ => false

/-- No thread of the library can do anything. -/
def manyAtRest (chs : List Nat) (l : ManyLink) : Prop := ∀ s op, manyOfLibrary op = true → l.step chs s op = l

/-- Steps of threads of the library, each of which does something. -/
def manyAllMove (chs : List Nat) (l : ManyLink) : List (Bool × ManyOp) → Prop
  | [] => True
  | (s, op) :: ops => manyOfLibrary op = true ∧ l.step chs s op ≠ l ∧ manyAllMove chs (l.step chs s op) ops

end Verif.Spec
