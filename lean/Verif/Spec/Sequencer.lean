import Verif.Model.Sequencer
/-!
# Specification vocabulary: the sending thread
-/
namespace Verif.Spec
open Verif.Model

/-- The messages queued on channel `c`, in order. -/
def queuedOn (c : Nat) (log : List SqEvent) : List OutMsg :=
  log.filterMap fun
    | .queued c' m => if c' = c then some m else none
    | .frame .. => none

/-- The frames written on behalf of channel `c`, in order. -/
def framesOn (c : Nat) (log : List SqEvent) : List Frame :=
  log.filterMap fun
    | .frame c' f => if c' = c then some f else none
    | .queued .. => none

/-- No feeder is paused during the history. -/
def NoPause (ops : List SqOp) : Prop := .round true ∉ ops

/-- Some thread will, without help from the application or the peer, put channel `c` into the
work set, or it is there. -/
def Attended (s : Sq) (c : Nat) : Prop :=
  s.ready c = true ∨ s.reader = .checking c ∨ s.reader = .locking c

/-- Channel `c` has a queued message and its peer's window is open. -/
def CanSend (s : Sq) (c : Nat) : Prop :=
  (s.chans c).pending ≠ [] ∧ (s.chans c).win.stalled = false

/-- During the history the reader thread never looks at the queue of a channel while an application
thread is inside `vortex_sequencer_add_channel` for that channel. -/
def ChecksApart : Sq → List SqOp → Prop
  | _, [] => True
  | s, op :: ops =>
    (op = .check → ∀ c m, s.reader = .checking c → s.adding ≠ some (c, m)) ∧
    ∀ s' ev, s.step op = some (s', ev) → ChecksApart s' ops

/-- During the history the sending thread never completes a message between the reader thread's look
at a queue and its insertion of the channel in the work set. -/
def FinishesApart : Sq → List SqOp → Prop
  | _, [] => True
  | s, op :: ops =>
    (op = .finish → ∀ c, s.reader ≠ .locking c) ∧
    ∀ s' ev, s.step op = some (s', ev) → FinishesApart s' ops

end Verif.Spec
