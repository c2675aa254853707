/-!
Waiting until a reply is written, `vortex_channel_wait_until_sent`, src/vortex_channel.c:8956-9004, used when the close of a connection is
accepted (7700-7711): the waiter was installed (`vortex_channel_install_waiter`, 8917-8944) and the reply was given to the sequencer.

One waiter, the sequencer, and the connection that may fail. Not modelled: allocation failures, a second reply with the same number.
-/
namespace Verif.Model

/-- What is pushed to the queue of the waiter: the reply was written (src/vortex_channel.c:9036), or -3, the connection is broken. -/
inductive SentItem
  | written
  | gone
  deriving DecidableEq, Repr

/-- Where the waiter is. -/
inductive SentPc
  /-- the reply was given to the sequencer -/
  | start
  /-- the close handler is installed; in `vortex_async_queue_pop`, :8983-8986 -/
  | waiting
  | popped (i : SentItem)
  /-- the handler was not found: in the second `vortex_async_queue_pop`, :8995-8998 -/
  | again
  /-- the queue is released, :9001-9004 -/
  | done
  deriving DecidableEq, Repr

/-- How far the sequencer is with the reply. -/
inductive SentMsg
  | queued
  /-- not sent: the connection is down, no reference could be taken, src/vortex_sequencer.c:573-578 -/
  | dropped
  /-- `vortex_frame_send_raw` returned, src/vortex_sequencer.c:813 -/
  | written
  /-- `vortex_channel_signal_rpy_sent` has found the queue, src/vortex_channel.c:9026-9033 -/
  | found
  | signalled
  deriving DecidableEq, Repr

structure SentWait where
  connOk : Bool
  over : Bool
  items : List SentItem
  /-- the queue is not released -/
  alive : Bool
  handler : Bool
  marks : Nat
  msg : SentMsg
  pc : SentPc

def SentWait.init : SentWait := ⟨true, false, [], true, false, 0, .queued, .start⟩

inductive SentAct
  /-- the connection is marked as not connected -/
  | fail
  /-- one round of the loop of `__vortex_connection_invoke_on_close`, src/vortex_connection.c:5077-5098 -/
  | takeHandler
  /-- a thread created there pushes the mark -3 -/
  | mark
  | write
  | drop
  | lookup
  | signal
  /-- one step of the waiter -/
  | wait
  deriving DecidableEq, Repr

/-- One step; `none` if the released queue is used. -/
def SentWait.step (s : SentWait) : SentAct → Option SentWait
  | .fail => some { s with connOk := false }
  | .takeHandler =>
    if s.connOk || s.over then some s
    else if s.handler then some { s with handler := false, marks := s.marks + 1 }
    else some { s with over := true }
  | .mark =>
    if s.marks = 0 then some s
    else if s.alive then some { s with items := s.items ++ [.gone], marks := s.marks - 1 }
    else none
  -- the reference was taken while the connection was ok; the write itself may fail
  | .write => if s.msg = .queued then some { s with msg := .written } else some s
  | .drop => if s.msg = .queued ∧ s.connOk = false then some { s with msg := .dropped } else some s
  | .lookup => if s.msg = .written then some { s with msg := if s.alive then .found else .signalled } else some s
  | .signal =>
    if s.msg = .found then
      if s.alive then some { s with items := s.items ++ [.written], msg := .signalled } else none
    else some s
  | .wait =>
    match s.pc with
    | .start => some { s with handler := true, pc := .waiting }
    | .waiting =>
      match s.items with
      | [] => some s
      | i :: rest => some { s with items := rest, pc := .popped i }
    | .popped _ =>
      if s.handler then some { s with handler := false, alive := false, pc := .done }
      else some { s with pc := .again }
    | .again =>
      match s.items with
      | [] => some s
      | _ :: rest => some { s with items := rest, alive := false, pc := .done }
    | .done => some s

def SentWait.run (s : SentWait) : List SentAct → Option SentWait
  | [] => some s
  | a :: as => match s.step a with
    | none => none
    | some r => r.run as

end Verif.Model
