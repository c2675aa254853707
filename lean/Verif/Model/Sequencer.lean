import Verif.Model.Sender
import Verif.Model.WaitReply
/-!
# The sending thread and the threads that feed it (src/vortex_sequencer.c)

One connection with any number of channels. Three kinds of threads act on the sending thread's work
set (`state->ready`): application threads inside `vortex_sequencer_add_channel`, the reader thread
inside `vortex_sequencer_signal_update` after it applied a SEQ frame, and the sending thread inside
`vortex_sequencer_process_channels`. Each of these functions is split at the points where another
thread can interfere: where it takes or releases `state->mutex`, and where it reads data (the
stalled condition, the queue) that other threads change without that mutex.

Simplifications: any channel of the work set may be visited next (the code goes through a hash
table, channel 0 first); the work set holds no reference counts; channel and connection
references always succeed; no channel is flagged `vo:seq:del`; `vortex_sequencer_direct_send`
writes the whole frame. A message whose feeder is paused is modelled by the flag of the `round`
operation.
-/
namespace Verif.Model

/-- Where the reader thread is. -/
inductive RdPhase
  | idle
  /-- SEQ frame applied (src/vortex_reader.c:391), :405 about to look at the queue
  (src/vortex_sequencer.c:859) -/
  | checking (c : Nat)
  /-- a message was found, about to take the mutex (:865) -/
  | locking (c : Nat)
  deriving DecidableEq, Repr

/-- Where the sending thread is. -/
inductive SqPhase
  /-- between two channels, mutex held only while looking -/
  | idle
  /-- mutex released (:584), about to do a send round -/
  | sending (c : Nat)
  /-- send round done (:590), about to take the mutex (:600) -/
  | sent (c : Nat) (complete paused : Bool)
  /-- mutex taken, `is_stalled` computed (:603) -/
  | locked (c : Nat) (complete paused stalled : Bool)
  deriving DecidableEq, Repr

/-- State shared by the threads. -/
structure Sq where
  chans : Nat → SendChan
  /-- `state->ready` -/
  ready : Nat → Bool
  /-- application thread inside the critical section of `vortex_sequencer_add_channel`, between the
  stalled test (:108) and the queueing (:127) -/
  adding : Option (Nat × OutMsg)
  reader : RdPhase
  sender : SqPhase

/-- A connection whose channels are all fresh. -/
def Sq.init : Sq := ⟨fun _ => SendChan.init, fun _ => false, none, .idle, .idle⟩

/-- `state->mutex` is free (the sending thread's short critical sections are atomic steps). -/
def Sq.mutexFree (s : Sq) : Bool :=
  s.adding.isNone && (match s.sender with | .locked .. => false | _ => true)

/-- What the threads can do. -/
inductive SqOp
  /-- an application thread enters `vortex_sequencer_add_channel` (:95) with a message -/
  | add (c : Nat) (m : OutMsg)
  /-- … and queues it and leaves -/
  | addEnd
  /-- the reader thread applies a SEQ frame -/
  | seq (c : Nat) (ackno window : Nat)
  /-- the reader thread looks at the queue of that channel -/
  | check
  /-- the reader thread adds the channel to the work set -/
  | insert
  /-- the sending thread gets to channel `c` of its work set -/
  | visit (c : Nat)
  /-- it does a send round; `paused`: the message comes from a feeder, which is paused -/
  | round (paused : Bool)
  /-- it takes the mutex again -/
  | relock
  /-- it decides whether the channel stays in the work set -/
  | finish
  deriving DecidableEq, Repr

/-- What can be observed. -/
inductive SqEvent
  /-- message queued on the channel -/
  | queued (c : Nat) (m : OutMsg)
  /-- frame written on behalf of the channel -/
  | frame (c : Nat) (f : Frame)
  deriving DecidableEq, Repr

/-- One step; `none`: the connection was shut down. A step that is not possible in the current
state (the mutex is taken, the thread is elsewhere) leaves it unchanged.

* `add`: `vortex_sequencer_add_channel`, src/vortex_sequencer.c:95-124 (with :98-105 as one step,
  since nothing outside the mutex is read there);
* `addEnd`: :127-130;
* `seq`: `vortex_channel_update_remote_incoming_buffer` called at src/vortex_reader.c:391-397;
* `check`, `insert`: `vortex_sequencer_signal_update`, src/vortex_sequencer.c:859 and :865-880;
* `visit`: `vortex_sequencer_process_channels`, :538-584 (:551-556 removes stalled channels);
* `round`: `__vortex_sequencer_do_send_round`, :429-525, for a paused feeder :326-345
  (the message is removed from the queue and -1 returned);
* `relock`: :600-603; `finish`: :604-634. -/
def Sq.step (s : Sq) : SqOp → Option (Sq × List SqEvent)
  | .add c m =>
    if !s.mutexFree then some (s, [])
    else if s.ready c then
      some ({ s with chans := putAt s.chans c ((s.chans c).queue m) }, [.queued c m])
    else if !(s.chans c).win.stalled then
      some ({ s with ready := putAt s.ready c true, adding := some (c, m) }, [])
    else some ({ s with adding := some (c, m) }, [])
  | .addEnd =>
    match s.adding with
    | none => some (s, [])
    | some (c, m) =>
      some ({ s with chans := putAt s.chans c ((s.chans c).queue m), adding := none },
        [.queued c m])
  | .seq c ackno window =>
    if s.reader ≠ .idle then some (s, [])
    else match (s.chans c).win.grant (u32 ackno) (u32 window) with
      | none => none
      | some w => some ({ s with chans := putAt s.chans c { s.chans c with win := w },
                                 reader := .checking c }, [])
  | .check =>
    match s.reader with
    | .checking c =>
      some ({ s with reader := if (s.chans c).pending.isEmpty then .idle else .locking c }, [])
    | _ => some (s, [])
  | .insert =>
    match s.reader with
    | .locking c =>
      if s.mutexFree then some ({ s with ready := putAt s.ready c true, reader := .idle }, [])
      else some (s, [])
    | _ => some (s, [])
  | .visit c =>
    if s.sender ≠ .idle ∨ !s.mutexFree ∨ !s.ready c then some (s, [])
    else if (s.chans c).win.stalled then some ({ s with ready := putAt s.ready c false }, [])
    else some ({ s with sender := .sending c }, [])
  | .round paused =>
    match s.sender with
    | .sending c =>
      match (s.chans c).pending with
      | [] => some ({ s with sender := .sent c false false }, [])
      | p :: ps =>
        if paused then
          some ({ s with chans := putAt s.chans c { s.chans c with pending := ps },
                         sender := .sent c false true }, [])
        else match sendRound (s.chans c).win p with
          | .shutdown => none
          | .sent f complete w p' =>
            some ({ s with chans := putAt s.chans c ⟨w, (if complete then p else p') :: ps⟩,
                           sender := .sent c complete false }, [.frame c f])
    | _ => some (s, [])
  | .relock =>
    match s.sender with
    | .sent c complete paused =>
      if s.mutexFree then
        some ({ s with sender := .locked c complete paused (s.chans c).win.stalled }, [])
      else some (s, [])
    | _ => some (s, [])
  | .finish =>
    match s.sender with
    | .locked c complete paused stalled =>
      let ps := if complete then (s.chans c).pending.tail else (s.chans c).pending
      let isEmpty := complete && ps.isEmpty
      some ({ s with chans := putAt s.chans c { s.chans c with pending := ps }
                     ready := if isEmpty || stalled || paused then putAt s.ready c false
                              else s.ready
                     sender := .idle }, [])
    | _ => some (s, [])

/-- Run steps until the end of the list or until the connection is shut down. -/
def Sq.run (s : Sq) : List SqOp → Option Sq × List SqEvent
  | [] => (some s, [])
  | op :: ops =>
    match s.step op with
    | none => (none, [])
    | some (s', ev) =>
      let (r, evs) := s'.run ops
      (r, ev ++ evs)

end Verif.Model
