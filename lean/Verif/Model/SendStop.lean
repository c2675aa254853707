/-!
# Sending while a context ends (src/vortex_sequencer.c:53-215, 642-787, src/vortex.c:1139-1184)

Threads of the application and of the pool (which ends after the sending thread) send messages while `vortex_exit_ctx` stops the thread that
writes them. Messages are numbered in the order of the calls. Simplified: one channel that is never stalled; the thread writes a message at
a time, and holds the mutex of its state only inside a step.
-/
namespace Verif.Model

inductive QsSender
  | idle
  /-- the checks of `vortex_sequencer_queue_data`, :152, were passed with this message -/
  | checked (m : Nat)
  /-- `ctx->sequencer_state` was read, :92; NULL or not -/
  | got (m : Nat) (null : Bool)
  /-- it holds the mutex -/
  | locked (m : Nat)
  /-- the message is queued, the thread that writes is not yet signalled -/
  | queued
  deriving DecidableEq, Repr

inductive QsStop
  | none
  /-- `ctx->vortex_exit` is set; `state->exit` is set; the thread was joined; the state is released; the pointer is NULL -/
  | exiting | signalled | joined | freed | nulled
  deriving DecidableEq, Repr

structure Qs where
  stop : QsStop
  /-- the thread that writes messages ended -/
  ended : Bool
  owner : Option Nat
  senders : Nat → QsSender
  next : Nat
  /-- messages in the channel; all messages ever queued; messages written; messages that the call refused -/
  pending : List Nat
  accepted : List Nat
  written : List Nat
  refused : List Nat
  /-- memory that was released, or NULL, was used -/
  bad : Bool

def Qs.init : Qs := ⟨.none, false, none, fun _ => .idle, 0, [], [], [], [], false⟩

inductive QsOp
  /-- a thread that sends -/
  | send (t : Nat) | get (t : Nat) | lock (t : Nat) | add (t : Nat) | signal (t : Nat)
  /-- the thread that writes messages goes on -/
  | writer
  /-- `vortex_exit_ctx`, `vortex_sequencer_stop` -/
  | exit | stop | join | free | null
  deriving DecidableEq, Repr

def Qs.setSender (s : Qs) (t : Nat) (x : QsSender) : Qs := { s with senders := fun u => if u = t then x else s.senders u }

def Qs.step (s : Qs) : QsOp → Qs
  -- `vortex_sequencer_queue_data`, :145-157
  | .send t =>
    match s.senders t with
    | .idle =>
      if s.stop = .none then { s with next := s.next + 1 }.setSender t (.checked s.next)
      else { s with next := s.next + 1, refused := s.refused ++ [s.next] }
    | _ => s
  -- `vortex_sequencer_add_channel`, :92
  | .get t =>
    match s.senders t with
    | .checked m => s.setSender t (.got m (decide (s.stop = .nulled)))
    | _ => s
  -- :95
  | .lock t =>
    match s.senders t with
    | .got m null =>
      if null ∨ s.stop = .freed ∨ s.stop = .nulled then { s with bad := true }.setSender t .idle
      else if s.owner = none then { s with owner := some t }.setSender t (.locked m)
      else s
    | _ => s
  -- :97-130
  | .add t =>
    match s.senders t with
    | .locked m =>
      { s with pending := s.pending ++ [m], accepted := s.accepted ++ [m], owner := none }.setSender t .queued
    | _ => s
  -- `vortex_sequencer_signal`, :135-143
  | .signal t =>
    match s.senders t with
    | .queued => { s with bad := s.bad || (s.stop == QsStop.freed) }.setSender t .idle
    | _ => s
  -- `__vortex_sequencer_run`, :654-686
  | .writer =>
    if s.ended ∨ s.owner ≠ none then s
    else match s.stop, s.pending with
      | .none, m :: rest => { s with pending := rest, written := s.written ++ [m] }
      | .exiting, m :: rest => { s with pending := rest, written := s.written ++ [m] }
      | .none, [] => s
      | .exiting, [] => s
      | _, _ => { s with ended := true }
  -- src/vortex.c:1153-1162
  | .exit => if s.stop = .none then { s with stop := .exiting } else s
  -- src/vortex_sequencer.c:769-772
  | .stop => if s.stop = .exiting ∧ s.owner = none then { s with stop := .signalled } else s
  -- :776
  | .join => if s.stop = .signalled ∧ s.ended then { s with stop := .joined } else s
  -- :779, `vortex_sequencer_release_state`, :55-66; a mutex that is locked is destroyed
  | .free => if s.stop = .joined then { s with stop := .freed, bad := s.bad || decide (s.owner ≠ none) } else s
  -- :780
  | .null => if s.stop = .freed then { s with stop := .nulled } else s

def Qs.run (s : Qs) (ops : List QsOp) : Qs := ops.foldl Qs.step s

end Verif.Model
