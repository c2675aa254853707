/-!
# References of an asynchronous queue (C152)

`vortex_async_queue_new` (src/vortex_thread.c:1032-1052), `vortex_async_queue_ref` (:1380-1397), `vortex_async_queue_unref`
(:1430-1466) and `vortex_async_queue_safe_unref` (:1490-1530) for one queue and any number of variables that point to it.

Simplifications: a call is one step (the counter is changed with the lock of the queue); what the queue stores and waiting
threads are elsewhere (Verif/Model/Queue.lean).
-/
namespace Verif.Model

structure QrfState where
  /-- the variable points to the queue (otherwise it is NULL) -/
  ptr : Nat → Bool
  /-- `queue->reference` -/
  refs : Nat
  /-- the queue was released -/
  gone : Bool
  /-- the variables through which released memory was used -/
  bad : List Nat

inductive QrfOp
  /-- the pointer of `v` is copied to `w`, with a reference for it -/
  | share (v w : Nat)
  | unref (v : Nat)
  | safeUnref (v : Nat)
  /-- something is pushed, popped or counted -/
  | use (v : Nat)
  deriving DecidableEq, Repr

/-- `vortex_async_queue_new`: one reference, in variable 0. -/
def qrfInit : QrfState := ⟨fun v => decide (v = 0), 1, false, []⟩

/-- A variable is written. -/
def QrfState.put (s : QrfState) (v : Nat) (b : Bool) : QrfState := { s with ptr := fun k => if k = v then b else s.ptr k }

/-- One call; with NULL every function returns at once (`v_return_if_fail`). -/
def qrfStep (s : QrfState) : QrfOp → QrfState
  | .share v w =>
    if s.ptr v = false then s
    else if s.gone then { s with bad := s.bad ++ [v] }
    -- :1384-1391
    else ({ s with refs := s.refs + 1 } : QrfState).put w true
  | .unref v =>
    if s.ptr v = false then s
    else if s.gone then { s with bad := s.bad ++ [v] }
    -- :1438-1460
    else { s with refs := s.refs - 1, gone := decide (s.refs - 1 = 0) }
  | .safeUnref v =>
    if s.ptr v = false then s
    else if s.gone then { s with bad := s.bad ++ [v] }
    -- :1500-1523: the variable is written only if this was the last reference
    else if s.refs - 1 = 0 then ({ s with refs := s.refs - 1, gone := true } : QrfState).put v false
    else { s with refs := s.refs - 1 }
  | .use v =>
    if s.ptr v = false then s
    else if s.gone then { s with bad := s.bad ++ [v] } else s

def qrfRun (s : QrfState) : List QrfOp → QrfState
  | [] => s
  | op :: ops => qrfRun (qrfStep s op) ops

end Verif.Model
