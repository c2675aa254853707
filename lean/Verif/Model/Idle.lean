/-!
# Notifying connections without traffic (src/vortex_connection.c:4656-4732, src/vortex_ctx.c:457-545)

One connection that the reader watches (not a master listener), the handler of its context, and the thread pool. Simplified: the
clock does not go backwards; memory for tasks is available.
-/
namespace Verif.Model

/-- What can be observed, with the time, and for notifications the period in force. -/
inductive IdleEvent
  /-- the connection received or sent something, or was looked at for the first time -/
  | active (t : Nat)
  /-- the connection is found without traffic, and the handler is to be called -/
  | found (t period : Nat)
  /-- the handler is called -/
  | call (t period : Nat)
  /-- the handler returned -/
  | done (t : Nat)
  deriving DecidableEq, Repr

structure Idle where
  /-- `ctx->global_idle_handler`, and `ctx->max_idle_period` -/
  handler : Option Nat
  /-- `time (NULL)` -/
  now : Nat
  /-- `conn->last_idle_stamp` -/
  stamp : Nat
  /-- the data `vo:co:idle` of the connection -/
  flagged : Bool
  /-- tasks that wait for a thread -/
  queued : Nat
  /-- tasks in the handler -/
  running : Nat
  /-- references to the connection taken for notifications -/
  refs : Nat
  /-- `ctx->thread_pool_being_stopped` -/
  stopping : Bool
  deriving DecidableEq, Repr

/-- A new connection; the clock shows some time. -/
def Idle.init (handler : Option Nat) (now : Nat) : Idle := ⟨handler, now, 0, false, 0, 0, 0, false⟩

/-- `vortex_connection_set_receive_stamp`, src/vortex_connection.c:4665-4675. -/
def Idle.touch (s : Idle) : Idle := { s with stamp := s.now }

inductive IdleOp
  /-- time goes by -/
  | tick (d : Nat)
  /-- octets are read or written, src/vortex_frame_factory.c:1289, 1404, 2038 -/
  | traffic
  /-- the reader looks, src/vortex_reader.c:979-990 -/
  | check
  /-- `vortex_ctx_set_idle_handler`, src/vortex_ctx.c:477-493 -/
  | set (handler : Option Nat)
  /-- a thread of the pool takes the task, src/vortex_ctx.c:495-507 -/
  | start
  /-- the handler returns, src/vortex_ctx.c:509-519 -/
  | finish
  /-- the thread pool is stopped -/
  | stopPool
  deriving DecidableEq, Repr

/-- `vortex_ctx_notify_idle`, src/vortex_ctx.c:525-545, and `vortex_thread_pool_new_task`, src/vortex_thread_pool.c:906-928. -/
def Idle.notify (s : Idle) (period : Nat) : Idle × List IdleEvent :=
  if s.flagged then (s, [])
  else ({ s with flagged := true, refs := s.refs + 1, queued := if s.stopping then s.queued else s.queued + 1 }, [.found s.now period])

def Idle.step (s : Idle) : IdleOp → Idle × List IdleEvent
  | .tick d => ({ s with now := s.now + d }, [])
  | .traffic => (s.touch, [.active s.now])
  | .check =>
    -- `vortex_connection_check_idle_status`, src/vortex_connection.c:4711-4732
    match s.handler with
    | none => (s, [])
    | some period =>
      if s.stamp = 0 then (s.touch, [.active s.now])
      else if s.now - s.stamp > period then s.notify period
      else (s, [])
  | .set h => ({ s with handler := h }, [])
  | .start =>
    -- `__vortex_ctx_notify_idle`: without handler the function returns at once, src/vortex_ctx.c:500-502
    if s.queued = 0 then (s, [])
    else
      match s.handler with
      | none => ({ s with queued := s.queued - 1 }, [])
      | some period => ({ s with queued := s.queued - 1, running := s.running + 1 }, [.call s.now period])
  | .finish =>
    if s.running = 0 then (s, [])
    else ({ s.touch with flagged := false, running := s.running - 1, refs := s.refs - 1 }, [.done s.now])
  | .stopPool => ({ s with stopping := true }, [])

/-- A history: the state at its end, and what was observed. -/
def Idle.run (s : Idle) : List IdleOp → Idle × List IdleEvent
  | [] => (s, [])
  | op :: ops => let r := s.step op; let q := r.1.run ops; (q.1, r.2 ++ q.2)

end Verif.Model
