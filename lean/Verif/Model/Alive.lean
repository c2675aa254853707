import Verif.Model.CInt
/-!
# Alive check (alive/vortex_alive.c)

One connection on which `vortex_alive_enable_check` was called. The two periodic events, the answer to the
channel creation and what happens to the connection are atomic steps. Event periods are not modelled: a `tick`
is one run of the event installed, whenever it happens. Octet counters do not overflow.
-/
namespace Verif.Model

/-- The periodic event installed (`data->event_id`). -/
inductive AliveTimer
  | none
  /-- `__vortex_alive_create_channel` -/
  | create
  /-- `__vortex_alive_do_check` -/
  | check
  deriving DecidableEq, Repr

/-- `VortexAliveData`, alive/vortex_alive.c:52-64, with the state of its connection and channel. -/
structure Alive where
  /-- `check_period`, microseconds -/
  period : Nat
  /-- `max_unreply_count` -/
  maxUnreply : Nat
  /-- a `failure_handler` is defined -/
  handler : Bool
  /-- `max_failure_period`, seconds -/
  limit : Int
  /-- `vortex_connection_is_ok` -/
  connOk : Bool
  /-- `data->conn == NULL`: the check is over -/
  gone : Bool
  /-- octets received on the connection -/
  bytes : Nat
  /-- `data->bytes_received` -/
  seen : Nat
  /-- `data->channel != NULL` -/
  channel : Bool
  /-- the channel accepts messages -/
  opened : Bool
  /-- `channel_in_progress` -/
  inProgress : Bool
  /-- `channel_tries` -/
  tries : Int
  timer : AliveTimer
  /-- outstanding messages of the channel -/
  outstanding : Nat
  /-- seconds since `when_started` -/
  clock : Nat
  deriving DecidableEq, Repr

/-- What can be seen from outside. -/
inductive AliveEvent
  /-- octets arrive -/
  | octets
  /-- a period starts: the event runs, or the channel is ready and checks start -/
  | period
  /-- the creation of the channel is requested -/
  | starting
  /-- the channel is ready -/
  | ready
  /-- a probe is sent -/
  | probe
  /-- the answer to a probe arrives -/
  | answer
  /-- the failure handler is called, or the connection is shut down -/
  | failed
  deriving DecidableEq, Repr

inductive AliveOp
  /-- the periodic event runs -/
  | tick
  /-- `n + 1` octets arrive, not the answer to a probe -/
  | octets (n : Nat)
  /-- the answer to a probe arrives, `n + 1` octets -/
  | answer (n : Nat)
  /-- the answer to the creation of the channel: `ok` if it was created -/
  | created (ok : Bool)
  /-- the peer closes the channel (`n + 1` octets) -/
  | chanClosed (n : Nat)
  /-- the connection breaks and its close handlers run -/
  | connClosed
  /-- time passes -/
  | wait (secs : Nat)
  deriving DecidableEq, Repr

/-- `vortex_alive_enable_check`, alive/vortex_alive.c:486-543; `bytes` octets were received before.
The product does not overflow a `long`. -/
def Alive.enable (period maxUnreply : Nat) (handler : Bool) (bytes : Nat) : Option Alive :=
  if period = 0 then none
  else
    let l := i32 (maxUnreply * period / 1000000 : Nat)
    some { period, maxUnreply, handler, limit := if l < 3 then 3 else l, connOk := true, gone := false, bytes,
           seen := bytes, channel := false, opened := false, inProgress := false, tries := 0, timer := .create,
           outstanding := 0, clock := 0 }

/-- `__vortex_alive_found_activity`, alive/vortex_alive.c:171-191. -/
def Alive.activity (a : Alive) : Bool × Alive :=
  if a.seen < a.bytes then (true, { a with seen := a.bytes }) else (false, a)

/-- `__vortex_alive_trigger_failure`, alive/vortex_alive.c:197-242, and the removal of the event that its
callers request. -/
def Alive.fail (a : Alive) : Alive :=
  { a with connOk := a.handler, gone := true, timer := .none, channel := false }

def Alive.step (a : Alive) : AliveOp → List AliveEvent × Alive
  | .tick =>
    match a.timer with
    | .none => ([], a)
    -- `__vortex_alive_create_channel`, lines 357-431
    | .create =>
      if !a.connOk then ([], { a with timer := .none })
      else if a.channel then ([], { a with timer := .none })
      else if !a.inProgress then
        ([.period, .starting],
         { a with inProgress := true, tries := if a.period ≤ 40000 then a.maxUnreply + 10 else a.tries })
      else
        let r := a.activity
        if r.1 then ([.period], r.2)
        else if a.limit ≤ a.clock then ([.period, .failed], a.fail)
        else
          let a : Alive := { a with tries := a.tries - 1 }
          if a.tries = 0 then ([.period, .failed], a.fail) else ([.period], a)
    -- `__vortex_alive_do_check`, lines 249-290
    | .check =>
      if !a.connOk then ([], { a with timer := .none })
      else
        let r := a.activity
        if r.1 then ([.period], r.2)
        else if a.maxUnreply ≤ a.outstanding then ([.period, .failed], a.fail)
        else if !a.opened then ([.period], { a with timer := .none })
        else ([.period, .probe], { a with outstanding := a.outstanding + 1 })
  | .octets n => if a.connOk then ([.octets], { a with bytes := a.bytes + n + 1 }) else ([], a)
  | .answer n =>
    if a.connOk && a.opened && 0 < a.outstanding then
      ([.octets, .answer], { a with bytes := a.bytes + n + 1, outstanding := a.outstanding - 1 })
    else ([], a)
  -- `__vortex_alive_channel_created`, lines 292-355; with no channel, `vortex_channel_ref2` fails and the
  -- function returns, line 320
  | .created ok =>
    if !a.inProgress || a.timer ≠ .create then ([], a)
    else if ok && a.connOk then
      ([.period, .ready], { a.activity.2 with channel := true, opened := true, inProgress := false, timer := .check })
    else ([], { a with timer := .none })
  | .chanClosed n =>
    if a.connOk && a.opened then ([.octets], { a with bytes := a.bytes + n + 1, opened := false }) else ([], a)
  -- `__vortex_alive_connection_closed`, lines 121-135
  | .connClosed => ([], { a with connOk := false, gone := true, timer := .none })
  | .wait secs => ([], { a with clock := a.clock + secs })

def Alive.run (a : Alive) : List AliveOp → List AliveEvent × Alive
  | [] => ([], a)
  | op :: ops =>
    let r := a.step op
    let q := r.2.run ops
    (r.1 ++ q.1, q.2)

end Verif.Model
