/-!
# Who runs Lua code

Models the lock of every Lua state, `lua-vortex/src/lua-vortex.c` 763-873, the
functions that take and release it: `luaopen_vortex` (1213-1224), the functions
that call handlers (for example `lua-vortex-channel.c` 369-427, all are alike),
`asyncqueue:pop`, `asyncqueue:timedpop` (`lua-vortex-asyncqueue.c` 108-190),
`ctx:exit` (`lua-vortex-ctx.c` 108-148), `tls.start_tls` (`lua-vortex-tls.c`
136-190), `connection:channel_pool_new` (`lua-vortex-connection.c` 475-538) with its
create handler (`lua-vortex-channelpool.c` 117-186), `vortex.yield` (880-930),
`vortex.wait_events` (987-1044), `vortex.wait_listeners` (1141-1171); and the Lua
state of a handler, `lua_vortex_create_thread` (570-636): every thread of the
library has its own; a handler belongs to the state it was given from (`ref->L`,
657); and the release of what was kept for a connection, a channel or the context,
which is done without a lock by the thread that releases it (`lua_vortex_unref`,
668-677, as in `lua-vortex-connection.c` 502-503).

Simplified: the library was loaded by thread 0, whose Lua state is 0; the state
of thread `t` is `t`; the descriptor of `event_fd` and the end of the context are
left out, as are functions that wait for the peer with the lock; a wait may end at any time; the create handler of a pool does not wait.
Two threads that run Lua at the same time use the same global state.
-/
namespace Verif.Model

/-- Functions that wait. -/
inductive LlkWait
  /-- `pop`, `timedpop`, `exit`, `start_tls` -/
  | pop
  /-- `channel_pool_new` -/
  | pool
  /-- `vortex.yield` -/
  | yield
  /-- `vortex.wait_events` -/
  | events
  /-- `vortex.wait_listeners` -/
  | listeners
deriving DecidableEq, Repr

/-- What a thread does: nothing in Lua, Lua code (of a handler that belongs to
state `home`; 0 for thread 0), waits in a function, Lua code called by that
function, the release of references, which changes the global state. -/
inductive LlkAt
  | out
  | lua (home : Nat)
  | wait (k : LlkWait) (home : Nat)
  | inner (home : Nat)
  | touch
deriving DecidableEq, Repr

/-- The lock of every Lua state (none: not made yet; else the thread that has
it), what every thread does, the states handlers were given from, whether a lock was
released by a thread that did not have it. -/
structure LlkState where
  locks : Nat → Option (Option Nat)
  places : Nat → LlkAt
  regs : List Nat
  bad : Bool

/-- One step of a thread. -/
inductive LlkOp
  /-- Lua code in thread `t` gives a handler to the library -/
  | register (t : Nat)
  /-- thread `t` of the library calls a handler that belongs to state `r` -/
  | start (t r : Nat)
  /-- that handler returns -/
  | finish (t : Nat)
  /-- Lua code calls a function that waits -/
  | pause (t : Nat) (k : LlkWait)
  /-- which returns -/
  | back (t : Nat)
  /-- the create handler is called, and returns -/
  | callback (t : Nat)
  | callbackEnd (t : Nat)
  /-- a thread of the library releases references, and is done -/
  | release (t : Nat)
  | releaseEnd (t : Nat)
deriving DecidableEq, Repr

/-- A function but for one argument. -/
def llkSet {α : Type} (f : Nat → α) (i : Nat) (v : α) : Nat → α := fun j => if j = i then v else f j

/-- `lua_vortex_lock`, 826-846: possible if nobody has the lock, which is made if need be. -/
def llkLock (s : LlkState) (t r : Nat) : Option LlkState :=
  match s.locks r with
  | some (some _) => none
  | _ => some { s with locks := llkSet s.locks r (some (some t)) }

/-- `lua_vortex_unlock`, 851-873: nothing if there is no lock. -/
def llkUnlock (s : LlkState) (t r : Nat) : LlkState :=
  match s.locks r with
  | none => s
  | some h => { s with locks := llkSet s.locks r (some none), bad := s.bad || decide (h ≠ some t) }

/-- A thread goes elsewhere. -/
def llkGo (s : LlkState) (t : Nat) (a : LlkAt) : LlkState := { s with places := llkSet s.places t a }

/-- One step, if it is possible. -/
def llkStep (s : LlkState) : LlkOp → Option LlkState
  | .register t =>
    match s.places t with
    | .lua _ => some { s with regs := s.regs ++ [t] }
    | .inner _ => some { s with regs := s.regs ++ [t] }
    | _ => none
  | .start t r =>
    if t ≠ 0 ∧ r ∈ s.regs ∧ s.places t = .out then (llkLock s t r).map (fun s => llkGo s t (.lua r)) else none
  | .finish t =>
    match s.places t with
    | .lua r => if t = 0 then none else some (llkGo (llkUnlock s t r) t .out)
    | _ => none
  | .pause t k =>
    match s.places t with
    | .lua r =>
      match k with
      -- the lock is not released
      | .events => some (llkGo s t (.wait .events r))
      -- 901: without a lock it returns at once
      | .yield => if s.locks t = none then some s else some (llkGo (llkUnlock s t t) t (.wait .yield r))
      -- the lock of the state of this thread
      | k => some (llkGo (llkUnlock s t t) t (.wait k r))
    | _ => none
  | .back t =>
    match s.places t with
    | .wait .events r => some (llkGo s t (.lua r))
    -- 1164-1171: the lock is not taken again
    | .wait .listeners r => some (llkGo s t (.lua r))
    | .wait _ r => (llkLock s t t).map (fun s => llkGo s t (.lua r))
    | _ => none
  | .callback t =>
    match s.places t with
    | .wait .pool r => some (llkGo s t (.inner r))
    | _ => none
  | .callbackEnd t =>
    match s.places t with
    | .inner r => some (llkGo s t (.wait .pool r))
    | _ => none
  | .release t => if t ≠ 0 ∧ s.places t = .out then some (llkGo s t .touch) else none
  | .releaseEnd t => if s.places t = .touch then some (llkGo s t .out) else none

/-- `luaopen_vortex`, 1224: thread 0 has the lock and runs Lua. -/
def llkInit : LlkState := ⟨llkSet (fun _ => none) 0 (some (some 0)), llkSet (fun _ => .out) 0 (.lua 0), [], false⟩

/-- A schedule, if it is possible. -/
def llkRun (s : LlkState) : List LlkOp → Option LlkState
  | [] => some s
  | op :: ops => (llkStep s op).bind (fun s => llkRun s ops)

end Verif.Model
