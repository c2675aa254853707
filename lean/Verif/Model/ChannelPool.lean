import Verif.Model.WaitReply
/-!
# Channel pools (src/vortex_channel_pool.c)

The threads that use one channel pool. Channels are numbered in order of creation. Each critical section
(`vortex_connection_lock_channel_pool`) is one step.
-/
namespace Verif.Model

/-- Where a thread is in `vortex_channel_pool_get_next_ready_full`, src/vortex_channel_pool.c:1252-1307. -/
inductive ChPoolGet
  /-- line 1282: nothing found -/
  | none (autoInc : Bool)
  /-- line 1293: a channel was found or created -/
  | found (c : Nat)
  deriving DecidableEq, Repr

structure ChPool where
  /-- `pool->channels` -/
  channels : List Nat
  /-- channels created -/
  created : Nat
  /-- data "status_busy" of the channel -/
  busy : Nat → Bool
  /-- the channel is opened, is not being closed and has no message in course
  (`__vortex_channel_pool_is_ready`, src/vortex_channel_pool.c:119-121) -/
  idle : Nat → Bool
  /-- channels closed by the pool, which drops its reference -/
  closed : List Nat
  /-- threads in `vortex_channel_pool_get_next_ready_full` -/
  gets : List ChPoolGet

def ChPool.init : ChPool := ⟨[], 0, fun _ => false, fun _ => false, [], []⟩

inductive ChPoolEvent
  /-- `vortex_channel_pool_get_next_ready_full` returns this channel -/
  | given (c : Nat)
  /-- it returns NULL -/
  | nothing
  /-- the application calls `vortex_channel_pool_release_channel` -/
  | released (c : Nat)
  /-- the pool closes the channel -/
  | dropped (c : Nat)
  deriving DecidableEq, Repr

inductive ChPoolOp
  /-- `vortex_channel_pool_add`, one channel -/
  | add
  /-- the application makes a channel by itself -/
  | make
  /-- a thread calls `vortex_channel_pool_get_next_ready` -/
  | get (autoInc : Bool)
  /-- the `i`-th thread in there goes on; `ok`: the channel it needs can be created -/
  | advance (i : Nat) (ok : Bool)
  | release (c : Nat)
  | remove (n : Nat)
  | attach (c : Nat)
  | deattach (c : Nat)
  /-- the channel starts or ends to be in use, or is closed by the peer -/
  | setIdle (c : Nat) (b : Bool)
  deriving DecidableEq, Repr

/-- `__vortex_channel_pool_is_ready`, src/vortex_channel_pool.c:116-123. -/
def ChPool.ready (p : ChPool) (c : Nat) : Bool := p.idle c && !p.busy c

/-- One turn of the loop of `__vortex_channel_pool_add_channels`, src/vortex_channel_pool.c:150-207: a channel
is created and added at the end of the list. -/
def ChPool.addChannel (p : ChPool) : ChPool :=
  { p with channels := p.channels ++ [p.created], created := p.created + 1, idle := putAt p.idle p.created true }

/-- The loop of `__vortex_channel_pool_remove`, src/vortex_channel_pool.c:704-741: the channels that stay and
those closed. -/
def ChPool.removeReady (p : ChPool) : Nat → List Nat → List Nat × List Nat
  | 0, l => (l, [])
  | _, [] => ([], [])
  | n + 1, c :: l =>
    if p.ready c then
      let r := p.removeReady n l
      (r.1, c :: r.2)
    else
      let r := p.removeReady (n + 1) l
      (c :: r.1, r.2)

def ChPool.step (p : ChPool) : ChPoolOp → List ChPoolEvent × ChPool
  | .add => ([], p.addChannel)
  | .make => ([], { p with created := p.created + 1, idle := putAt p.idle p.created true })
  -- lines 1271-1280
  | .get autoInc =>
    match p.channels.find? p.ready with
    | some c => ([], { p with gets := p.gets ++ [.found c] })
    | none => ([], { p with gets := p.gets ++ [.none autoInc] })
  -- lines 1282-1306
  | .advance i ok =>
    match p.gets[i]? with
    | none => ([], p)
    | some (.none autoInc) =>
      if autoInc && ok then ([], { p.addChannel with gets := p.gets.set i (.found p.created) })
      else ([.nothing], { p with gets := p.gets.eraseIdx i })
    | some (.found c) => ([.given c], { p with gets := p.gets.eraseIdx i, busy := putAt p.busy c true })
  -- lines 1321-1365
  | .release c =>
    ([.released c], if p.channels.contains c then { p with busy := putAt p.busy c false } else p)
  -- lines 687-779
  | .remove n =>
    let r := p.removeReady n p.channels
    (r.2.map .dropped, { p with channels := r.1, closed := p.closed ++ r.2 })
  -- lines 985-1021
  | .attach c =>
    ([], if p.channels.contains c || p.created ≤ c then p else { p with channels := p.channels ++ [c] })
  -- lines 1036-1103
  | .deattach c => ([], { p with channels := p.channels.erase c })
  | .setIdle c b => ([], { p with idle := putAt p.idle c b })

def ChPool.run (p : ChPool) : List ChPoolOp → List ChPoolEvent × ChPool
  | [] => ([], p)
  | op :: ops =>
    let r := p.step op
    let q := r.2.run ops
    (r.1 ++ q.1, q.2)

end Verif.Model
