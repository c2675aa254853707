/-!
# The loop of the reader thread (src/vortex_reader.c:646-1848)

One reader thread watches connections and listeners. Other threads register them through a queue. Simplified: the wait
mechanism has a dispatch function (poll, epoll; src/vortex_io.c:502-577, 807-883); the clean-up of wrong descriptors
(src/vortex_reader.c:1416-1421) is left out; the handler given to `vortex_reader_foreach` closes no connection before the
loop gets to it; memory for queue items is available.
-/
namespace Verif.Model

/-- A connection or listener as far as the reader cares. -/
structure WatchConn where
  /-- `vortex_connection_is_ok` -/
  ok : Bool
  /-- `reader_unwatch` -/
  unwatch : Bool
  /-- `vortex_connection_is_blocked` -/
  blocked : Bool
  /-- the references the reader has: taken by `vortex_reader_watch_connection`, or handed over with a listener -/
  refs : Nat
  deriving DecidableEq, Repr

/-- `VortexReaderData`, src/vortex_reader.c (types `WatchType`): the items of `ctx->reader_queue`. -/
inductive WatchItem
  | conn (c : Nat)
  | listener (c : Nat)
  | terminate
  | ioChanged
  | ioReady
  | foreach (k : Nat)
  deriving DecidableEq, Repr

/-- Where the reader thread is. -/
inductive WatchPhase
  /-- taking an item in `vortex_reader_read_queue`, :885 -/
  | first
  /-- taking an item in `__vortex_reader_change_io_mech`, called from there, :760 -/
  | firstChange
  /-- at the beginning of the loop, :1399 -/
  | scan
  /-- waiting for the set of connections built, :1424 -/
  | wait (set : List Nat)
  /-- calling the handlers of those that can be read, :1462 -/
  | dispatch (todo : List Nat)
  /-- in `vortex_reader_read_pending` with `n` items to take, and the value of `should_continue`, :934 -/
  | pending (n : Nat) (go : Bool)
  /-- taking an item in `__vortex_reader_change_io_mech`, called from there -/
  | change (n : Nat) (go : Bool)
  | stopped
  deriving DecidableEq, Repr

/-- What can be observed. -/
inductive WatchEvent
  /-- data of the connection is read, or connections of the listener are accepted -/
  | process (c : Nat)
  /-- the reader drops its reference -/
  | drop (c : Nat)
  /-- the reader shuts the connection down -/
  | shut (c : Nat)
  /-- the handler of a `vortex_reader_foreach` is called -/
  | visit (k c : Nat)
  /-- the caller of a `vortex_reader_foreach` is notified -/
  | done (k : Nat)
  /-- the reader takes the request to end -/
  | took
  /-- the handler set with `vortex_ctx_set_on_finish` is called -/
  | finish
  /-- the thread that called `vortex_reader_stop` is notified -/
  | stopped
  deriving DecidableEq, Repr

/-- The thread that changes the wait mechanism (one at a time), `vortex_io_waiting_use`, src/vortex_io.c:918-1036. -/
inductive WatchUser
  | idle
  /-- waits for the reader, src/vortex_reader.c:1724 -/
  | asked (m : Nat)
  /-- the functions are changed, the reader is to be told, src/vortex_io.c:1029 -/
  | changed
  deriving DecidableEq, Repr

structure Watch where
  conns : Nat → WatchConn
  /-- `ctx->reader_queue` -/
  queue : List WatchItem
  /-- `ctx->conn_list` -/
  conList : List Nat
  /-- `ctx->srv_list` -/
  srvList : List Nat
  phase : WatchPhase
  /-- the functions in use (`ctx->waiting_create` and so on) -/
  mech : Nat
  /-- the functions `ctx->on_reading` was created with -/
  group : Option Nat
  /-- items of `ctx->reader_stopped` -/
  tokens : Nat
  user : WatchUser

/-- After `vortex_reader_run`, src/vortex_reader.c:1607-1657, and :1365-1387. -/
def Watch.init (conns : Nat → WatchConn) : Watch :=
  ⟨fun c => { conns c with refs := 0 }, [], [], [], .first, 0, some 0, 0, .idle⟩

def Watch.upd (s : Watch) (c : Nat) (f : WatchConn → WatchConn) : Watch :=
  { s with conns := fun d => if d = c then f (s.conns c) else s.conns d }

def WatchConn.unref (w : WatchConn) : WatchConn := { w with refs := w.refs - 1 }

/-- `vortex_reader_register_watch`, src/vortex_reader.c:679-730: the state, and the value returned. -/
def Watch.register (s : Watch) : WatchItem → Watch × Bool × List WatchEvent
  | .conn c =>
    if (s.conns c).ok then ({ s with conList := s.conList ++ [c] }, true, [])
    else (s.upd c .unref, false, [.drop c])
  | .listener c => ({ s with srvList := s.srvList ++ [c] }, true, [])
  | _ => (s, true, [])

/-- `vortex_reader_foreach_impl`, src/vortex_reader.c:774-823. -/
def Watch.foreachImpl (s : Watch) (k : Nat) : List WatchEvent :=
  (s.conList.filter fun c => (s.conns c).ok).map (.visit k) ++
  (s.srvList.filter fun c => (s.conns c).ok).map (.visit k) ++ [.done k]

/-- `__vortex_reader_build_set_to_watch_aux`, src/vortex_reader.c:968-1065, without the idle check: the connections, the
list left, the set to watch. `full`: the set does not take this connection. -/
def watchScan (full : Nat → Bool) : List Nat → (Nat → WatchConn) → (Nat → WatchConn) × List Nat × List Nat × List WatchEvent
  | [], f => (f, [], [], [])
  | c :: l, f =>
    let set (w : WatchConn) : Nat → WatchConn := fun d => if d = c then w else f d
    if !(f c).ok then
      let r := watchScan full l (set (f c).unref)
      (r.1, r.2.1, r.2.2.1, .drop c :: r.2.2.2)
    else if (f c).unwatch then
      let r := watchScan full l (set { (f c).unref with unwatch := false })
      (r.1, r.2.1, r.2.2.1, .drop c :: r.2.2.2)
    else if (f c).blocked then
      let r := watchScan full l f
      (r.1, c :: r.2.1, r.2.2.1, r.2.2.2)
    else if full c then
      let r := watchScan full l (set { (f c).unref with ok := false })
      (r.1, r.2.1, r.2.2.1, .shut c :: .drop c :: r.2.2.2)
    else
      let r := watchScan full l f
      (r.1, c :: r.2.1, c :: r.2.2.1, r.2.2.2)

/-- `__vortex_reader_close_connection` for all of a list (`axl_list_free`), src/vortex_reader.c:1240-1249. -/
def watchClose : List Nat → (Nat → WatchConn) → (Nat → WatchConn) × List WatchEvent
  | [], f => (f, [])
  | c :: l, f =>
    let r := watchClose l (fun d => if d = c then { (f c).unref with ok := false } else f d)
    (r.1, .shut c :: .drop c :: r.2)

/-- `__vortex_reader_stop_process`, src/vortex_reader.c:1208-1238. -/
def Watch.stopProcess (s : Watch) : Watch × List WatchEvent :=
  let a := watchClose s.srvList s.conns
  let b := watchClose s.conList a.1
  ({ s with conns := b.1, srvList := [], conList := [], phase := .stopped, group := none, tokens := s.tokens + 1 },
    a.2 ++ b.2 ++ [.stopped])

/-- What the reader finds: the connections the set does not take, and those that can be read (none: the time is over, or the
wait was interrupted, src/vortex_reader.c:1430-1455). -/
structure WatchEnv where
  full : Nat → Bool
  ready : Nat → Bool

/-- The reader thread goes on to the next point where it waits or calls a handler. `none`: the functions of one mechanism are
called for the set of another one, or without a set. Taking an item from an empty queue waits. -/
def Watch.reader (s : Watch) (e : WatchEnv) : Option (Watch × List WatchEvent) :=
  match s.phase with
  | .first =>
    -- `vortex_reader_read_queue`, :875-907, and :1391-1397
    match s.queue with
    | [] => some (s, [])
    | .terminate :: q => let r := { s with queue := q }.stopProcess; some (r.1, .took :: r.2)
    | .ioChanged :: q =>
      if s.group = some s.mech then some ({ s with queue := q, group := none, tokens := s.tokens + 1, phase := .firstChange }, [])
      else none
    | .foreach k :: q => some ({ s with queue := q, phase := .scan }, s.foreachImpl k)
    | i :: q =>
      let r := { s with queue := q }.register i
      some (if r.2.1 then { r.1 with phase := .scan } else r.1, r.2.2)
  | .firstChange =>
    match s.queue with
    | [] => some (s, [])
    | i :: q =>
      let r := { s with queue := q, group := some s.mech }.register i
      some ({ r.1 with phase := if r.2.1 then .scan else .first }, r.2.2)
  | .scan =>
    -- :1399-1415
    if s.group ≠ some s.mech then none
    else if s.conList = [] ∧ s.srvList = [] then some ({ s with phase := .first }, [.finish])
    else
      let a := watchScan e.full s.srvList s.conns
      let b := watchScan e.full s.conList a.1
      some ({ s with conns := b.1, srvList := a.2.1, conList := b.2.1, phase := .wait (a.2.2.1 ++ b.2.2.1) }, a.2.2.2 ++ b.2.2.2)
  | .wait set =>
    -- :1424-1470
    if s.group ≠ some s.mech then none
    else some ({ s with phase := .dispatch (set.filter e.ready) }, [])
  | .dispatch [] => some ({ s with phase := .pending s.queue.length true }, [])
  | .dispatch (c :: todo) => some ({ s with phase := .dispatch todo }, [.process c])
  | .pending 0 go => if go then some ({ s with phase := .scan }, []) else some s.stopProcess
  | .pending (n + 1) _ =>
    -- `vortex_reader_read_pending`, :923-962
    match s.queue with
    | [] => some (s, [])
    | .terminate :: q => some ({ s with queue := q, phase := .pending n false }, [.took])
    | .ioChanged :: q =>
      if s.group = some s.mech then some ({ s with queue := q, group := none, tokens := s.tokens + 1, phase := .change n true }, [])
      else none
    | .foreach k :: q => some ({ s with queue := q, phase := .pending n true }, s.foreachImpl k)
    | i :: q =>
      let r := { s with queue := q }.register i
      some ({ r.1 with phase := .pending n true }, r.2.2)
  | .change n go =>
    -- `__vortex_reader_change_io_mech`, :735-770; the item taken is only registered, :957
    match s.queue with
    | [] => some (s, [])
    | i :: q =>
      let r := { s with queue := q, group := some s.mech }.register i
      some ({ r.1 with phase := .pending n go }, r.2.2)
  | .stopped => some (s, [])

/-- What happens. -/
inductive WatchOp
  | reader (e : WatchEnv)
  /-- `vortex_reader_watch_connection`, src/vortex_reader.c:1526-1560 -/
  | watch (c : Nat)
  /-- `vortex_reader_watch_listener`, src/vortex_reader.c:1567-1583 -/
  | listen (c : Nat)
  /-- `vortex_reader_unwatch_connection`, src/vortex_reader.c:1511-1518 -/
  | unwatch (c : Nat)
  /-- `vortex_connection_block` -/
  | block (c : Nat) (b : Bool)
  /-- the connection is closed or breaks -/
  | close (c : Nat)
  /-- `vortex_reader_stop`, src/vortex_reader.c:1663-1677 -/
  | stop
  /-- `vortex_reader_foreach`, src/vortex_reader.c:1768-1794 -/
  | foreach (k : Nat)
  /-- `vortex_reader_notify_change_io_api`, src/vortex_reader.c:1704-1721, up to the wait -/
  | useBegin (m : Nat)
  /-- the wait is over (:1724), and the functions are set, src/vortex_io.c:949-1020 -/
  | useSet
  /-- `vortex_reader_notify_change_done_io_api`, src/vortex_reader.c:1735-1751 -/
  | useEnd

def Watch.push (s : Watch) (i : WatchItem) : Watch := { s with queue := s.queue ++ [i] }

def Watch.step (s : Watch) : WatchOp → Option (Watch × List WatchEvent)
  | .reader e => s.reader e
  | .watch c =>
    if (s.conns c).ok then some ((s.upd c fun w => { w with refs := w.refs + 1 }).push (.conn c), []) else some (s, [])
  | .listen c => some ((s.upd c fun w => { w with refs := w.refs + 1 }).push (.listener c), [])
  | .unwatch c => some (s.upd c fun w => { w with unwatch := true }, [])
  | .block c b => some (s.upd c fun w => { w with blocked := b }, [])
  | .close c => some (s.upd c fun w => { w with ok := false }, [])
  | .stop => some (s.push .terminate, [])
  | .foreach k => some (s.push (.foreach k), [])
  | .useBegin m => if s.user = .idle then some ({ s.push .ioChanged with user := .asked m }, []) else some (s, [])
  | .useSet =>
    match s.user with
    | .asked m => if 0 < s.tokens then some ({ s with mech := m, tokens := s.tokens - 1, user := .changed }, []) else some (s, [])
    | _ => some (s, [])
  | .useEnd => if s.user = .changed then some ({ s.push .ioReady with user := .idle }, []) else some (s, [])

/-- A history: the state at its end, and what was observed. -/
def Watch.run (s : Watch) : List WatchOp → Option (Watch × List WatchEvent)
  | [] => some (s, [])
  | op :: ops =>
    match s.step op with
    | none => none
    | some (t, l) => (t.run ops).map fun r => (r.1, l ++ r.2)

end Verif.Model
