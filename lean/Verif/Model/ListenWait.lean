/-!
# Waiting for listeners to end (src/vortex_listener.c:1399-1484, 896-904)

Any number of threads in `vortex_listener_wait`, and threads that call `vortex_listener_unlock` or fail to start a listener. A step
is one access to something that threads share. `none` is the outcome of a step that uses a queue already released.
Simplified: memory for queues is available; queues are modelled by the three counters that matter.
-/
namespace Verif.Model

/-- `VortexAsyncQueue`: `reference`, items, `waiters`. A queue with no references is released. -/
structure LwQueue where
  refs : Nat
  items : Nat
  waiters : Nat
  deriving DecidableEq, Repr

/-- Where a thread is in `vortex_listener_wait`. -/
inductive LwPc
  | out
  /-- it has `listener_mutex`, and the skip flag was not set (line 1411) -/
  | checked
  /-- the mutex is released (line 1424) -/
  | entered
  /-- it saw a queue (line 1428) -/
  | saw
  /-- it has the queue in `temp` (line 1430) -/
  | holds (q : Nat)
  /-- in `vortex_async_queue_pop`, counted as waiter (line 1433) -/
  | blocked (q : Nat)
  /-- `vortex_async_queue_pop` returned -/
  | popped (q : Nat)
  deriving DecidableEq, Repr

/-- Where the thread that has the mutex `listener_unlock` is. -/
inductive LwUnlock
  /-- a queue was found (line 1456) -/
  | found
  /-- it has waiters (line 1462) -/
  | push
  /-- it has none (line 1464) -/
  | unref
  /-- about to forget the queue (line 1470 or 902) -/
  | clear
  /-- no queue was found (line 1474) -/
  | noQueue
  /-- a listener could not be started (line 900) -/
  | failing
  deriving DecidableEq, Repr

inductive LwEvent
  /-- `vortex_listener_wait` returns to thread `i` -/
  | returned (i : Nat)
  /-- `vortex_listener_unlock` returns, or the failure was notified -/
  | unlocked
  deriving DecidableEq, Repr

structure ListenWait where
  /-- the data `vo:listener:skip:wait` of the context -/
  skip : Bool
  /-- `ctx->listener_wait_lock` -/
  lock : Option Nat
  queues : Nat → LwQueue
  /-- the number of queues created -/
  next : Nat
  /-- who has `ctx->listener_mutex` -/
  mutex : Option Nat
  waiting : Nat → LwPc
  /-- the thread that has `ctx->listener_unlock` -/
  unlocker : Option LwUnlock

def ListenWait.init : ListenWait := ⟨false, none, fun _ => ⟨0, 0, 0⟩, 0, none, fun _ => .out, none⟩

inductive LwOp
  /-- the next step of thread `i` in `vortex_listener_wait`, or its call -/
  | wait (i : Nat)
  /-- a call to `vortex_listener_unlock` gets its mutex -/
  | unlock
  /-- a listener that cannot be started gets the mutex -/
  | fail
  /-- the next step of the thread that has the mutex `listener_unlock` -/
  | go
  deriving DecidableEq, Repr

/-- Thread `i` is now at `pc`. -/
def ListenWait.at (s : ListenWait) (i : Nat) (pc : LwPc) : ListenWait :=
  { s with waiting := fun j => if j = i then pc else s.waiting j }

/-- Queue `q` is now `v`. -/
def ListenWait.put (s : ListenWait) (q : Nat) (v : LwQueue) : ListenWait :=
  { s with queues := fun j => if j = q then v else s.queues j }

/-- `vortex_listener_wait`, src/vortex_listener.c:1399-1440, with `vortex_async_queue_pop` and `vortex_async_queue_unref`,
src/vortex_thread.c:1160-1188, 1430-1465, which do nothing for NULL. -/
def ListenWait.waitStep (s : ListenWait) (i : Nat) : Option (ListenWait × List LwEvent) :=
  match s.waiting i with
  | .out =>
    if s.mutex.isSome then some (s, [])
    else if s.skip then some (s, [.returned i])
    else some ({ s with mutex := some i }.at i .checked, [])
  | .checked =>
    match s.lock with
    | none => some (({ s with mutex := none, lock := some s.next, next := s.next + 1 }.put s.next ⟨1, 0, 0⟩).at i .entered, [])
    | some _ => some ({ s with mutex := none }.at i .entered, [])
  | .entered =>
    match s.lock with
    | none => some (s.at i .out, [.returned i])
    | some _ => some (s.at i .saw, [])
  | .saw =>
    match s.lock with
    | none => some (s.at i .out, [.returned i])
    | some q => some (s.at i (.holds q), [])
  | .holds q =>
    if (s.queues q).refs = 0 then none
    else some ((s.put q { s.queues q with waiters := (s.queues q).waiters + 1 }).at i (.blocked q), [])
  | .blocked q =>
    if (s.queues q).refs = 0 then none
    else if (s.queues q).items = 0 then some (s, [])
    else some ((s.put q { s.queues q with items := (s.queues q).items - 1, waiters := (s.queues q).waiters - 1 }).at i (.popped q), [])
  | .popped q =>
    if (s.queues q).refs = 0 then none
    else some ((s.put q { s.queues q with refs := (s.queues q).refs - 1 }).at i .out, [.returned i])

/-- `vortex_listener_unlock` with its mutex, src/vortex_listener.c:1455-1483, and the failure of
`__vortex_listener_new_common`, src/vortex_listener.c:900-903. -/
def ListenWait.goStep (s : ListenWait) : Option (ListenWait × List LwEvent) :=
  match s.unlocker with
  | none => some (s, [])
  | some .found =>
    match s.lock with
    | none => some ({ s with unlocker := some .unref }, [])
    | some q =>
      if (s.queues q).refs = 0 then none
      else some ({ s with unlocker := some (if (s.queues q).waiters > 0 then .push else .unref) }, [])
  | some .push | some .failing =>
    match s.lock with
    | none => some ({ s with unlocker := some .clear }, [])
    | some q =>
      if (s.queues q).refs = 0 then none
      else some ({ s with unlocker := some .clear }.put q { s.queues q with items := (s.queues q).items + 1 }, [])
  | some .unref =>
    match s.lock with
    | none => some ({ s with unlocker := some .clear }, [])
    | some q =>
      if (s.queues q).refs = 0 then none
      else some ({ s with unlocker := some .clear }.put q { s.queues q with refs := (s.queues q).refs - 1 }, [])
  | some .clear => some ({ s with lock := none, unlocker := none }, [.unlocked])
  | some .noQueue => some ({ s with skip := true, unlocker := none }, [.unlocked])

def ListenWait.step (s : ListenWait) : LwOp → Option (ListenWait × List LwEvent)
  | .wait i => s.waitStep i
  | .unlock =>
    if s.unlocker.isSome then some (s, [])
    else some ({ s with unlocker := some (if s.lock.isSome then .found else .noQueue) }, [])
  | .fail => if s.unlocker.isSome then some (s, []) else some ({ s with unlocker := some .failing }, [])
  | .go => s.goStep

/-- A schedule: the state at its end and what was observed; `none` if a released queue was used. -/
def ListenWait.run (s : ListenWait) : List LwOp → Option (ListenWait × List LwEvent)
  | [] => some (s, [])
  | op :: ops =>
    match s.step op with
    | none => none
    | some r =>
      match r.1.run ops with
      | none => none
      | some q => some (q.1, r.2 ++ q.2)

end Verif.Model
