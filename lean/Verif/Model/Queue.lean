/-!
# Queues (src/vortex_queue.c, src/vortex_thread.c)

The lists of the axl library (`axl_list_append`, `axl_list_prepend`, `axl_list_get_first`,
`axl_list_get_last`, `axl_list_remove_first`, `axl_list_remove_last`) are not part of the repository: they are
taken to be lists.
-/
namespace Verif.Model

/-! ## VortexQueue -/

/-- `struct _VortexQueue`, src/vortex_queue.c:46-55; every function is one critical section. -/
structure VQueue (α : Type) where
  items : List α

/-- `vortex_queue_new`, src/vortex_queue.c:74-83. -/
def VQueue.new {α : Type} : VQueue α := ⟨[]⟩

/-- `vortex_queue_push`, src/vortex_queue.c:144-161 (`none`: a NULL reference, refused). -/
def VQueue.push {α : Type} (q : VQueue α) : Option α → Bool × VQueue α
  | none => (false, q)
  | some x => (true, ⟨q.items ++ [x]⟩)

/-- `vortex_queue_head_push`, src/vortex_queue.c:174-189. -/
def VQueue.headPush {α : Type} (q : VQueue α) : Option α → Bool × VQueue α
  | none => (false, q)
  | some x => (true, ⟨x :: q.items⟩)

/-- `vortex_queue_pop`, src/vortex_queue.c:200-217 (`none` is NULL). -/
def VQueue.pop {α : Type} (q : VQueue α) : Option α × VQueue α := (q.items.head?, ⟨q.items.drop 1⟩)

/-- `vortex_queue_peek`, src/vortex_queue.c:228-244. -/
def VQueue.peek {α : Type} (q : VQueue α) : Option α := q.items.head?

/-- `vortex_queue_get_length`, src/vortex_queue.c:117-132. -/
def VQueue.length {α : Type} (q : VQueue α) : Nat := q.items.length

/-- `vortex_queue_is_empty`, src/vortex_queue.c:92-108. -/
def VQueue.isEmpty {α : Type} (q : VQueue α) : Bool := q.items.isEmpty

/-! ## VortexAsyncQueue -/

/-- `struct _VortexAsyncQueue`, src/vortex_thread.c:984-1006, and the threads inside
`vortex_async_queue_pop` (`false`) or `_timedpop` (`true`): `sleeping` are blocked on the
condition, `woken` have been released from it and wait to get the mutex back. -/
structure AQueue (α : Type) where
  data : List α
  waiters : Int
  sleeping : List Bool
  woken : List Bool

/-- `vortex_async_queue_new`, src/vortex_thread.c:1032-1052. -/
def AQueue.new {α : Type} : AQueue α := ⟨[], 0, [], []⟩

/-- `vortex_cond_signal`: releases one blocked thread, if any; `i` is the choice of the system (any
value beyond the end stands for the last one). -/
def AQueue.signal {α : Type} (q : AQueue α) (i : Nat) : AQueue α :=
  let i := min i (q.sleeping.length - 1)
  match q.sleeping[i]? with
  | none => q
  | some t => { q with sleeping := q.sleeping.eraseIdx i, woken := q.woken ++ [t] }

/-- `if (queue->waiters > 0) vortex_cond_signal (&queue->cond)`, src/vortex_thread.c:1078-1079,
:1141-1142, :1667-1668. -/
def AQueue.notify {α : Type} (q : AQueue α) (i : Nat) : AQueue α :=
  if q.waiters > 0 then q.signal i else q

/-- End of `vortex_async_queue_pop` and `_timedpop` when there is an item, src/vortex_thread.c:1177-1186
and :1272-1281. -/
def AQueue.take {α : Type} (q : AQueue α) : AQueue α :=
  { q with data := q.data.dropLast, waiters := q.waiters - 1 }

inductive AOp (α : Type)
  /-- `vortex_async_queue_push`, src/vortex_thread.c:1065-1085 -/
  | push (x : α) (i : Nat)
  /-- `vortex_async_queue_priority_push`, :1128-1148 -/
  | priorityPush (x : α) (i : Nat)
  /-- `vortex_async_queue_lock`, several `vortex_async_queue_unlocked_push`, `vortex_async_queue_unlock`,
  :1650-1655, :1100-1111, :1662-1672 -/
  | batch (xs : List α) (i : Nat)
  /-- a thread calls `vortex_async_queue_pop` (:1160-1189) or `_timedpop` (:1210-1284), up to the
  condition wait or the end -/
  | pop (timed : Bool)
  /-- the blocked thread number `i` is released without a signal: spurious wake-up or timeout -/
  | wake (i : Nat)
  /-- the released thread number `i` gets the mutex and goes on -/
  | resume (i : Nat)

inductive AEvent (α : Type)
  | pushed (x : α)
  | pushedFirst (x : α)
  | popped (x : α)
  | gaveUp
  deriving DecidableEq, Repr

/-- One critical section. -/
def AQueue.step {α : Type} (q : AQueue α) : AOp α → List (AEvent α) × AQueue α
  | .push x i => ([.pushed x], { q with data := x :: q.data }.notify i)
  | .priorityPush x i => ([.pushedFirst x], { q with data := q.data ++ [x] }.notify i)
  | .batch xs i => (xs.map .pushed, { q with data := xs.reverse ++ q.data }.notify i)
  | .pop timed =>
    let q := { q with waiters := q.waiters + 1 }
    match q.data.getLast? with
    | none => ([], { q with sleeping := q.sleeping ++ [timed] })
    | some x => ([.popped x], q.take)
  | .wake i =>
    match q.sleeping[i]? with
    | none => ([], q)
    | some t => ([], { q with sleeping := q.sleeping.eraseIdx i, woken := q.woken ++ [t] })
  | .resume i =>
    match q.woken[i]? with
    | none => ([], q)
    | some timed =>
      let q := { q with woken := q.woken.eraseIdx i }
      match q.data.getLast? with
      | some x => ([.popped x], q.take)
      | none =>
        -- `timedpop` checks once (:1243), `pop` loops (:1173)
        if timed then ([.gaveUp], { q with waiters := q.waiters - 1 })
        else ([], { q with sleeping := q.sleeping ++ [timed] })

/-- A history of critical sections of any number of threads. -/
def AQueue.run {α : Type} (q : AQueue α) : List (AOp α) → List (AEvent α) × AQueue α
  | [] => ([], q)
  | op :: ops => ((q.step op).1 ++ ((q.step op).2.run ops).1, ((q.step op).2.run ops).2)

end Verif.Model
