/-!
# The timed events of the thread pool, with threads (src/vortex_thread_pool.c)

`vortex_thread_pool_new_event`, `vortex_thread_pool_remove_event` and `__vortex_thread_pool_process_events`, one critical section of
`pool->mutex` at a time. When an event is due is not modelled here but in Model/Time.lean: here any event may be due at any time. Events
are numbered in the order of their installation. Not modelled: failing allocations, the end of the pool (Model/PoolTasks.lean).
-/
namespace Verif.Model

/-- Where a thread is in `__vortex_thread_pool_process_events`, src/vortex_thread_pool.c:125-227. The test for the end of the
library (:138, :144) is left out. -/
inductive PePc
  | idle
  /-- before :161, with `length` and `iterator` -/
  | scan (len i : Nat)
  /-- after :181, the handler was read and the mutex left; it is not called yet -/
  | chosen (k len i : Nat)
  /-- in the handler, :184 -/
  | calling (k len i : Nat)
  /-- it returned; before :185 or :207 -/
  | returned (k len i : Nat) (stop : Bool)
  /-- before :223 -/
  | last
  deriving DecidableEq, Repr

/-- The part of `VortexThreadPool` about events, src/vortex_thread_pool.c:55-58 and :86-93. -/
structure PoolEvents where
  /-- `pool->events` -/
  events : List Nat
  /-- `ref_count`; 0: not allocated, or released -/
  refs : Nat → Nat
  /-- where the event is in memory -/
  addr : Nat → Nat
  /-- events installed -/
  next : Nat
  /-- `pool->processing_events` -/
  processing : Bool
  pc : Nat → PePc

/-- After `vortex_thread_pool_init`, :518-519. -/
def PoolEvents.init : PoolEvents := ⟨[], fun _ => 0, fun _ => 0, 0, false, fun _ => .idle⟩

inductive PeOp
  /-- `vortex_thread_pool_new_event`, :969-1011: the memory is at `a`, and the event is put behind `pos` others (the order depends on
  axl, not in /repo) -/
  | install (a pos : Nat)
  /-- `vortex_thread_pool_remove_event`, :1023-1065 -/
  | remove (id : Nat)
  /-- thread `t` begins to process events, :142-152 -/
  | start (t : Nat)
  /-- it looks at the next event, :158-181 (and :213-219 if its time has not come); `due`: its time has come -/
  | look (t : Nat) (due : Bool)
  /-- it calls the handler, :184 -/
  | call (t : Nat)
  /-- the handler returns, `stop`: true, the event should be removed -/
  | ret (t : Nat) (stop : Bool)
  /-- it comes back, :185-219 -/
  | settle (t : Nat)
  /-- :223-226 -/
  | finish (t : Nat)
  deriving DecidableEq, Repr

inductive PeEvent
  /-- event `k` was installed; the caller has the identifier -/
  | installed (k id : Nat)
  /-- `vortex_thread_pool_remove_event` returned true, event `k` is not in the list any more -/
  | removed (k id : Nat)
  /-- it returned false -/
  | unknown (id : Nat)
  /-- the handler of the event is called -/
  | began (k : Nat)
  | ended (k : Nat) (stop : Bool)
  /-- the memory of the event is released -/
  | freed (k : Nat)
  /-- memory of an event is used that was released -/
  | crash
  deriving DecidableEq, Repr

/-- `PTR_TO_INT`, :1010 and :1045: an `int` of 32 bits, here without a sign. -/
def peId (a : Nat) : Nat := a % 4294967296

/-- Thread `t` continues at `p`. -/
def peGoto (s : PoolEvents) (t : Nat) (p : PePc) : PoolEvents := { s with pc := fun u => if u = t then p else s.pc u }

/-- Sets `ref_count`. -/
def peRef (s : PoolEvents) (k n : Nat) : PoolEvents := { s with refs := fun j => if j = k then n else s.refs j }

/-- `__vortex_thread_pool_unref_event`, :116-123. -/
def peUnref (s : PoolEvents) (k : Nat) : PoolEvents × List PeEvent :=
  if s.refs k = 0 then (s, [.crash])
  else (peRef s k (s.refs k - 1), if s.refs k = 1 then [.freed k] else [])

/-- The event is taken out of the list (:193, :1047), which gives its reference back: the list was made with
`__vortex_thread_pool_unref_event` as destructor, :518. -/
def peDrop (s : PoolEvents) (k : Nat) : PoolEvents × List PeEvent :=
  if k ∈ s.events then peUnref { s with events := s.events.erase k } k else (s, [])

/-- One critical section, or one call or return of a handler. -/
def peStep (s : PoolEvents) : PeOp → PoolEvents × List PeEvent
  -- `malloc` gives memory that is not in use
  | .install a pos =>
    if (List.range s.next).any (fun k => s.refs k ≠ 0 && s.addr k = a) then (s, [])
    else
      let k := s.next
      ({ peRef s k 1 with events := s.events.take pos ++ k :: s.events.drop pos,
                          addr := fun j => if j = k then a else s.addr j, next := k + 1 }, [.installed k (peId a)])
  | .remove id =>
    match s.events.find? (fun k => peId (s.addr k) = id) with
    | none => (s, [.unknown id])
    | some k => let r := peDrop s k; (r.1, .removed k id :: r.2)
  | .start t =>
    if s.pc t = .idle ∧ s.processing = false ∧ s.events ≠ [] then
      (peGoto { s with processing := true } t (.scan s.events.length 0), [])
    else (s, [])
  | .look t due =>
    match s.pc t with
    | .scan len i =>
      if len ≤ i then (peGoto s t .last, [])
      else match s.events[i]? with
        | none => (peGoto s t .last, [])
        | some k =>
          if s.refs k = 0 then (s, [.crash])
          else if due then (peGoto (peRef s k (s.refs k + 1)) t (.chosen k len i), [])
          -- one reference more, and one less
          else (peGoto s t (.scan len (i + 1)), [])
    | _ => (s, [])
  | .call t =>
    match s.pc t with
    | .chosen k len i => (peGoto s t (.calling k len i), [.began k])
    | _ => (s, [])
  | .ret t stop =>
    match s.pc t with
    | .calling k len i => (peGoto s t (.returned k len i stop), [.ended k stop])
    | _ => (s, [])
  | .settle t =>
    match s.pc t with
    -- :185-201
    | .returned k len i true =>
      let r := peDrop s k
      let u := peUnref r.1 k
      (peGoto u.1 t (.scan len i), r.2 ++ u.2)
    -- :207-219
    | .returned k len i false =>
      let u := peUnref s k
      (peGoto u.1 t (.scan len (i + 1)), u.2)
    | _ => (s, [])
  | .finish t => if s.pc t = .last then (peGoto { s with processing := false } t .idle, []) else (s, [])

/-- The steps of one interleaving, with what was seen before. -/
def peRun (s : PoolEvents) (log : List PeEvent) : List PeOp → PoolEvents × List PeEvent
  | [] => (s, log)
  | op :: ops => peRun (peStep s op).1 (log ++ (peStep s op).2) ops

end Verif.Model
