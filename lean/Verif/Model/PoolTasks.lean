/-!
# The tasks of the thread pool (src/vortex_thread_pool.c)

What becomes of the tasks handed to the pool, and how the pool is ended: `vortex_thread_pool_new_task`,
`__vortex_thread_pool_dispatcher`, `vortex_thread_pool_add`, `vortex_thread_pool_remove`, `vortex_thread_pool_being_closed` and
`vortex_thread_pool_exit`. The queue is first in, first out (C33). Tasks, threads of the pool and callers are numbered. A step that is
not possible now changes nothing. Not modelled: failing allocations and thread creation, timed events (Model/Time.lean),
the automatic resize (it calls the functions that add and remove, Model/ThreadPool.lean).
-/
namespace Verif.Model

/-- What the queue of the pool holds. -/
inductive TpItem
  | task (k : Nat)
  /-- `INT_TO_PTR (1)` -/
  | beacon
  /-- `INT_TO_PTR (2)` -/
  | quit
  /-- `INT_TO_PTR (3)` -/
  | join
  deriving DecidableEq, Repr

/-- Where a thread of the pool is, src/vortex_thread_pool.c:317-423. -/
inductive TpThread
  /-- not created -/
  | none
  /-- waiting for the next item, :339 -/
  | waiting
  /-- it has a task, :398-406 -/
  | hold (k : Nat)
  /-- it runs the task, :407 -/
  | running (k : Nat)
  /-- it has a 3, :352 -/
  | collecting
  /-- it has a 2, :360-365 -/
  | leaving
  /-- it is not in the list of threads any more, :375 -/
  | bye
  | ended
  deriving DecidableEq, Repr

/-- Where the call of `vortex_thread_pool_exit` is. -/
inductive TpExit
  | no
  /-- the loop of :821-828, with `iterator` -/
  | beacons (i : Nat)
  /-- before the next thread of `threads` is released, :852 -/
  | threads
  /-- this thread of `threads` is waited for -/
  | joining (t : Nat)
  /-- the threads of `stopped` are released, :855 -/
  | stopped
  /-- the pool is released, :865-866 -/
  | done
  deriving DecidableEq, Repr

structure PoolTasks where
  /-- `pool->queue`, oldest first -/
  queue : List TpItem
  thr : Nat → TpThread
  /-- `pool->threads` -/
  threads : List Nat
  /-- `pool->stopped` -/
  stopped : List Nat
  /-- threads created -/
  created : Nat
  /-- tasks handed over -/
  tasks : Nat
  /-- the callers of `vortex_thread_pool_new_task` between :912 and :925 -/
  callers : Nat → Option Nat
  /-- `thread_pool_being_stopped` -/
  stopping : Bool
  /-- `vortex_exit` -/
  exiting : Bool
  exit : TpExit
  /-- the thread of the pool that called `vortex_thread_pool_exit`, if it is one -/
  self : Option Nat

/-- Before `vortex_thread_pool_init`. -/
def PoolTasks.init : PoolTasks := ⟨[], fun _ => .none, [], [], 0, 0, fun _ => none, false, false, .no, none⟩

inductive TpOp
  /-- `vortex_thread_pool_add`, one thread; `vortex_thread_pool_init` does it for each thread asked for -/
  | add
  /-- `vortex_thread_pool_remove` -/
  | remove (n : Nat)
  /-- caller `c` calls `vortex_thread_pool_new_task` -/
  | new (c : Nat)
  /-- and goes on -/
  | push (c : Nat)
  /-- `vortex_exit` is set, src/vortex.c:1173 -/
  | exiting
  /-- `vortex_thread_pool_being_closed`, src/vortex.c:1179 -/
  | close
  /-- `vortex_thread_pool_exit` is called, src/vortex.c:1216, outside of the pool or by one of its threads; as done by
  `vortex_exit_ctx`: when `close` was done, once -/
  | exit (self : Option Nat)
  /-- it goes on; `skip` is `skip_thread_pool_wait` -/
  | exitGo (skip : Bool)
  /-- thread `t` of the pool goes on -/
  | go (t : Nat)
  deriving DecidableEq, Repr

inductive TpEvent
  /-- `vortex_thread_pool_new_task` put the task into the queue -/
  | queued (k : Nat)
  /-- it returned without doing so -/
  | rejected (k : Nat)
  /-- a thread took the task from the queue -/
  | taken (k : Nat)
  /-- the function of the task is called -/
  | began (k : Nat)
  /-- the function of the task will never be called -/
  | dropped (k : Nat)
  /-- the function of the task returned -/
  | finished (k : Nat)
  /-- the memory of the thread is released, after it ended (src/vortex_thread.c:229-285) -/
  | released (t : Nat)
  /-- `vortex_thread_pool_being_closed` returned -/
  | closed
  /-- `vortex_thread_pool_exit` returned -/
  | exited
  /-- a NULL or released pointer is used -/
  | crash
  deriving DecidableEq, Repr

def tpSet (s : PoolTasks) (t : Nat) (p : TpThread) : PoolTasks := { s with thr := fun u => if u = t then p else s.thr u }

/-- Number of 2 pushed by `vortex_thread_pool_remove_internal`, src/vortex_thread_pool.c:763-768. -/
def tpQuits (n running : Nat) : Nat := min n (running - 1)

/-- A thread of the pool, src/vortex_thread_pool.c:336-419. -/
def tpGo (s : PoolTasks) (t : Nat) : PoolTasks × List TpEvent :=
  match s.thr t with
  | .none | .ended => (s, [])
  -- :339, with nothing in the queue it waits
  | .waiting =>
    match s.queue with
    | [] => (s, [])
    | .task k :: q => (tpSet { s with queue := q } t (.hold k), [.taken k])
    | .join :: q => (tpSet { s with queue := q } t .collecting, [])
    | .quit :: q => (tpSet { s with queue := q } t .leaving, [])
    -- :384-392, otherwise 1 is taken for a task, :397
    | .beacon :: q => (tpSet { s with queue := q } t .ended, if s.stopping then [] else [.crash])
  -- :406
  | .hold k =>
    if s.stopping || s.exiting then (tpSet s t .waiting, [.dropped k]) else (tpSet s t (.running k), [.began k])
  -- it returns, unless it is in `vortex_thread_pool_exit`
  | .running k =>
    if s.self = some t ∧ s.exit ≠ .done then (s, [])
    else (tpSet s t .waiting, [.finished k])
  -- :350-356
  | .collecting =>
    if s.exit = .done then (tpSet s t .ended, [.crash])
    else match s.stopped with
      | [] => (tpSet s t .waiting, [])
      | u :: r => if s.thr u = .ended then (tpSet { s with stopped := r } t .waiting, [.released u]) else (s, [])
  -- :365-373
  | .leaving =>
    if s.exit = .done then (tpSet s t .ended, [.crash])
    else (tpSet { s with threads := s.threads.erase t, stopped := s.stopped ++ [t] } t .bye, [])
  -- :375-382
  | .bye => (tpSet { s with queue := s.queue ++ [.join] } t .ended, [])

/-- `vortex_thread_pool_exit`, src/vortex_thread_pool.c:819-869. -/
def tpExitGo (skip : Bool) (s : PoolTasks) : PoolTasks × List TpEvent :=
  match s.exit with
  | .no | .done => (s, [])
  | .beacons i =>
    if i < s.threads.length then ({ s with queue := s.queue ++ [.beacon], exit := .beacons (i + 1) }, [])
    -- :832-850: the threads are left alone
    else if skip then ({ s with threads := [], exit := .stopped }, s.threads.map .released)
    else ({ s with exit := .threads }, [])
  | .threads =>
    match s.threads with
    | [] => ({ s with exit := .stopped }, [])
    | t :: _ => ({ s with exit := .joining t }, [])
  -- a thread does not wait for itself (`EDEADLK`, src/vortex_thread.c:273-276)
  | .joining t =>
    if s.thr t = .ended ∨ s.self = some t then ({ s with threads := s.threads.erase t, exit := .threads }, [.released t]) else (s, [])
  | .stopped =>
    match s.stopped with
    | [] => ({ s with exit := .done }, [.exited])
    | t :: r => if s.thr t = .ended then ({ s with stopped := r }, [.released t]) else (s, [])

/-- The caller is not of the pool, or is a thread of the pool that runs a task. -/
def tpInTask (s : PoolTasks) : Option Nat → Bool
  | none => true
  | some t => match s.thr t with
    | .running _ => true
    | _ => false

def tpStep (s : PoolTasks) : TpOp → PoolTasks × List TpEvent
  -- :645-715, :727-741
  | .add =>
    if s.exit = .done then (s, [.crash])
    else (tpSet { s with threads := s.threads ++ [s.created], created := s.created + 1 } s.created .waiting, [])
  -- :755-798
  | .remove n =>
    if s.exit = .done then (s, [.crash])
    else ({ s with queue := s.queue ++ List.replicate (tpQuits n s.threads.length) .quit }, [])
  -- :912-923
  | .new c =>
    match s.callers c with
    | some _ => (s, [])
    | none =>
      if s.stopping || s.exit = .done then ({ s with tasks := s.tasks + 1 }, [.rejected s.tasks])
      else ({ s with tasks := s.tasks + 1, callers := fun d => if d = c then some s.tasks else s.callers d }, [])
  -- :925
  | .push c =>
    match s.callers c with
    | none => (s, [])
    | some k =>
      if s.exit = .done then ({ s with callers := fun d => if d = c then none else s.callers d }, [.crash])
      else ({ s with queue := s.queue ++ [.task k], callers := fun d => if d = c then none else s.callers d }, [.queued k])
  | .exiting => ({ s with exiting := true }, [])
  | .close => if s.exit = .done then (s, [.crash]) else ({ s with stopping := true }, [.closed])
  -- :815-820
  | .exit self =>
    if s.exit = .no ∧ s.stopping = true ∧ tpInTask s self = true then
      ({ s with exit := .beacons 0, self := self }, [])
    else (s, [])
  | .exitGo skip => tpExitGo skip s
  | .go t => tpGo s t

/-- The steps of one interleaving, with what was seen before. -/
def tpRun (s : PoolTasks) (log : List TpEvent) : List TpOp → PoolTasks × List TpEvent
  | [] => (s, log)
  | op :: ops => tpRun (tpStep s op).1 (log ++ (tpStep s op).2) ops

end Verif.Model
