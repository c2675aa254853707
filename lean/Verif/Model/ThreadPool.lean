/-!
# Size of the thread pool (src/vortex_thread_pool.c)

Only what decides the number of threads is modelled. Steps are the critical sections under `pool->mutex`
and the operations on the task queue.
-/
namespace Verif.Model

/-- What the queue of the pool holds. -/
inductive PoolItem
  | task
  /-- `INT_TO_PTR (2)`: the thread that takes it ends -/
  | quit
  /-- `INT_TO_PTR (3)`: a thread has ended and can be joined -/
  | join
  deriving DecidableEq, Repr

/-- Settings of `vortex_thread_pool_setup2`, src/vortex_thread_pool.c:600-636, and `base_thread_num`. -/
structure PoolConfig where
  automatic : Bool
  maxThreads : Int
  addStep : Nat
  removeStep : Nat
  autoRemove : Bool
  base : Nat
  deriving DecidableEq, Repr

structure Pool where
  /-- length of `pool->threads` -/
  threads : Nat
  /-- the queue, oldest first -/
  queue : List PoolItem
  /-- threads that took a `quit` and are still listed -/
  leaving : Nat
  /-- length of `pool->stopped` -/
  stopped : Nat
  config : PoolConfig
  deriving DecidableEq, Repr

/-- `vortex_thread_pool_init` with `n` threads, src/vortex_thread_pool.c:487-534 (automatic resize off). -/
def Pool.init (n : Nat) : Pool := ⟨n, [], 0, 0, ⟨false, 0, 0, 0, false, 0⟩⟩

/-- `vortex_thread_pool_add_internal`, src/vortex_thread_pool.c:645-715; failures to create threads are not
modelled. -/
def Pool.add (p : Pool) (n : Nat) : Pool := { p with threads := p.threads + n }

/-- Number of `quit` items pushed by the loop of `vortex_thread_pool_remove_internal`,
src/vortex_thread_pool.c:763-768. -/
def quitsToPush : (threads : Nat) → (running : Nat) → Nat
  | 0, _ => 0
  | n + 1, running => if running > 1 then 1 + quitsToPush n (running - 1) else 0

/-- `vortex_thread_pool_remove_internal`, src/vortex_thread_pool.c:755-771. -/
def Pool.remove (p : Pool) (n : Nat) : Pool :=
  { p with queue := p.queue ++ List.replicate (quitsToPush n p.threads) .quit }

/-- `__vortex_thread_pool_automatic_resize`, src/vortex_thread_pool.c:233-309. `waiting` is the number of threads
waiting on the queue; `addTime` and `removeTime` say whether enough time has passed since the last change. -/
def Pool.resize (p : Pool) (waiting : Nat) (addTime removeTime : Bool) : Pool :=
  if p.config.automatic then
    if (p.threads : Int) < p.config.maxThreads ∧ waiting = 0 ∧ p.queue ≠ [] ∧ addTime = true then
      p.add p.config.addStep
    else if p.config.autoRemove = true ∧ p.queue = [] ∧ p.threads > p.config.base ∧ waiting + 2 > p.config.base ∧
        removeTime = true then
      p.remove p.config.removeStep
    else p
  else p

inductive PoolOp
  /-- `vortex_thread_pool_setup2`; -1 as limit turns automatic resize off -/
  | setup (maxThreads : Int) (addStep removeStep : Nat) (autoRemove : Bool)
  /-- `vortex_thread_pool_add`, :725-741 -/
  | add (n : Nat)
  /-- `vortex_thread_pool_remove`, :784-798 -/
  | remove (n : Nat)
  /-- `vortex_thread_pool_new_task`, :906-928 -/
  | newTask
  /-- a thread takes the first item of the queue, :337-410 -/
  | take
  /-- a thread that took a `quit` leaves, :363-373 -/
  | leave
  /-- a thread runs the automatic resize -/
  | resize (waiting : Nat) (addTime removeTime : Bool)
  deriving DecidableEq, Repr

/-- One step. `take` needs a thread that is listed and not leaving. -/
def Pool.step (p : Pool) : PoolOp → Pool
  | .setup m a r auto => { p with config := ⟨decide (m ≠ -1), m, a, r, auto, p.threads⟩ }
  | .add n => p.add n
  | .remove n => p.remove n
  | .newTask => { p with queue := p.queue ++ [.task] }
  | .take =>
    if p.leaving < p.threads then
      match p.queue with
      | [] => p
      | .task :: q => { p with queue := q }
      | .quit :: q => { p with queue := q, leaving := p.leaving + 1 }
      | .join :: q => { p with queue := q, stopped := p.stopped - 1 }
    else p
  | .leave =>
    if 0 < p.leaving then
      { p with threads := p.threads - 1, leaving := p.leaving - 1, stopped := p.stopped + 1,
               queue := p.queue ++ [.join] }
    else p
  | .resize w a r => p.resize w a r

def Pool.run (p : Pool) : List PoolOp → Pool
  | [] => p
  | op :: ops => (p.step op).run ops

end Verif.Model
