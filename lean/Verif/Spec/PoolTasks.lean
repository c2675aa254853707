import Verif.Model.PoolTasks
/-!
# What the thread pool should do with tasks and threads
-/
namespace Verif.Spec
open Verif.Model

/-- The tasks put into the queue, in this order. -/
def tpQueued (log : List TpEvent) : List Nat := log.filterMap fun | .queued k => some k | _ => none

/-- The tasks taken by threads, in this order. -/
def tpTaken (log : List TpEvent) : List Nat := log.filterMap fun | .taken k => some k | _ => none

/-- No task is waiting. -/
def tpIdle (s : PoolTasks) : Prop := (∀ k, TpItem.task k ∉ s.queue) ∧ ∀ t k, s.thr t ≠ .hold k

/-- No removal of threads is in progress, and nobody is handing over a task. -/
def tpQuiet (s : PoolTasks) : Prop :=
  TpItem.quit ∉ s.queue ∧ TpItem.join ∉ s.queue ∧ (∀ t, s.thr t ≠ .leaving ∧ s.thr t ≠ .bye ∧ s.thr t ≠ .collecting) ∧
  ∀ c, s.callers c = none

/-- The threads asked to leave before have done so. -/
def tpSettled (s : PoolTasks) : Prop := TpItem.quit ∉ s.queue ∧ ∀ t, s.thr t ≠ .leaving

/-- What the pool does by itself once it is being ended, with waiting. -/
def tpInternal : TpOp → Bool
  | .go _ => true
  | .exitGo skip => !skip
  | _ => false

/-- What may be done while the pool is being ended. -/
def tpCalm : TpOp → Bool
  | .new _ | .push _ | .exiting | .exit _ | .go _ => true
  | .exitGo skip => !skip
  | .add | .remove _ | .close => false

/-- Each step has an effect. -/
def tpEffective (s : PoolTasks) : List TpOp → Prop
  | [] => True
  | op :: ops => (tpStep s op).1 ≠ s ∧ tpEffective (tpStep s op).1 ops

end Verif.Spec
