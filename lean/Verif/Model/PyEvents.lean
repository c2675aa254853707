/-!
# Timed events of the Python bindings

Models `py-vortex/src/py_vortex_ctx.c` 518-534 (what is kept for an event),
536-636 (the function called by the pool), 642-696 (`new_event`), 701-711
(`remove_event`), 404-425 (`exit`), with the list of events of the pool,
`src/vortex_thread_pool.c` 125-225, 969-1012, 1023-1060 and 807-868, and the data
of a context, `src/vortex_ctx.c` 214-236, which is released with the context (801).

Simplified: the context was initialised once; events are numbered in the order
of the calls of `new_event`, and the identifier of an event is not used again
(when the pool gives it again, what was kept under it is released); one handler
of an event runs at a time (C99), and what threads do meanwhile is part of its
step; `exit` waits for it.
-/
namespace Verif.Model

/-- How a handler ends: an integer other than zero, zero, something that is not an integer, an exception. -/
inductive PyeOut
  | yes
  | no
  | unread
  | raised
deriving DecidableEq, Repr

/-- What a program does with events. -/
inductive PyeAct
  /-- `ctx.new_event (…)` -/
  | new
  /-- `ctx.remove_event (id)` with the identifier returned by the `k`-th `new` -/
  | remove (k : Nat)
deriving DecidableEq, Repr

/-- What happens. -/
inductive PyeOp
  | act (a : PyeAct)
  /-- it is time for event `k`; `inner`: what is done before its handler ends -/
  | fire (k : Nat) (inner : List PyeAct) (out : PyeOut)
  /-- `ctx.exit ()` -/
  | exit
deriving DecidableEq, Repr

/-- Events of the pool, events for which data is kept under their identifier,
data kept under the identifier -1, number of calls of `new_event`, whether
`exit` was called, handlers called, answers of `remove_event`, argument tuples
never released, whether released memory was used.  All that is kept refers to the context. -/
structure PyeState where
  pool : List Nat
  held : List Nat
  orphan : Option Nat
  made : Nat
  over : Bool
  calls : List Nat
  answers : List Bool
  tuples : List Nat
  bad : Bool
deriving DecidableEq, Repr

/-- One action of the program. -/
def pyeAct (s : PyeState) : PyeAct → PyeState
  | .new =>
    -- `src/vortex_thread_pool.c` 979: no pool, -1
    if s.over then { s with made := s.made + 1, orphan := some s.made }
    else { s with made := s.made + 1, pool := s.pool ++ [s.made], held := s.held ++ [s.made] }
  | .remove k =>
    -- `src/vortex_thread_pool.c` 1028-1031: without a pool the answer is true; what is kept for the event stays
    { s with answers := s.answers ++ [s.over || s.pool.contains k], pool := s.pool.filter (fun j => j != k) }

/-- The end of the handler, `py_vortex_ctx.c` 594-635. -/
def pyeEnd (s : PyeState) (k : Nat) (out : PyeOut) : PyeState :=
  let s := { s with bad := s.bad || !s.held.contains k }
  match out with
  | .no => s
  -- 605-607: the event stays, whatever the message says
  | .unread => s
  | .yes => { s with pool := s.pool.filter (fun j => j != k), held := s.held.filter (fun j => j != k) }
  -- 595-600: the arguments are not released
  | .raised => { s with pool := s.pool.filter (fun j => j != k), held := s.held.filter (fun j => j != k), tuples := s.tuples ++ [k] }

/-- One step. -/
def pyeStep (s : PyeState) : PyeOp → PyeState
  | .act a => pyeAct s a
  | .fire k inner out =>
    if s.pool.contains k then
      pyeEnd (inner.foldl pyeAct { s with calls := s.calls ++ [k], bad := s.bad || !s.held.contains k }) k out
    else inner.foldl pyeAct s
  | .exit => { s with over := true, pool := [] }

/-- A run. -/
def pyeRun (ops : List PyeOp) : PyeState := ops.foldl pyeStep ⟨[], [], none, 0, false, [], [], [], false⟩

end Verif.Model
