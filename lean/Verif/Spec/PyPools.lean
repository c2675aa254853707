import Verif.Model.PyPools
/-!
# Specification of the channel pools of the Python bindings (C143)
-/
namespace Verif.Spec
open Verif.Model

/-- The object can be used by the program to ask for a channel of a pool whose channels are created by this handler. -/
def PypAsks (s : PypState) (o : Nat) (h : Nat) : Prop :=
  ∃ y p q, s.objs[o]? = some y ∧ y.alive = true ∧ y.pool = some p ∧ s.pools[p]? = some q ∧ q.handler = some h

/-- The number of objects of pools that exist. -/
def PypObjects (s : PypState) : Nat := (s.objs.filter (·.alive)).length

/-- The connection is kept as long as the session, or an object of a pool, needs it. -/
def PypKept (s : PypState) : Prop := s.refs = PypObjects s

/-- The references kept for the pools are dropped once, when nothing needs the connection any more. -/
def PypReleased (s : PypState) : Prop :=
  s.released = if s.session = false ∧ PypObjects s = 0 then List.range s.pools.length else []

/-- When the program asks for a channel of a pool that has none ready, the handler given for the pool is called, with the data of the request. -/
def PypCalled (ops : List PypOp) : Prop :=
  ∀ o h x, PypAsks (pypRun ops) o h →
    (pypRun (ops ++ [.next o false true x])).calls = (pypRun ops).calls ++ [(h, x)]

/-- C143 in full. -/
def C143_statement : Prop :=
  ∀ ops : List PypOp, (pypRun ops).bad = false ∧ (pypRun ops).unlocked = false ∧ PypKept (pypRun ops) ∧ PypReleased (pypRun ops) ∧ PypCalled ops

/-- The object that made the pool of this object was collected. -/
def PypOrphan (s : PypState) (o : Nat) : Prop :=
  ∃ y p q z, s.objs[o]? = some y ∧ y.pool = some p ∧ s.pools[p]? = some q ∧ s.objs[q.first]? = some z ∧ z.alive = false

/-- No channel is asked for through an object of a pool whose first object was collected. -/
def PypCareful (ops : List PypOp) : Prop :=
  ∀ pre o ready auto x post, ops = pre ++ .next o ready auto x :: post → ¬ PypOrphan (pypRun pre) o

end Verif.Spec
