import Verif.Model.XmlRpcPool
/-!
# Channel pools of XML-RPC channels (C118)
-/
namespace Verif.Spec
open Verif.Model

/-- What a caller of `vortex_xml_rpc_create_channel_pool` relies on: every channel of the pool is booted with the names given in the call, the pool stays until it is
closed, and the call gives its id. -/
structure PoolKept (c : PcCall) : Prop where
  names : ∀ b ∈ c.boots, b = some (c.server, c.resource)
  stays : c.replaced = false
  result : c.late = false

/-- The pool is on the connection, with that id. -/
def PoolOn (c : PcCall) (id : Nat) : Prop := c.phase = .installed id

/-- An application that creates one pool at a time as far as ids go, closes a pool after the call for it returned, and reconnects when all calls are over. -/
def PcCareful (s : PcState) : PcOp → Prop
  | .readId _ => ∀ c ∈ s.calls, ∀ v, c.phase ≠ .reading v
  | .close k => ∀ c, s.calls[k]? = some c → c.handler = true ∨ c.key ≠ none
  | .reconnect => ∀ c ∈ s.calls, (c.phase = .gone ∨ ∃ id, c.phase = .installed id) ∧ (c.handler = true ∨ c.key ≠ none ∨ c.freed = true)
  | _ => True

/-- Every operation of the history is careful when it happens. -/
def PcObeys : PcState → List PcOp → Prop
  | _, [] => True
  | s, o :: os => PcCareful s o ∧ PcObeys (s.step o) os

/-- At most one call had a handler. -/
def OneHandler (s : PcState) : Prop :=
  ∀ (i j : Nat) (c d : PcCall), s.calls[i]? = some c → s.calls[j]? = some d → c.handler = true → d.handler = true → i = j

end Verif.Spec
