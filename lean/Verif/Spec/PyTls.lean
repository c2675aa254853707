import Verif.Model.PyTls
/-!
# Specification of TLS started by Python programs (C161)
-/
namespace Verif.Spec
open Verif.Model

/-- The references are those of the object the program has: nothing is lost, and nothing is released too early. -/
def PtsExact (s : PtsState) : Prop := ∀ c, s.refs c = if s.obj = some c then 1 else 0

/-- Success always comes with a connection. -/
def PtsHonest (s : PtsState) : Prop := ∀ e ∈ s.log, e.1 = true → e.2.isSome = true

/-- C161 in full: whatever the program does and however negotiations end. -/
def C161_statement : Prop := ∀ ops, PtsExact (ptsRun ptsInit ops) ∧ PtsHonest (ptsRun ptsInit ops)

/-- The call is made with a handler, or it is made for a usable connection without TLS and the negotiation gets as far as a new
connection, or there is no connection. -/
def PtsCareful (s : PtsState) : PtsOp → Prop
  | .start true o => ∀ c, s.obj = some c → s.ok c = true ∧ s.tls c = false ∧ (o = .secured ∨ o = .broken)
  | _ => True

/-- All calls are careful. -/
def PtsCarefulRun (ops : List PtsOp) : Prop := ∀ pre op post, ops = pre ++ op :: post → PtsCareful (ptsRun ptsInit pre) op

end Verif.Spec
