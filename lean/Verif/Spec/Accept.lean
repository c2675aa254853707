import Verif.Model.Accept
/-!
# Specification for accepting connections (C70)
-/
namespace Verif.Spec
open Verif.Model

/-- The handlers called, in order. -/
def acceptCalls : List AcceptEvent → List Nat
  | [] => []
  | .call h :: l => h :: acceptCalls l
  | _ :: l => acceptCalls l

/-- The answers given while the function was going on: one for each handler called. -/
def acceptAnswers (s : Accepting) : List AcceptOp → List Bool
  | [] => []
  | .next a :: ops => (if s.finished = false ∧ s.pos < s.handlers.length then [a] else []) ++ acceptAnswers (s.step (.next a)).1 ops
  | op :: ops => acceptAnswers (s.step op).1 ops

end Verif.Spec
