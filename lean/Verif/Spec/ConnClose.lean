import Verif.Model.ConnClose
/-! What C85 says about closing a connection. -/
namespace Verif.Spec
open Verif.Model

/-- The functions are called while someone holds a reference: the user theirs (initiator), or the engine one. -/
def closeCallsOk (s : ConnClose) : List CloseAct → Prop
  | [] => True
  | a :: as =>
    (a = .call → (s.role = .initiator → s.gaveBack = 0) ∧ (s.role ≠ .initiator → s.engine ≠ 0)) ∧
    ∀ r, s.step a = some r → closeCallsOk r as

/-- How many calls, apart from those that were told that another one goes on, closed the connection. -/
def closings (s : ConnClose) : Nat := s.results.count .closed

/-- While a call goes on the engine gives no reference back, and the connection does not fail at the moment at which it was found ok and its
reference is not yet taken. -/
def closeUndisturbed (s : ConnClose) : List CloseAct → Prop
  | [] => True
  | a :: as =>
    (a = .drop → s.pc = .idle) ∧ (a = .fail → s.pc ≠ .wasOk) ∧
    ∀ r, s.step a = some r → closeUndisturbed r as

end Verif.Spec
