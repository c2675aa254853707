import Verif.Model.SendClose
/-!
# Messages of channels that end
-/
namespace Verif.Spec
open Verif.Model

/-- The last reference of the connection is not dropped while the sending thread has its address without a reference, or
is about to read it from a channel that was closed. -/
def CmCalm (s : Cm) : List CmOp → Prop
  | [] => True
  | op :: ops =>
    ¬ (op = .unrefConn ∧ s.inSend = false ∧ s.appConn = 1 ∧ (s.sender = .haveConn ∨ s.sender = .picked ∧ s.attached = false)) ∧
    CmCalm (s.step op) ops

instance CmCalm.dec (s : Cm) : (ops : List CmOp) → Decidable (CmCalm s ops)
  | [] => isTrue trivial
  | op :: ops =>
    have := CmCalm.dec (s.step op) ops
    inferInstanceAs (Decidable (_ ∧ _))

/-- The application has a reference of the connection all the time. -/
def CmHeld (s : Cm) : List CmOp → Prop
  | [] => 0 < s.appConn
  | op :: ops => 0 < s.appConn ∧ CmHeld (s.step op) ops

end Verif.Spec
