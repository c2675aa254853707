import Verif.Model.SaslSync
/-!
# Calls that wait for SASL
-/
namespace Verif.Spec
open Verif.Model

/-- After a timeout the connection is kept until the negotiation ended. -/
def SyPatient (s : Sy) : List SyOp → Prop
  | [] => True
  | op :: ops => (op = .release → ∀ b : Bool, s.caller = .returned b true → s.task = .over) ∧ SyPatient (s.step op) ops

/-- Nobody has anything more to do with the call. -/
def SyDone (s : Sy) : Prop :=
  s.task = .over ∧ (∃ b t : Bool, s.caller = .returned b t) ∧ s.callerRef = false

end Verif.Spec
