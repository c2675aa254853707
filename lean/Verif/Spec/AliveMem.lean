import Verif.Model.AliveMem
/-!
# Who keeps a connection with an alive check
-/
namespace Verif.Spec
open Verif.Model

/-- Nothing of the check is left: no event is installed or running, the close handler ran or was removed, no channel
is being created and the reference of the check was dropped. -/
def AmQuiet (s : Am) : Prop :=
  s.own = false ∧ s.timer = .none ∧ s.tick = .idle ∧ (s.close = .over ∨ s.close = .removed) ∧ (s.create = .unasked ∨ s.create = .over)

instance (s : Am) : Decidable (AmQuiet s) := inferInstanceAs (Decidable (_ ∧ _))

/-- Somebody keeps a reference of the connection until nothing of the check is left. -/
def AmKept (s : Am) : List AmOp → Prop
  | [] => True
  | op :: ops => (op = .drop → s.others = 1 → AmQuiet s) ∧ AmKept (s.step op) ops

end Verif.Spec
