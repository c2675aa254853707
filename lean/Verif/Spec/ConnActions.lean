import Verif.Model.ConnActions
/-!
# Which actions are called
-/
namespace Verif.Spec
open Verif.Model

/-- The places, before `n`, of the actions registered for a stage, in the order they were registered. -/
def nfDue (stage : NfStage) (actions : List NfStage) (n : Nat) : List Nat :=
  (List.range n).filter (fun k => actions[k]? == some stage)

end Verif.Spec
