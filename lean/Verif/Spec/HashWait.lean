import Verif.Model.HashWait
/-! What C84 says about waiting for a change of a hash. -/
namespace Verif.Spec
open Verif.Model

/-- No thread is between a change and the end of its notification. -/
def hashSettled (s : HashWait) : Prop := ∀ j, s.cpc j = .out

/-- The thread waits although the hash was changed since it began to wait, and nothing is there to end the wait. -/
def hashMissed (s : HashWait) (i : Nat) : Prop := ∃ v vc, s.wpc i = .inside v vc ∧ vc < s.version ∧ s.tokens = 0 ∧ hashSettled s

/-- Thread `i` is the only one that waits for changes. -/
def onlyWaiter (i : Nat) (acts : List HWaitAct) : Prop := ∀ k, .enter k ∈ acts → k = i

end Verif.Spec
