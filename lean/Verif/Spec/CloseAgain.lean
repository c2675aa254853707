import Verif.Model.CloseAgain
/-! What C87 says about closing channels. -/
namespace Verif.Spec
open Verif.Model

/-- A negotiation is under way. -/
def closeUnderWay (s : CloseAgain) : Prop := ∃ i, s.pc i = .asking

/-- What is left of a channel when its peer was asked. -/
def afterRefusal (c : ToClose) : ToClose := { c with being := true }

end Verif.Spec
