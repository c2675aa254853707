import Verif.Model.PyProfiles
/-!
# Specification of profiles registered by Python programs (C150)
-/
namespace Verif.Spec
open Verif.Model

/-- What was registered, in order: handler and data. -/
def PgrGiven : List PgrOp → List (Option Nat × Option Nat)
  | [] => []
  | .register h d :: ops => (h, d) :: PgrGiven ops
  | _ :: ops => PgrGiven ops

/-- C150 in full: in every schedule no frame makes the process call a handler
that is not there or use released memory, and every handler is called with the data it was registered with. -/
def C150_statement : Prop :=
  ∀ keptH keptD ops s, pgrRun keptH keptD pgrInit ops = some s →
    s.bad = false ∧ ∀ x d, (x, d) ∈ s.calls → (some x, d) ∈ PgrGiven ops

/-- The program registers while no frame is being delivered, and no delivery begins meanwhile. -/
def PgrCalm (s : PgrState) : PgrOp → Prop
  | .register _ _ => ∀ t, s.places t = .idle
  | .dispatch _ => s.phase = none
  | _ => True

/-- … all along the schedule. -/
def PgrCalmRun (keptH keptD : Nat → Bool) (s : PgrState) : List PgrOp → Prop
  | [] => True
  | op :: ops => PgrCalm s op ∧ ∀ m, pgrStep keptH keptD s op = some m → PgrCalmRun keptH keptD m ops

/-- The program gives a handler at every registration. -/
def PgrAlways (ops : List PgrOp) : Prop := ∀ h d, PgrOp.register h d ∈ ops → h ≠ none

end Verif.Spec
