import Verif.Model.CtxExit
/-! What C79 and C80 say about the end of a context. -/
namespace Verif.Spec
open Verif.Model

/-- The cleanup functions installed, in order, after these calls. -/
def cleanupsAfter (l : List Nat) : List ExitAct → List Nat
  | [] => l
  | .install f :: as => cleanupsAfter (l ++ [f]) as
  | .remove f :: as => cleanupsAfter (l.erase f) as
  | _ :: as => cleanupsAfter l as

/-- The thread is in `vortex_exit_ctx` and the one that ends the context. -/
def endsCtx : ExitPc → Bool
  | .stopping => true
  | .cleaning _ => true
  | .inFunc _ => true
  | _ => false

/-- The context was ended and no thread is in `vortex_exit_ctx`. -/
def exitDone (s : CtxExit) : Prop := s.stops ≠ 0 ∧ ∀ i, s.pc i = .out ∨ s.pc i = .returned

/-- When the engine was stopped and the mutex is destroyed, no thread is between its look at the flag and the mutex. -/
def politeExit (s : CtxExit) : List ExitAct → Prop
  | [] => True
  | a :: as =>
    (∀ i, a = .go i → s.pc i = .stopping → ∀ j, s.pc j ≠ .checked) ∧ ∀ r, s.step a = some r → politeExit r as

/-- Only installations and removals. -/
def onlyCleanups (acts : List ExitAct) : Prop := ∀ a ∈ acts, (∃ f, a = .install f) ∨ ∃ f, a = .remove f

/-- The functions installed by these calls. -/
def installsOf (acts : List ExitAct) : List Nat := acts.filterMap fun a => match a with | .install f => some f | _ => none

end Verif.Spec
