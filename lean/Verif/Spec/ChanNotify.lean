import Verif.Model.ChanNotify
/-! What C86 says about the notification of channels added and removed. -/
namespace Verif.Spec
open Verif.Model

/-- The functions are used as they are meant: an identifier is given to one handler only, and removals name an identifier that was given before.
`known` are the identifiers given. -/
def notifyUse (known : List Nat) : List ChanNotifyAct → Prop
  | [] => True
  | .add h :: as => h ∉ known ∧ notifyUse (h :: known) as
  | .remove h :: as => h ∈ known ∧ notifyUse known as
  | .take :: as => notifyUse known as
  | .call :: as => notifyUse known as

/-- No handler is called by an action that follows its removal. -/
def noCallAfterRemove (front : Bool) (s : ChanNotify) : List ChanNotifyAct → Prop
  | [] => True
  | a :: as => (a = .call → ∀ h, s.taken = some h → h ∉ s.removed) ∧ noCallAfterRemove front (s.step front a) as

/-- Handlers are removed only before their turn in this notification. -/
def removedBeforeTurn (front : Bool) (s : ChanNotify) : List ChanNotifyAct → Prop
  | [] => True
  | a :: as => (∀ h, a = .remove h → h ∉ s.called ∧ s.taken ≠ some h) ∧ removedBeforeTurn front (s.step front a) as

end Verif.Spec
