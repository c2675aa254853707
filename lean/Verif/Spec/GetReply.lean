import Verif.Model.GetReply
/-! What C81 says about the replies taken from a queue. -/
namespace Verif.Spec
open Verif.Model

/-- The frames in a queue. -/
def framesIn (l : List ReplyItem) : List Nat := l.filterMap fun i => match i with | .frame x => some x | .mark => none

/-- The frames calls have returned, without piggybacks. -/
def framesGot (l : List GetRes) : List Nat := l.filterMap fun i => match i with | .frame x => some x | _ => none

/-- A frame that was taken from the queue by a call that has not returned. -/
def frameHeld : GetPc → List Nat
  | .popped (some (.frame x)) => [x]
  | _ => []

/-- The queue is released only when no thread is about to call the close handler with it. -/
def politeRelease (s : GetReply) : List GetAct → Prop
  | [] => True
  | a :: as => (a = .release → s.marks = 0) ∧ ∀ r, s.step a = some r → politeRelease r as

/-- The state after some calls. -/
def reachedGet (s : GetReply) : Prop := ∃ acts, GetReply.init.run acts = some s

end Verif.Spec
