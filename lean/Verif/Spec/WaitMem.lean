import Verif.Model.WaitMem
/-!
# When the users of a wait reply object are done, and when they keep out of each other's way
-/
namespace Verif.Spec
open Verif.Model

/-- Everybody is done with the object: the thread that created it gave it up, no reply is expected with it or being delivered, no
close message is being answered with it, and no handler is about to use its queue. -/
def wmQuiet (s : Wm) : Prop :=
  s.pc = .done ∧ s.waiting = 0 ∧ s.reader = .idle ∧ s.looking = 0 ∧ s.refd = 0 ∧ s.pushed = 0 ∧ s.hook ≠ .taken

/-- Whoever gets the object from the channel takes a reference before anything else happens, and whoever gives up the object without a
reply removes the channel before anything else happens. -/
def wmOrderly : List WmOp → Bool
  | [] => true
  | .look :: .cref :: ops => wmOrderly ops
  | .look :: _ => false
  | .free :: .remove :: ops => wmOrderly ops
  | .free :: _ => false
  | _ :: ops => wmOrderly ops

/-- The thread that created the object is inside `vortex_channel_wait_reply`. -/
def wmInCall (s : Wm) : Prop := s.pc ≠ .ready ∧ s.pc ≠ .done

/-- The thread that created the object gave it up. -/
def wmGaveUp (s : Wm) : Prop := s.pc = .done ∨ ∃ f, s.pc = .leaving (some f)

end Verif.Spec
