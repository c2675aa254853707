import Verif.Model.ChannelPool
/-!
# Vocabulary of C38
-/
namespace Verif.Spec
open Verif.Model

/-- Whether somebody holds the channel after this history. -/
def isHeld (c : Nat) : List ChPoolEvent → Bool → Bool
  | [], b => b
  | .given d :: log, b => isHeld c log (if d = c then true else b)
  | .released d :: log, b => isHeld c log (if d = c then false else b)
  | _ :: log, b => isHeld c log b

/-- No thread asks for a channel while another one is in course of getting one. -/
def OneAtATime (p : ChPool) : List ChPoolOp → Prop
  | [] => True
  | op :: ops =>
    (match op with
      | .get _ => p.gets = []
      | _ => True) ∧ OneAtATime (p.step op).2 ops

/-- Channels are not removed from the pool while a thread is in course of getting one, and those closed by the
pool are not given back to it. -/
def NoRemoval (p : ChPool) : List ChPoolOp → Prop
  | [] => True
  | op :: ops =>
    (match op with
      | .remove _ => p.gets = []
      | .attach c => c ∉ p.closed
      | _ => True) ∧ NoRemoval (p.step op).2 ops

end Verif.Spec
