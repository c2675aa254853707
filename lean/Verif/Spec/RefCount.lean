import Verif.Model.RefCount
/-!
# References held
-/
namespace Verif.Spec
open Verif.Model

/-- The references held after the calls, `h` before them; `none` if one is taken or dropped when there is none, or
there are 2^31. -/
def refsHeld (h : Nat) : List RefOp → Option Nat
  | [] => some h
  | .ref :: ops => if 0 < h ∧ h + 1 < 2147483648 then refsHeld (h + 1) ops else none
  | .unref :: ops => if 0 < h then refsHeld (h - 1) ops else none
  | .free :: ops => refsHeld h ops

/-- The same for calls (`true`: a reference is taken). -/
def callsHeld (h : Nat) : List (Nat × Bool) → Option Nat
  | [] => some h
  | (_, true) :: cs => if 0 < h ∧ h + 1 < 2147483648 then callsHeld (h + 1) cs else none
  | (_, false) :: cs => if 0 < h then callsHeld (h - 1) cs else none

end Verif.Spec
