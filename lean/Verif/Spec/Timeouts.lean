import Verif.Model.Timeouts
/-! What C91 says about the timeouts of a context. -/
namespace Verif.Spec
open Verif.Model

/-- The timeout set last for the context, `d` if none; setting 0 means the default. -/
def toutInForce (c : Nat) (d : Int) : List ToutAct → Int
  | [] => d
  | .set c' v :: rest => toutInForce c (if c' = c then (if v = 0 then 60000000 else v) else d) rest
  | _ :: rest => toutInForce c d rest

/-- The same for the connect timeout; 0 means no timeout, which is the default. -/
def toutConnectInForce (c : Nat) (d : Int) : List ToutAct → Int
  | [] => d
  | .setConnect c' v :: rest => toutConnectInForce c (if c' = c then v else d) rest
  | _ :: rest => toutConnectInForce c d rest

/-- The value is an `int`. -/
def toutSmall (v : Int) : Prop := -2147483648 ≤ v ∧ v ≤ 2147483647

/-- Only one context is used; the values fit; the timeout is not set back to its default. -/
def toutPlain (c : Nat) (acts : List ToutAct) : Prop :=
  ∀ a ∈ acts, match a with
    | .set c' v => c' = c ∧ v ≠ 0 ∧ toutSmall v
    | .setConnect c' v => c' = c ∧ toutSmall v
    | _ => True

/-- A call of `vortex_connection_get_timeout` at a time. -/
def toutApart : List ToutAct → Prop
  | [] => True
  | .begin t _ :: .end t' :: rest => t = t' ∧ toutApart rest
  | .begin _ _ :: _ => False
  | .end _ :: _ => False
  | _ :: rest => toutApart rest

end Verif.Spec
