import Verif.Model.SaslChoose
/-!
# Which function an application wants to decide about SASL requests (C133)
-/
namespace Verif.Spec
open Verif.Model

/-- The families of calls that set a function. -/
inductive VhKind
  | simple | full | common
  deriving DecidableEq, Repr

/-- The call sets (or removes) the function for a mechanism. -/
def vhKind (m : SaslMech) : VhOp → Option VhKind
  | .simple k _ => if k = m then some .simple else none
  | .full k _ => if k = m then some .full else none
  | .common k _ _ => if k = m then some .common else none
  | _ => none

/-- The function is set for a mechanism. -/
def VhSets (m : SaslMech) (fn : Nat) (o : VhOp) : Prop :=
  o = .simple m (some fn) ∨ o = .full m (some fn) ∨ ∃ d, o = .common m fn d

/-- The function the application wants after a call, when it wanted one before. -/
def vhWishStep (m : SaslMech) (w : Option Nat) : VhOp → Option Nat
  | .simple k h => if k = m then h else w
  | .full k h => if k = m then h else w
  | .common k h _ => if k = m then some h else w
  | _ => w

/-- The function the application set last for a mechanism. -/
def vhWish (m : SaslMech) (ops : List VhOp) : Option Nat := ops.foldl (vhWishStep m) none

def vhDataStep (m : SaslMech) (w : Option Nat) : VhOp → Option Nat
  | .common k _ d => if k = m then d else w
  | _ => w

/-- The user data the application gave last with a function for all mechanisms. -/
def vhWishData (m : SaslMech) (ops : List VhOp) : Option Nat := ops.foldl (vhDataStep m) none

/-- The application uses only one family of calls for a mechanism. -/
def VhOnly (k : VhKind) (m : SaslMech) (ops : List VhOp) : Prop := ∀ o ∈ ops, ∀ j, vhKind m o = some j → j = k

end Verif.Spec
