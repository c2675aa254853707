import Verif.Model.PoolRefs
/-! What C90 says about the references to the channels of pools. -/
namespace Verif.Spec
open Verif.Model

/-- How often the channel is in pools. -/
def poolHeld (s : PoolRefs) (c : Nat) : Nat := ((List.range s.pools).map (fun p => (s.pool p).list.count c)).sum

/-- Who holds a reference to the channel: the table of the connection, the application, the pools it is in. -/
def poolHolders (s : PoolRefs) (c : Nat) : Nat := (if (s.chan c).inTable then 1 else 0) + (s.chan c).user + poolHeld s c

/-- Each channel has a number of its own, and a pool is not asked to give away a channel it created. -/
def poolPlainOp (s : PoolRefs) : PoolRefsOp → Prop
  | .make num | .add _ num => ∀ c, c < s.chans → (s.chan c).num ≠ num
  | .deattach p c => (s.chan c).pool ≠ some p
  | _ => True

def poolPlain (s : PoolRefs) : List PoolRefsOp → Prop
  | [] => True
  | op :: rest => poolPlainOp s op ∧ ∀ s', s.step op = .ok s' → poolPlain s' rest

end Verif.Spec
