import Verif.Model.Sender
/-!
# Specification vocabulary: flow control (RFC 3081)
-/
namespace Verif.Spec
open Verif.Model

/-- Where an `ackno` (a number modulo 2^32) points to, counted from the start of the channel without
wrapping: the last position with that residue that is not above the limit granted so far. -/
def ackPosition (limit ackno : Nat) : Int := limit - ((limit : Int) - ackno) % 4294967296

/-- The limit (first sequence number *not* granted), counted from the start of the channel without
wrapping, after a SEQ frame granting `window` octets from `ackno` on. A grant never lowers the
limit. Both numbers are 32 bit unsigned. -/
def nextLimit (limit ackno window : Nat) : Nat :=
  (max (limit : Int) (ackPosition limit ackno + (window % 4294967296 : Nat))).toNat

/-- The limit granted by the peer after the given history, starting from `limit`. -/
def grantedLimit (limit : Nat) : List SendOp → Nat
  | [] => limit
  | .seq ackno window :: ops => grantedLimit (nextLimit limit ackno window) ops
  | _ :: ops => grantedLimit limit ops

/-- Octets of content in a list of frames. -/
def totalSize : List Frame → Int
  | [] => 0
  | f :: fs => f.size + totalSize fs

end Verif.Spec
