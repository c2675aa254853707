import Verif.Model.Feeder
import Verif.Spec.Segments
import Verif.Spec.Flow
/-!
# What has to be sent of a file
-/
namespace Verif.Spec
open Verif.Model

/-- The MIME separator, if requested, and the file. -/
def fileContent (content : List Byte) (addMime : Bool) : List Byte := (if addMime then [13, 10] else []) ++ content

/-- Octets carried by the frames, in order. -/
def carried (fs : List Frame) : List Byte := (fs.map (·.payload)).flatten

/-- The file is sent once, and not paused. -/
def SentOnce : List FeedOp → Prop
  | [] => False
  | .send _ :: ops => ∀ op ∈ ops, (∀ m, op ≠ .send m) ∧ (∀ b, op ≠ .pause b)
  | .pause _ :: _ => False
  | _ :: ops => SentOnce ops

/-- The limit granted by the peer while a file is sent. -/
def grantedFeeding (limit : Nat) : List FeedOp → Nat
  | [] => limit
  | .seq ackno window :: ops => grantedFeeding (nextLimit limit ackno window) ops
  | _ :: ops => grantedFeeding limit ops

end Verif.Spec
