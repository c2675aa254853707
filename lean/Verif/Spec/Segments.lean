import Verif.Model.Sender
/-!
# Specification vocabulary: what a correct transmission of messages looks like
-/
namespace Verif.Spec
open Verif.Model

/-- Sequence numbers are contiguous modulo 2^32, starting at `start`. -/
def Contiguous : Nat → List Frame → Prop
  | _, [] => True
  | start, f :: fs => f.seqno = start % 4294967296 ∧ Contiguous (start + f.payload.length) fs

/-- `f` carries the identity of message `m`, an honest size, and a size within bounds; only an empty
NUL message may be sent as an empty frame. -/
structure FrameOf (m : OutMsg) (f : Frame) : Prop where
  type : f.type = m.type
  channel : f.channel = m.channel
  msgno : f.msgno = m.msgno
  ansno : f.ansno = if m.type = .ans then m.ansno else 0
  size : f.size = f.payload.length
  bound : f.payload.length ≤ 4096
  nonempty : f.payload ≠ [] ∨ (m.type = .nul ∧ m.message = [])

/-- `fs` is a correct transmission of the whole of `m` starting at position `start`. -/
structure Whole (start : Nat) (m : OutMsg) (fs : List Frame) : Prop where
  frames : ∀ f ∈ fs, FrameOf m f
  content : (fs.map (·.payload)).flatten = m.message
  contiguous : Contiguous start fs
  /-- the continuation flag is set on every frame but the last, whose flag is the one requested -/
  flags : ∃ n, fs.map (·.more) = List.replicate n true ++ [m.fixedMore]

/-- `fs` is a correct transmission of a beginning of `m` starting at position `start`. -/
structure Begun (start : Nat) (m : OutMsg) (fs : List Frame) : Prop where
  frames : ∀ f ∈ fs, FrameOf m f
  content : ∃ rest, rest ≠ [] ∧ (fs.map (·.payload)).flatten ++ rest = m.message
  contiguous : Contiguous start fs
  flags : ∀ f ∈ fs, f.more = true

/-- `Sent start ms fs left`: the frames `fs` are a correct transmission, one message after the other,
of the messages `ms` except for those in `left` (a suffix of `ms`), of which the first may have
been begun. -/
inductive Sent : Nat → List OutMsg → List Frame → List OutMsg → Prop
  | nothing (s ms) : Sent s ms [] ms
  | begun {s m fs} (ms) (h : Begun s m fs) : Sent s (m :: ms) fs (m :: ms)
  | whole {s m fs ms gs left} (h : Whole s m fs)
      (hr : Sent (s + m.message.length) ms gs left) : Sent s (m :: ms) (fs ++ gs) left

/-- The messages queued by a history of operations, in order. -/
def queued : List SendOp → List OutMsg
  | [] => []
  | .queue m :: ops => m :: queued ops
  | _ :: ops => queued ops

end Verif.Spec
