import Verif.Spec.Stream
import Verif.Model.Records
/-!
# Frames in records
-/
namespace Verif.Spec
open Verif.Model

/-- How often a read would block behind the first octet. -/
def lateBlocks : List Tok → Nat
  | [] => 0
  | .byte _ :: r => blocks r
  | _ :: r => lateBlocks r

/-- `script` delivers exactly `frames`, in records of any size, where reads find no complete record at most 25 times up to the end of a
header line, at most once directly behind it, and never inside of the rest of the frame. -/
inductive RecDelivers : List Frame → List Tok → Prop
  | nil (junk : List Tok) (h : ∀ t ∈ junk, t = .cut ∨ t = .again) (hn : blocks junk ≤ 25) : RecDelivers [] junk
  | cons (f : Frame) (fs : List Frame) (hs bs rest : List Tok) (header : List Byte)
      (hh : headerOf f = some header) (hd : octets hs ++ [LF] = header) (hn : blocks hs ≤ 25)
      (he : .eof ∉ hs ++ bs) (hb : octets bs = bodyOf f) (hlast : ∀ t, bs.getLast? = some t → ∃ b, t = .byte b)
      (h1 : blocks bs ≤ 1) (h2 : lateBlocks bs = 0) (hr : RecDelivers fs rest) :
      RecDelivers (f :: fs) (hs ++ .byte LF :: bs ++ rest)

/-- Each frame in a record of its own, which arrives in some pieces. -/
def framePerRecord : List (Frame × Nat) → Option (List Tok)
  | [] => some []
  | (f, pieces) :: more => do
    let h ← headerOf f
    let r ← framePerRecord more
    pure (List.replicate pieces .again ++ ((h ++ bodyOf f).map .byte ++ .cut :: r))

end Verif.Spec
