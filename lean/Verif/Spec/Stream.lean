import Verif.Model.GetNext
/-!
# Specification vocabulary: frames on a byte stream

Only uses the *types* of the model (frames, socket scripts) and the frame builder.
-/
namespace Verif.Spec
open Verif.Model

/-- The octets a script will deliver. -/
def octets : List Tok → List Byte
  | [] => []
  | .byte b :: r => b :: octets r
  | _ :: r => octets r

/-- How many times a `recv` would block. -/
def blocks : List Tok → Nat
  | [] => 0
  | .again :: r => blocks r + 1
  | _ :: r => blocks r

/-- A frame an endpoint may legally put on the wire: numbers within the ranges of RFC 3080/3081.
The ackno of a SEQ frame is restricted further by `SeqOk`. -/
structure Legal (f : Frame) : Prop where
  channel : 0 ≤ f.channel ∧ f.channel < 2147483648
  seqno : f.seqno < 4294967296
  size : 0 ≤ f.size ∧ f.size < 2147483640
  data : f.type ≠ .seq → 0 ≤ f.msgno ∧ f.msgno < 2147483648 ∧ f.size = f.payload.length
  ans : f.type = .ans → 0 ≤ f.ansno ∧ f.ansno < 2147483648
  notAns : f.type ≠ .ans → f.ansno = 0
  seq : f.type = .seq → f.msgno = 0 ∧ f.more = false ∧ f.payload = []

/-- The two ackno values the parser confuses with its error codes. -/
def SeqOk (f : Frame) : Prop := f.type = .seq → f.seqno < 4294967294

/-- Header line of a frame, as written by the library. -/
def headerOf (f : Frame) : Option (List Byte) :=
  if f.type = .seq then buildSeq f.channel f.seqno f.size
  else buildHeader f.type f.channel f.msgno f.more f.seqno f.size
    (if f.type = .ans then f.ansno else -1) none none

/-- What follows the header line: payload and trailer, nothing for SEQ. -/
def bodyOf (f : Frame) : List Byte :=
  if f.type = .seq then [] else f.payload ++ lit "END" ++ crlf

/-- The octets of a sequence of frames on the wire. -/
def wire : List Frame → Option (List Byte)
  | [] => some []
  | f :: fs => do
    let h ← headerOf f
    let r ← wire fs
    pure (h ++ (bodyOf f ++ r))

/-- `script` delivers exactly `frames`, split in any way by short reads and would-blocks, but with
at most 25 would-blocks while a header line is incomplete. Would-blocks between frames (which
the reader waits out) can be counted in the body of the previous frame or in `lead`. -/
inductive Delivers : List Frame → List Tok → Prop
  | nil (junk : List Tok) (h : ∀ t ∈ junk, t = .cut ∨ t = .again) : Delivers [] junk
  | cons (f : Frame) (fs : List Frame) (lead hs bs rest : List Tok) (header : List Byte)
      (hl : ∀ t ∈ lead, t = .cut ∨ t = .again)
      (hh : headerOf f = some header) (hd : octets hs = header) (hn : blocks hs ≤ 25)
      (he : .eof ∉ hs ++ bs) (hb : octets bs = bodyOf f) (hr : Delivers fs rest) :
      Delivers (f :: fs) (lead ++ hs ++ bs ++ rest)

/-- The rest of the library accepts `frames` one after the other. -/
def Accepts {σ : Type} (envOf : σ → ReadEnv) (handle : σ → Frame → Option σ) :
    σ → List Frame → σ → Prop
  | s, [], s' => s = s'
  | s, f :: fs, s' =>
    (envOf s).channelExists f.channel = true ∧
    (f.type ≠ .seq → (envOf s).seqnoOk f.channel f.seqno f.size = true) ∧
    ∃ s1, handle s f = some s1 ∧ Accepts envOf handle s1 fs s'

end Verif.Spec
