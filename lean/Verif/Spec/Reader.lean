import Verif.Model.Reader
/-!
# Specification vocabulary: what a history of one channel shows
-/
namespace Verif.Spec
open Verif.Model

/-- A data frame as the parser hands it over: the size field is the length of the payload, and a message
number -1 never gets through. -/
structure Parsed (f : Frame) : Prop where
  type : f.type ≠ .seq
  msgno : f.msgno ≠ -1
  size : f.size = f.payload.length

/-- All frames of a history are as the parser produces them. -/
def AllParsed (ops : List ChanOp) : Prop := ∀ f, ChanOp.frame f ∈ ops → Parsed f

/-- The frame was let in (stored or delivered). -/
def Outcome.letIn : Outcome → Bool
  | .ignored | .closed => false
  | .kept | .delivered _ | .overflow => true

/-- The frames let in, in order. -/
def letIn : List ChanEvent → List Frame
  | [] => []
  | .frame f o :: es => if Outcome.letIn o then f :: letIn es else letIn es
  | .send _ _ :: es => letIn es

/-- Numbers of the messages begun by successful send calls, in order. A call after one with the "more"
indication continues the same message. -/
def begun (inside : Bool) : List ChanEvent → List Int
  | [] => []
  | .send more (.sent m) :: es => if inside then begun more es else m :: begun more es
  | _ :: es => begun inside es

/-- Whether the last successful send left a message unfinished. -/
def insideAfter (inside : Bool) : List ChanEvent → Bool
  | [] => inside
  | .send more (.sent _) :: es => insideAfter more es
  | _ :: es => insideAfter inside es

/-- The frame is a reply (RFC 3080: RPY, ERR, ANS, NUL). -/
def IsReply (f : Frame) : Prop := f.type = .rpy ∨ f.type = .err ∨ f.type = .ans ∨ f.type = .nul

/-- The frame is the last one of the reply to a message (RFC 3080). -/
def endsReply (f : Frame) : Bool := f.type = .nul || ((f.type = .rpy || f.type = .err) && !f.more)

/-- Numbers of the messages completely answered, in order. -/
def answered (es : List ChanEvent) : List Int := ((letIn es).filter endsReply).map (·.msgno)

/-- Octets carried by frames. -/
def octetsIn (fs : List Frame) : Nat := (fs.map (·.payload.length)).sum

/-- What the application received, in order. -/
def delivered : List ChanEvent → List Delivery
  | [] => []
  | .frame _ (.delivered d) :: es => d :: delivered es
  | _ :: es => delivered es

/-- Frames cut into messages: a message ends at a frame without the "more" indication. What follows the
last such frame is an unfinished message. `cur` is the unfinished message before the list. -/
def cut (cur : List Frame) : List Frame → List (List Frame)
  | [] => []
  | f :: fs => if f.more then cut (cur ++ [f]) fs else (cur ++ [f]) :: cut [] fs

/-- The unfinished message at the end. -/
def unfinished (cur : List Frame) : List Frame → List Frame
  | [] => cur
  | f :: fs => if f.more then unfinished (cur ++ [f]) fs else unfinished [] fs

/-- The frames belong to one message: same kind, message number and answer number. -/
def OneMessage (fs : List Frame) : Prop :=
  ∀ a ∈ fs, ∀ b ∈ fs, a.type = b.type ∧ a.msgno = b.msgno ∧ a.ansno = b.ansno

/-- `d` is the message made of these frames. -/
structure IsMessage (fs : List Frame) (d : Delivery) : Prop where
  first : ∃ f rest, fs = f :: rest ∧ d.type = f.type ∧ d.channel = f.channel ∧ d.msgno = f.msgno ∧
    d.ansno = f.ansno ∧ d.seqno = f.seqno
  more : d.more = false
  content : d.content = fs.flatMap (·.payload)

/-- Two lists of the same length, element by element related. -/
inductive Each {α β : Type} (R : α → β → Prop) : List α → List β → Prop
  | nil : Each R [] []
  | cons {a b as bs} : R a b → Each R as bs → Each R (a :: as) (b :: bs)

end Verif.Spec
