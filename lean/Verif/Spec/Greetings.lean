import Verif.Model.Greetings
import Verif.Spec.Mime
/-!
# Vocabulary of C49 and C50
-/
namespace Verif.Spec
open Verif.Model

/-- An optional XML attribute. -/
def attributeText (name : List Byte) : Option (List Byte) → List Byte
  | none => []
  | some v => lit " " ++ name ++ lit "='" ++ v ++ lit "'"

/-- The element that announces a profile. -/
def profileText (uri : List Byte) : List Byte := lit "   <profile uri='" ++ uri ++ lit "' />\r\n"

/-- The greetings of a program with these profiles registered, of which `offered` are announced. -/
def greetingText (features localize : Option (List Byte)) (registered offered : List (List Byte)) : List Byte :=
  lit "<greeting" ++ attributeText (lit "features") features ++ attributeText (lit "localize") localize ++
    (if registered = [] then lit " />\r\n" else lit ">\r\n" ++ offered.flatMap profileText ++ lit "</greeting>\r\n")

/-- No apostrophe. -/
def quotable (s : List Byte) : Prop := (39 : Byte) ∉ s

/-- A frame as the reader hands it over: its size is the one of its payload, sequence numbers have 32 bits. -/
def fromWire (f : VFrame) : Prop :=
  f.mimeSize = 0 ∧ f.seqno < 4294967296 ∧ ∃ p, f.payload = some p ∧ f.size = p.length

/-- Each frame starts where the one before ended, the first one at `n`. -/
def consecutive : Nat → List VFrame → Prop
  | _, [] => True
  | n, f :: fs => f.seqno = n ∧ consecutive ((n + f.size.toNat) % 4294967296) fs

/-- The frames are the fragments of one reply to message 0 of channel 0, complete, and the first thing sent on it. -/
structure FirstReply (fs : List VFrame) : Prop where
  some : fs ≠ []
  kind : ∀ f ∈ fs, f.type = .rpy ∧ f.channel = 0 ∧ f.msgno = 0
  answer : ∀ f ∈ fs, ∀ g ∈ fs, f.ansno = g.ansno
  order : consecutive 0 fs
  more : ∀ f ∈ fs.dropLast, f.more = true
  last : ∀ f, fs.getLast? = Option.some f → f.more = false

/-- What they carry. -/
def contentOf (fs : List VFrame) : List Byte := fs.flatMap fun f => f.payload.getD []

/-- Nothing can happen any more. -/
def greetAtRest (early : Bool) (listenerContent : List Byte) (l : GreetLink) : Prop :=
  ∀ op, l.step early listenerContent op = l

end Verif.Spec
