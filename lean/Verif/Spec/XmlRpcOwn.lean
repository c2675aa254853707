import Verif.Model.XmlRpcOwn
namespace Verif.Spec
open Verif.Model

/-- The second object is a part of the first, or a part of a part, and so on. -/
inductive XvInside (h : List XvObj) : Nat → Nat → Prop
  | part {a b : Nat} {x : XvObj} : h[a]? = some x → b ∈ x.kids → XvInside h a b
  | deeper {a c b : Nat} {x : XvObj} : XvInside h a c → h[c]? = some x → b ∈ x.kids → XvInside h a b

/-- The application owns the object, or something it is a part of. -/
def XvReach (s : XvState) (o : Nat) : Prop := o ∈ s.held ∨ ∃ a, a ∈ s.held ∧ XvInside s.heap a o

def XvIs (s : XvState) (o : Nat) (kinds : List XvKind) : Prop := ∃ x, s.heap[o]? = some x ∧ x.kind ∈ kinds

def xvValues : List XvKind := [.int, .string, .base64, .none, .ofStruct, .ofArray]

/-- The application keeps to the documentation: what it gives away or releases is its own, what it looks at is its own or part of it, and
nothing is made a part of itself. -/
def XvDocumented (s : XvState) : XvOp → Prop
  | .text => True
  | .intNew => True
  | .noneNew => True
  | .stringNew _ => True
  | .stringRef _ t => t ∈ s.held ∧ XvIs s t [.text]
  | .holdNew c => c ∈ s.held ∧ XvIs s c [.struct, .array]
  | .structNew _ => True
  | .arrayNew _ => True
  | .add c v => XvReach s c ∧ XvIs s c [.struct, .array] ∧ v ∈ s.held ∧ XvIs s v xvValues ∧ ¬ XvInside s.heap v c
  | .ref c => XvReach s c ∧ XvIs s c [.struct, .array]
  | .copy v => XvReach s v ∧ XvIs s v xvValues
  | .respond v => v ∈ s.held ∧ XvIs s v xvValues
  | .free o => o ∈ s.held
  | .use o => XvReach s o
  | .memberAt o _ => XvReach s o ∧ XvIs s o [.struct]
  | .unmarshall r => r ∈ s.held ∧ XvIs s r [.response]
  | .unmarshallString r => r ∈ s.held ∧ XvIs s r [.response]
  | .unmarshallPlain r => r ∈ s.held ∧ XvIs s r [.response]

/-- In addition: nothing is added to a struct or array that is full, no member of a struct is looked at before it is added, a string is
taken only from values that hold no other memory, and a struct or array not without a function to unmarshall it. -/
def XvCareful (s : XvState) : XvOp → Prop
  | .add c _ => ∀ x, s.heap[c]? = some x → x.kids.length < x.cap
  | .memberAt o i => ∀ x, s.heap[o]? = some x → i < x.kids.length ∨ x.cap ≤ i
  | .unmarshallString r => ∀ x v, s.heap[r]? = some x → v ∈ x.kids → XvIs s v [.int, .string, .none]
  | .unmarshallPlain r => ∀ x v, s.heap[r]? = some x → v ∈ x.kids → XvIs s v [.int, .string, .base64, .none]
  | _ => True

/-- Every step is in order in the state it is made in. -/
def XvObeys (rule : XvState → XvOp → Prop) : XvState → List XvOp → Prop
  | _, [] => True
  | s, op :: r => rule s op ∧ XvObeys rule (s.step op) r

/-- All memory is released. -/
def XvReleased (s : XvState) : Prop := ∀ (o : Nat) (x : XvObj), s.heap[o]? = some x → x.live = false

end Verif.Spec
