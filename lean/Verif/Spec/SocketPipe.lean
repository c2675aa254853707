import Verif.Model.SocketPipe
/-!
# Specification of the pipe made of sockets (C154)
-/
namespace Verif.Spec
open Verif.Model

/-- The call ended as documented: two descriptors that are connected with each other and nothing else left open, or a failure with
nothing left open. -/
def PipGood (r : PipAnswer × List Nat) : Prop :=
  (∃ a b, r = (.made a b (.own a), [a, b])) ∨ r = (.failed, [])

/-- C154 in full: whatever the system answers and whoever connects meanwhile, the call returns, and as documented. -/
def C154_statement : Prop := ∀ w, PipGood (pipMake w)

/-- Nobody else connects to the port before the process does, and its number can be read. -/
def PipAlone (w : PipWorld) : Prop := w.before = [] ∧ w.name = true

end Verif.Spec
