import Verif.Model.XmlRpcInvoke
/-!
# What the application may expect of invocations (C114)
-/
namespace Verif.Spec
open Verif.Model

/-- What the handler of invocation `c` was told, in order. -/
def xiTolds (l : List XiEvent) (c : Nat) : List XiResult :=
  l.filterMap fun ev => match ev with
    | .told c' r => if c' = c then some r else none
    | _ => none

/-- The call of invocation `c` was accepted: nothing was told by the call itself. -/
def xiAccepted (l : List XiEvent) (c : Nat) : Prop := .notReady ∉ xiTolds l c ∧ .waitingPrevious ∉ xiTolds l c

/-- Invocation `c` was made. -/
def xiMade (l : List XiEvent) (c : Nat) : Prop := ∃ r, .returned c r ∈ l

/-- Nothing is going on: no task, no message without reply, no frame to deliver. -/
def xiQuiet (s : XiState) : Prop := s.outstanding = [] ∧ s.arrived = [] ∧ ∀ x, x ∈ s.calls → x.phase = .over

/-- The application invokes only when all it invoked before was told, and the peer sends nothing but replies. -/
def xiCareful (l : List XiEvent) : XiOp → Bool
  | .invoke _ => l.all fun ev => match ev with
    | .returned c _ => !(xiTolds l c).isEmpty
    | _ => true
  | .message _ => false
  | _ => true

/-- All operations were, with what had happened before each of them. -/
def xiObeys : XiState → List XiEvent → List XiOp → Bool
  | _, _, [] => true
  | s, l, op :: r => xiCareful l op && xiObeys (s.step op).1 (l ++ (s.step op).2) r

end Verif.Spec
