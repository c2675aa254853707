import Verif.Model.XmlRpcReply
/-!
# What peers and services may expect of XML-RPC calls (C115)
-/
namespace Verif.Spec
open Verif.Model

/-- The replies to message `c`. -/
def svReplies (l : List SvEvent) (c : Nat) : List Nat :=
  l.filterMap fun ev => match ev with
    | .replied c' x => if c' = c then some x else none
    | _ => none

/-- The services that got message `c`, in order. -/
def svInvoked (l : List SvEvent) (c : Nat) : List Nat :=
  l.filterMap fun ev => match ev with
    | .invoked i c' => if c' = c then some i else none
    | _ => none

/-- Message `c` was received. -/
def svReceived (l : List SvEvent) (c : Nat) : Prop := ∃ m, .received c m ∈ l

/-- Every operation but start messages without content and messages that are no method call. -/
def svWellFormed (ops : List SvOp) : Prop := .start .absent ∉ ops ∧ .call none ∉ ops

/-- The first service accepts every resource for which a channel is started. -/
def svFirstAccepts (sv : List SvService) (ops : List SvOp) : Prop :=
  ∃ s rest, sv = s :: rest ∧ ∀ r, .start (.boot r) ∈ ops → s.validate (some r) = true

end Verif.Spec
