import Verif.Model.WaitAgain
/-!
# What the documentation of `vortex_channel_wait_reply` says about objects used again
-/
namespace Verif.Spec
open Verif.Model

/-- The messages that were sent with the object, in order. -/
def waSent (o : Nat) (log : List (List WaEvent)) : List Nat :=
  log.flatten.filterMap (fun e => match e with | .sent k (some i) => if i = o then some k else none | _ => none)

/-- The last thing that happened with the object: `some true`: a call to wait with it returned NULL, `some false`: a message was sent
with it. -/
def waLast (o : Nat) (log : List (List WaEvent)) : Option Bool :=
  (log.flatten.filterMap (fun e => match e with
    | .sent _ (some i) => if i = o then some false else none
    | .returned i none => if i = o then some true else none
    | _ => none)).getLast?

/-- "You can only reuse a wait_reply object in the case the function returns NULL." -/
def waDocumented (ops : List WaOp) : Prop :=
  ∀ a o b, ops = a ++ .send (some o) :: b → waLast o (WaState.init.run a).2 ≠ some false

/-- Every object is used for one message. -/
def waOnce (ops : List WaOp) : Prop :=
  ∀ a o b, ops = a ++ .send (some o) :: b → waSent o (WaState.init.run a).2 = []

/-- No message is answered with ANS and NUL frames. -/
def waOneToOne (ops : List WaOp) : Prop := WaOp.reply false ∉ ops

/-- No object is given up before its reply came. -/
def waPatient (ops : List WaOp) : Prop := ∀ o, WaOp.drop o ∉ ops

end Verif.Spec
