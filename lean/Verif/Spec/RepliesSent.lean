import Verif.Model.RepliesSent
/-! What C83 says about waiting for replies to be sent. -/
namespace Verif.Spec
open Verif.Model

/-- What has still to be sent: the greeting (channel 0), and replies to these messages, oldest first. -/
structure RpyDue where
  greeting : Bool
  msgs : List Int

def RpyDue.none (d : RpyDue) : Prop := d.greeting = false ∧ d.msgs = []

/-- RPY, ERR and NUL end a reply; ANS does not. -/
def lastOfReply (t : FType) : Bool := t == .rpy || t == .err || t == .nul

/-- What is due after these events. -/
def rpyDue (d : RpyDue) : List RpyAct → RpyDue
  | [] => d
  | .msg n :: as => rpyDue { d with msgs := d.msgs ++ [n] } as
  | .reply t _ :: as =>
    if lastOfReply t then
      if d.greeting then rpyDue { d with greeting := false } as else rpyDue { d with msgs := d.msgs.tail } as
    else rpyDue d as

/-- Events as the protocol has them: message numbers are not negative and not due; replies are to the oldest message, after the greeting
(number 0). -/
def rpyLegal (d : RpyDue) : List RpyAct → Prop
  | [] => True
  | .msg n :: as => 0 ≤ n ∧ n ∉ d.msgs ∧ rpyLegal { d with msgs := d.msgs ++ [n] } as
  | .reply t n :: as =>
    (t = .ans → d.greeting = false ∧ d.msgs.head? = some n ∧ rpyLegal d as) ∧
    (t ≠ .ans → lastOfReply t = true ∧
      (d.greeting = true → n = 0 ∧ rpyLegal { d with greeting := false } as) ∧
      (d.greeting = false → d.msgs.head? = some n ∧ rpyLegal { d with msgs := d.msgs.tail } as))

/-- The numbers of the messages received. -/
def msgNumbers (acts : List RpyAct) : List Int := acts.filterMap fun a => match a with | .msg n => some n | _ => Option.none

/-- The state of a channel after these events. -/
def rpyState (chan0 : Bool) (acts : List RpyAct) : RpySent := (RpySent.init chan0).run acts

end Verif.Spec
