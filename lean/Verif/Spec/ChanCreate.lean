import Verif.Model.ChanCreate
/-! What C88 and C89 say about channels asked for. -/
namespace Verif.Spec
open Verif.Model

/-- The peer accepts the channel with the profile asked for: a positive reply that holds that profile. -/
def StartAccepted (parse : List UInt8 → Option StartDoc) (requested : String) (r : StartReply) : Prop :=
  r.kind = .rpy ∧ ∃ content, parse r.payload = some (.profile (some requested) content)

/-- An answer as the protocol asks for: a positive reply holds the profile asked for, other replies hold no profile, and the text has no
NUL octet. -/
def StartFaithful (parse : List UInt8 → Option StartDoc) (requested : String) (r : StartReply) : Prop :=
  (r.kind = .rpy → StartAccepted parse requested r) ∧
  (r.kind ≠ .rpy → ∀ u c, parse r.payload ≠ some (.profile u c)) ∧
  0 ∉ r.payload

/-- The profile content the peer sent with its answer, if there is any. -/
def startContent (parse : List UInt8 → Option StartDoc) (r : StartReply) : Option String :=
  match parse r.payload with
  | some (.profile _ (some c)) => if c = "" then none else some c
  | _ => none

/-- The call has not come back yet. -/
def createUnderWay (c : CreateCall) : Bool := match c.pc with | .returned _ => false | _ => true

/-- The call ended with a channel. -/
def createMade (c : CreateCall) : Prop := c.pc = .ended true ∨ c.pc = .returned true

/-- The call ended without a channel. -/
def createFailed (c : CreateCall) : Prop := c.pc = .ended false ∨ c.pc = .returned false

/-- No call asks for a number while another call for that number is under way. -/
def createsApart (s : ChanCreate) : List ChanCreateAct → Prop
  | [] => True
  | a :: rest =>
    (∀ num threaded, a = .call num threaded → ∀ c, c ∈ s.calls → c.num = num → createUnderWay c = false) ∧ createsApart (s.step a) rest

end Verif.Spec
