import Verif.Model.GreetCache
/-! What C95 says about the greetings of the peers. -/
namespace Verif.Spec
open Verif.Model

/-- What greetings with these octets say; `none`: they are no valid greetings. -/
def said (x : GreetXml) (body : List Byte) : Option Advert :=
  match x.parse body with
  | none => none
  | some d => if x.valid d then some (x.advert d) else none

/-- The history up to now, oldest event first: the connection works. -/
def gcUp (c : Nat) (past : List GcEvent) : Bool :=
  past.foldl (fun up e => match e with
    | .connected d => if d = c then true else up
    | .shut d => if d = c then false else up
    | .refused d _ => if d = c then false else up
    | _ => up) false

/-- The octets of the last greetings accepted from the peer of this connection. -/
def lastGreeting (c : Nat) (past : List GcEvent) : Option (List Byte) :=
  past.foldl (fun g e => match e with
    | .accepted d body => if d = c then some body else g
    | _ => g) none

/-- What the peer of this connection said. -/
def peerSaid (x : GreetXml) (c : Nat) (past : List GcEvent) : Option Advert := (lastGreeting c past).bind (said x)

/-- The event is right after this history. -/
def gcRight (x : GreetXml) (past : List GcEvent) : GcEvent → Prop
  | .connected _ => True
  | .shut _ => True
  | .accepted _ body => (said x body).isSome
  | .refused _ body => said x body = none
  | .features c v => v = if gcUp c past then (peerSaid x c past).bind (·.features) else none
  | .localize c v => v = if gcUp c past then (peerSaid x c past).bind (·.localize) else none
  | .profiles c filtered v =>
    v = if gcUp c past then some (((peerSaid x c past).map (·.profiles)).getD [] |>.filter (fun u => !filtered u)) else none
  | .supported c uri v => v = true ↔ gcUp c past = true ∧ ∃ a : Advert, peerSaid x c past = some a ∧ uri ∈ a.profiles
  | .freed _ => False

/-- All events are right. -/
def gcAllRight (x : GreetXml) (evs : List GcEvent) : Prop :=
  ∀ past e rest, evs = past ++ e :: rest → gcRight x past e

/-- No greetings received contain a zero octet. -/
def noZero (ops : List GcOp) : Prop := ∀ c body, GcOp.lookup c body ∈ ops → NUL ∉ body

end Verif.Spec
