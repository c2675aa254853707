import Verif.Model.Sasl
/-!
# Which function of the application decides about a SASL request (sasl/vortex_sasl.c:180-209, 1548-1862, 1874-1986, 2265-2612)

An application sets functions with three families of calls (without user data, with user data, for all mechanisms) and accepts mechanisms; a
peer opens a channel with a mechanism and the library GNU SASL asks for a decision. Simplified: the arguments of the functions but the user
data; what else GNU SASL asks for (realm and so on).
-/
namespace Verif.Model

/-- A call of a function of the application: which function, the user data. -/
structure VhCall where
  fn : Nat
  data : Option Nat
  deriving DecidableEq, Repr

/-- A request, the calls made for it and the decision. -/
structure VhDone where
  mech : SaslMech
  calls : List VhCall
  ok : Bool
  deriving DecidableEq, Repr

structure Vh where
  /-- `SASL_CTX` exists -/
  ready : Bool
  /-- `sasl_*_auth_handler`, `sasl_*_auth_handler_full` -/
  simple : SaslMech → Option Nat
  full : SaslMech → Option Nat
  /-- `<mech>_auth_handler`, `<mech>_user_data` -/
  common : SaslMech → Option Nat
  commonData : SaslMech → Option Nat
  /-- the mechanisms that are accepted, with the user data of the start function -/
  accepted : SaslMech → Option (Option Nat)
  /-- `VORTEX_SASL_*_USER_DATA` of each connection -/
  conns : Nat → SaslMech → Option Nat
  done : List VhDone
  /-- NULL was used -/
  bad : Bool

def Vh.new : Vh :=
  ⟨false, fun _ => none, fun _ => none, fun _ => none, fun _ => none, fun _ => none, fun _ _ => none, [], false⟩

inductive VhOp
  | init
  | simple (m : SaslMech) (h : Option Nat)
  | full (m : SaslMech) (h : Option Nat)
  | common (m : SaslMech) (h : Nat) (d : Option Nat)
  | accept (m : SaslMech) (d : Option Nat)
  /-- a peer opens a channel on a connection -/
  | start (c : Nat) (m : SaslMech)
  /-- a decision is needed on a connection; the properties the mechanism needs are there or not, and what the functions answer -/
  | request (c : Nat) (m : SaslMech) (complete : Bool) (answer : VhCall → Bool)

def vhSet {α : Type} (f : SaslMech → α) (m : SaslMech) (v : α) : SaslMech → α := fun k => if k = m then v else f k

/-- The functions for one mechanism, :1548-1781: for mechanisms that give a decision, the second function is asked when the first one refused;
for those that give a password only the first one is asked. -/
def vhOwn (password : Bool) (simple full : Option Nat) (data : Option Nat) (answer : VhCall → Bool) : List VhCall × Bool :=
  match simple, full with
  | none, none => ([], false)
  | some h, none => ([⟨h, none⟩], answer ⟨h, none⟩)
  | none, some g => ([⟨g, data⟩], answer ⟨g, data⟩)
  | some h, some g =>
    if password then ([⟨h, none⟩], answer ⟨h, none⟩)
    else if answer ⟨h, none⟩ then ([⟨h, none⟩], true)
    else ([⟨h, none⟩, ⟨g, data⟩], answer ⟨g, data⟩)

/-- Mechanisms for which the application gives a password, :1963-1975. -/
def vhPassword : SaslMech → Bool
  | .cram => true
  | .digest => true
  | _ => false

/-- `__vortex_sasl_auth_validation`, :1874-1986, and `vortex_sasl_handle_generic_request`, :1796-1862. -/
def Vh.decide (s : Vh) (c : Nat) (m : SaslMech) (complete : Bool) (answer : VhCall → Bool) : List VhCall × Bool :=
  if complete = false then ([], false)
  else match s.common m with
    | some h => ([⟨h, s.commonData m⟩], answer ⟨h, s.commonData m⟩)
    | none => vhOwn (vhPassword m) (s.simple m) (s.full m) (s.conns c m) answer

def Vh.step (s : Vh) : VhOp → Vh
  -- :180-209
  | .init => { s with ready := true }
  -- :2273-2443: the context is not checked
  | .simple m h => if s.ready then { s with simple := vhSet s.simple m h } else { s with bad := true }
  | .full m h => if s.ready then { s with full := vhSet s.full m h } else { s with bad := true }
  -- :2559-2611: user data is only stored when it is not NULL
  | .common m h d =>
    { s with ready := true, common := vhSet s.common m (some h)
             commonData := if d = none then s.commonData else vhSet s.commonData m d
             accepted := vhSet s.accepted m (some none) }
  -- :2473-2518
  | .accept m d => { s with ready := true, accepted := vhSet s.accepted m (some d) }
  -- :2160-2236
  | .start c m =>
    match s.accepted m with
    | some d => { s with conns := fun k => if k = c then vhSet (s.conns k) m d else s.conns k }
    | none => s
  | .request c m complete answer =>
    match s.accepted m with
    | some _ => { s with done := s.done ++ [⟨m, (s.decide c m complete answer).1, (s.decide c m complete answer).2⟩] }
    | none => s

def Vh.run (s : Vh) (ops : List VhOp) : Vh := ops.foldl Vh.step s

end Verif.Model
