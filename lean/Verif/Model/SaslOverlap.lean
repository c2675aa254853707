/-!
# SASL negotiations of a client that overlap on one connection (C151)

`vortex_sasl_set_propertie` (sasl/vortex_sasl.c:274-342), `vortex_sasl_start_auth` (:1297-1362) and the task it leaves to the thread
pool, `__vortex_sasl_start_auth` (:1042-1191), in the steps between which other threads run. The SASL context of the connection is
stored once per connection (`SASL_DATA`) and replaced, with release of the one before, at every start.

Simplifications: the connection works all along and the channels of the negotiations stay open, so that the flag decides
`vortex_sasl_is_authenticated`; profiles are SASL profiles; the steps are atomic; a malformed reply, after which the program is
told twice, is not distinguished from another failure (it is in `saslSteps`, Verif/Model/Sasl.lean); the host name property is left out.
-/
namespace Verif.Model

inductive SngProp
  | authid | authzid | password | realm | token
  deriving DecidableEq, Repr

/-- The values stored in the connection. -/
structure SngProps where
  authid : Option Nat
  authzid : Option Nat
  password : Option Nat
  realm : Option Nat
  token : Option Nat
  deriving DecidableEq, Repr

inductive SngMech
  | anonymous | plain | cram | digest | external
  deriving DecidableEq, Repr

/-- Where a negotiation is. -/
inductive SngPhase
  /-- not started -/
  | none
  /-- `vortex_sasl_start_auth` left the task to the pool -/
  | queued
  /-- the first message was built; the channel is being created -/
  | sent
  /-- `__vortex_sasl_initiator_do_steps`, with the pointer to the context it read (:887) -/
  | stepping (ctx : Nat)
  | finished
  deriving DecidableEq, Repr

/-- What can be observed. -/
inductive SngEvent
  /-- the first message of the negotiation is built from those values -/
  | first (i : Nat) (values : SngProps)
  /-- a reply to negotiation `i` is given to the session made for negotiation `j` -/
  | fed (i : Nat) (j : Nat)
  /-- the handler of the program is told the outcome -/
  | told (i : Nat) (ok : Bool)
  deriving DecidableEq, Repr

structure SngState where
  props : SngProps
  /-- `SASL_IS_AUTHENTICATED` -/
  authed : Bool
  /-- the context of the connection, named by the negotiation whose start created it -/
  ctx : Option Nat
  /-- the session of that context, named by the negotiation that began it -/
  session : Option Nat
  /-- the contexts released -/
  gone : List Nat
  tasks : Nat → SngPhase
  log : List SngEvent
  /-- released memory or a NULL pointer was used -/
  bad : Bool

def sngInit : SngState := ⟨⟨none, none, none, none, none⟩, false, none, none, [], fun _ => .none, [], false⟩

/-- A reply of the peer and what the mechanism makes of it. -/
inductive SngReply
  /-- status `complete`: the mechanism is not asked (:915-921) -/
  | complete
  /-- the mechanism wants to go on (:949-966) -/
  | more
  /-- the mechanism is satisfied -/
  | last
  /-- the mechanism refuses -/
  | wrong
  /-- an error of the peer, seen before the mechanism is asked (:898-901) -/
  | error
  deriving DecidableEq, Repr

inductive SngOp
  | set (p : SngProp) (v : Nat)
  | start (i : Nat) (m : SngMech)
  | first (i : Nat) (ok : Bool)
  | channel (i : Nat) (ok : Bool)
  | reply (i : Nat) (r : SngReply)
  deriving DecidableEq, Repr

/-- `vortex_sasl_set_propertie`, sasl/vortex_sasl.c:302-339; the token is stored as authentication id too (:319-331). -/
def SngProps.set (q : SngProps) : SngProp → Nat → SngProps
  | .authid, v => { q with authid := some v }
  | .authzid, v => { q with authzid := some v }
  | .password, v => { q with password := some v }
  | .realm, v => { q with realm := some v }
  | .token, v => { q with token := some v, authid := some v }

/-- `__vortex_sasl_auth_data_sanity_check`, sasl/vortex_sasl.c:1208-1255. -/
def SngProps.sane (q : SngProps) : SngMech → Bool
  | .anonymous => q.token.isSome
  | .plain => q.authid.isSome && q.password.isSome
  | .cram => q.authid.isSome && q.password.isSome
  | .digest => q.authid.isSome && q.password.isSome
  | .external => q.authzid.isSome || q.authid.isSome

/-- Phase of one negotiation. -/
def SngState.move (s : SngState) (i : Nat) (p : SngPhase) : SngState :=
  { s with tasks := fun k => if k = i then p else s.tasks k }

/-- `__vortex_sasl_notify` with `VortexError`, sasl/vortex_sasl.c:497-508, 517-518; the negotiation ends. -/
def SngState.fail (s : SngState) (i : Nat) : SngState :=
  { s.move i .finished with
    authed := false
    props := ⟨none, none, none, none, s.props.token⟩
    log := s.log ++ [.told i false] }

/-- … with `VortexOk`, :509-518. -/
def SngState.succeed (s : SngState) (i : Nat) : SngState :=
  { s.move i .finished with authed := true, log := s.log ++ [.told i true] }

/-- `gsasl_step64` with `data->session`, :938; the context may be gone. -/
def SngState.feed (s : SngState) (i c : Nat) : SngState :=
  if c ∈ s.gone then { s with bad := true }
  else match s.session with
    | some j => { s with log := s.log ++ [.fed i j] }
    | none => { s with bad := true }

/-- One step; `none`: it cannot happen there. -/
def sngStep (s : SngState) : SngOp → Option SngState
  | .set p v => some { s with props := s.props.set p v }
  | .start i m =>
    if s.tasks i = .none then
      -- :1322-1328 and :1330-1332
      if s.authed then some (s.fail i)
      else if s.props.sane m = false then some (s.fail i)
      else
        -- `__vortex_sasl_create_context`, :569-600: the context before is released by the replacement
        some { s.move i .queued with
               ctx := some i
               session := none
               gone := match s.ctx with
                 | some c => c :: s.gone
                 | none => s.gone }
    else none
  | .first i ok =>
    -- `__vortex_sasl_initiator_do_initial_step`, :688-750, with the context that is there now
    if s.tasks i = .queued then
      if s.ctx = none then some { s with bad := true }
      else if ok then
        some { s.move i .sent with session := some i, log := s.log ++ [.first i s.props] }
      else some (s.fail i)
    else none
  | .channel i ok =>
    -- :1084-1117, then :1145 and :887
    if s.tasks i = .sent then
      if ok then
        match s.ctx with
        | some c => some (s.move i (.stepping c))
        | none => some { s with bad := true }
      else some (s.fail i)
    else none
  | .reply i r =>
    match s.tasks i with
    | .stepping c =>
      match r with
      | .complete => some (s.succeed i)
      | .error => some (s.fail i)
      | .more => some (s.feed i c)
      | .last => some ((s.feed i c).succeed i)
      | .wrong => some ((s.feed i c).fail i)
    | _ => none

/-- A schedule. -/
def sngRun (s : SngState) : List SngOp → Option SngState
  | [] => some s
  | op :: ops => (sngStep s op).bind (fun m => sngRun m ops)

end Verif.Model
