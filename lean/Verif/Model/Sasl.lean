import Verif.Model.CInt
/-!
# SASL (sasl/vortex_sasl.c)

The mechanisms themselves are in the gsasl library, which is not part of /repo. What it does in one step is chosen by
the environment: see `SaslTurn`. Texts (identities, realms, tokens) are represented by numbers.
-/
namespace Verif.Model

/-! ## The listener -/

inductive SaslMech
  | anonymous
  | plain
  | cram
  | digest
  | external
  deriving DecidableEq, Repr

/-- Identities and so on: those read by gsasl from the messages of the peer, or those kept with the connection
(`vortex_sasl_get_propertie`). -/
structure SaslProps where
  authid : Option Nat
  authzid : Option Nat
  realm : Option Nat
  token : Option Nat
  deriving DecidableEq, Repr

/-- Which properties gsasl reads from the messages of a mechanism. -/
def SaslMech.relevant (m : SaslMech) (p : SaslProps) : SaslProps :=
  match m with
  | .anonymous => ⟨none, none, none, p.token⟩
  | .plain => ⟨p.authid, p.authzid, none, none⟩
  | .cram => ⟨p.authid, none, none, none⟩
  | .digest => ⟨p.authid, p.authzid, p.realm, none⟩
  | .external => ⟨none, p.authzid, none, none⟩

/-- The mechanism gets a password from the application and compares it with the proof of the peer itself. -/
def SaslMech.byPassword : SaslMech → Bool
  | .cram => true
  | .digest => true
  | _ => false

/-- What `gsasl_step64` does with a message of the peer. -/
inductive SaslTurn
  /-- `GSASL_NEEDS_MORE` -/
  | more
  /-- some error, without asking the application -/
  | error
  /-- it reads these properties and asks the application (`__vortex_sasl_auth_validation`); `proof`: what the peer sent
  matches the password given by the application, if the mechanism works with one -/
  | ask (p : SaslProps) (proof : Bool)
  deriving DecidableEq, Repr

/-- A message of the peer: `__vortex_sasl_get_base64_blob`, sasl/vortex_sasl.c:788-862, and `status='abort'`. -/
inductive SaslInput
  | malformed
  | abort
  | blob (t : SaslTurn)
  deriving DecidableEq, Repr

/-- The application: whether the handler installed for the mechanism accepts these properties or gives a password for
them; whether it was installed with `vortex_sasl_accept_negotiation_common`. -/
structure SaslConfig where
  accepts : SaslMech → SaslProps → Bool
  common : SaslMech → Bool

/-- The connection data `SASL_DATA`: NULL, without a session, or with one. -/
inductive SaslSession
  | absent
  | unstarted
  | running (m : SaslMech)
  deriving DecidableEq, Repr

/-- What the listener keeps with a connection. -/
structure SaslServer where
  /-- `SASL_IS_AUTHENTICATED` -/
  authed : Bool
  /-- `SASL_METHOD_USED` -/
  method : Option SaslMech
  /-- `SASL_AUTHID`, `SASL_AUTHZID`, `SASL_REALM`, `SASL_ANONYMOUS_TOKEN` -/
  props : SaslProps
  session : SaslSession
  /-- `__vortex_sasl_filter_profiles` was called -/
  masked : Bool
  /-- the open channels with SASL profiles -/
  chans : List SaslMech
  deriving DecidableEq, Repr

def SaslServer.init : SaslServer := ⟨false, none, ⟨none, none, none, none⟩, .absent, false, []⟩

/-- `vortex_sasl_is_authenticated`, sasl/vortex_sasl.c:437-446. -/
def SaslServer.isAuthenticated (c : SaslServer) : Bool :=
  c.authed && (match c.method with
    | some m => decide (m ∈ c.chans)
    | none => false)

/-- `vortex_sasl_set_propertie`, sasl/vortex_sasl.c:274-342: NULL is not stored (:296). -/
def saslSet (old new : Option Nat) : Option Nat :=
  match new with
  | some v => some v
  | none => old

/-- `VORTEX_SASL_ANONYMOUS_TOKEN` sets the authentication id too, sasl/vortex_sasl.c:319-331. -/
def SaslProps.setToken (q : SaslProps) (t : Option Nat) : SaslProps :=
  match t with
  | some v => { q with token := some v, authid := some v }
  | none => q

/-- The properties stored when the application accepts: `vortex_sasl_handle_generic_request` (:1852-1855) with a common
handler, otherwise the functions for the mechanisms: :1574 (anonymous), :1625-1629 (plain), :1678 (CRAM-MD5), :1726-1733
(DIGEST-MD5), :1768 (external). -/
def SaslProps.accept (q : SaslProps) (common : Bool) (m : SaslMech) (p : SaslProps) : SaslProps :=
  if common then
    { q with authid := saslSet q.authid p.authid
             authzid := saslSet q.authzid p.authzid
             realm := saslSet q.realm p.realm }.setToken p.token
  else
    match m with
    | .anonymous => q.setToken p.token
    | .plain => { q with authid := saslSet q.authid p.authid, authzid := saslSet q.authzid p.authzid }
    | .cram => { q with authid := saslSet q.authid p.authid }
    | .digest => { q with authid := saslSet q.authid p.authid
                          authzid := saslSet q.authzid p.authzid
                          realm := saslSet q.realm p.realm }
    | .external => { q with authzid := saslSet q.authzid p.authzid }

/-- `__validation_handler_check_properties`, sasl/vortex_sasl.c:1490-1543. -/
def SaslMech.complete (m : SaslMech) (p : SaslProps) : Bool :=
  match m with
  | .anonymous => p.token.isSome
  | .external => p.authzid.isSome
  | .plain => p.authid.isSome
  | .cram => p.authid.isSome
  | .digest => p.authid.isSome

/-- `__vortex_sasl_auth_validation`, sasl/vortex_sasl.c:1874-1986: the answer given to gsasl (`GSASL_OK` or not), and
the connection. -/
def SaslServer.validate (cfg : SaslConfig) (c : SaslServer) (m : SaslMech) (p : SaslProps) : Bool × SaslServer :=
  if m.complete p && cfg.accepts m p then (true, { c with props := c.props.accept (cfg.common m) m p, method := some m })
  else (false, c)

/-- The reply to the peer; `null`: no reply was built. -/
inductive SaslAnswer
  | more
  | complete
  | failure
  | null
  deriving DecidableEq, Repr

/-- `__vortex_sasl_notify` with `VortexError`, sasl/vortex_sasl.c:501-507. -/
def SaslServer.fail (c : SaslServer) : SaslServer :=
  { c with authed := false, props := { c.props with authid := none, authzid := none, realm := none } }

/-- `__vortex_sasl_server_iterate`, sasl/vortex_sasl.c:2048-2135: the flag returned, the reply, the connection; `none`:
a NULL pointer is used (`data->session` without data, `gsasl_step64` without a session). -/
def SaslServer.iterate (cfg : SaslConfig) (c : SaslServer) : SaslInput → Option (Bool × SaslAnswer × SaslServer)
  | .malformed => some (false, .failure, c.fail)
  | .abort => some (false, .null, { c with session := .absent })
  | .blob t =>
    match c.session with
    | .absent => none
    | .unstarted => none
    | .running m =>
      match t with
      | .more => some (true, .more, c)
      | .error => some (false, .failure, c)
      | .ask p proof =>
        let r := c.validate cfg m (m.relevant p)
        if r.1 && (proof || !m.byPassword) then some (true, .complete, { r.2 with authed := true, masked := true })
        else some (false, .failure, r.2)

/-- What happens on the connection. -/
inductive SaslEvent
  /-- the peer starts a channel with a SASL profile; `supported`: `gsasl_server_start` knows the mechanism -/
  | start (m : SaslMech) (supported : Bool) (i : SaslInput)
  /-- a message on an open SASL channel -/
  | frame (i : SaslInput)
  /-- a SASL channel is closed -/
  | close (m : SaslMech)
  deriving DecidableEq, Repr

/-- `__vortex_sasl_accept_negotiation_start` (:2152-2236), `__vortex_sasl_accept_negotiation_frame_receive` (:2238-2264,
which takes the length of the reply). The mask refuses starts (`__vortex_sasl_mask`, :999-1011). `none`: the process
crashes. -/
def SaslServer.step (cfg : SaslConfig) (c : SaslServer) : SaslEvent → Option (SaslAnswer × SaslServer)
  | .start m supported i =>
    if c.masked then some (.failure, c)
    else if !supported then some (.failure, { c with session := .unstarted })
    else
      match SaslServer.iterate cfg { c with session := .running m } i with
      | none => none
      | some (ok, a, c) => some (a, if ok then { c with chans := m :: c.chans } else c)
  | .frame i =>
    if c.chans = [] then some (.null, c)
    else
      match c.iterate cfg i with
      | none => none
      | some (_, .null, _) => none
      | some (_, a, c) => some (a, c)
  | .close m => some (.null, { c with chans := c.chans.erase m })

/-- A history: the replies, and the connection. -/
def SaslServer.run (cfg : SaslConfig) (c : SaslServer) : List SaslEvent → Option (List SaslAnswer × SaslServer)
  | [] => some ([], c)
  | e :: es =>
    match c.step cfg e with
    | none => none
    | some (a, c) =>
      match SaslServer.run cfg c es with
      | none => none
      | some (as, c) => some (a :: as, c)

/-! ## The initiator -/

/-- A reply of the listener; `blob complete`: whether the status is `complete`. -/
inductive SaslReply
  | null
  | error
  | malformed
  | blob (complete : Bool)
  deriving DecidableEq, Repr

/-- Return value of `gsasl_step64`. -/
inductive SaslVerdict
  | ok
  | more
  | error
  deriving DecidableEq, Repr

/-- A reply, the verdict of the mechanism about it, whether the mechanism has something to send, and whether it could be
sent. -/
structure SaslRound where
  reply : SaslReply
  verdict : SaslVerdict
  toSend : Bool
  sent : Bool
  deriving DecidableEq, Repr

/-- `__vortex_sasl_initiator_do_steps`, sasl/vortex_sasl.c:866-993: the flag returned and the notifications made on the
way (`false`: an error), in `__vortex_sasl_get_base64_blob`; `none`: it still waits for a reply. -/
def saslSteps : List SaslRound → Option (Bool × List Bool)
  | [] => none
  | r :: rs =>
    match r.reply with
    | .null => some (false, [])
    | .error => some (false, [])
    | .malformed => some (false, [false])
    | .blob complete =>
      if complete then some (true, [])
      else if r.verdict = .more ∨ r.toSend = true then
        if r.sent then saslSteps rs else some (false, [])
      else if r.verdict = .ok then some (true, []) else some (false, [])

/-- What `vortex_sasl_start_auth` finds. -/
structure SaslStart where
  /-- the connection works -/
  ok : Bool
  /-- the profile is a SASL profile -/
  family : Bool
  /-- the connection is authenticated already -/
  authed : Bool
  /-- the properties the profile needs are set -/
  sane : Bool
  /-- gsasl is initialised, its first step works, the channel is created, the connection referenced -/
  context : Bool
  first : Bool
  channel : Bool
  ref : Bool
  deriving DecidableEq, Repr

/-- `vortex_sasl_start_auth` (sasl/vortex_sasl.c:1297-1362) and `__vortex_sasl_start_auth` (:1042-1191): the
notifications, in order (`true`: success), and whether the connection is authenticated afterwards
(`__vortex_sasl_notify`, :483-522); `none`: it still waits. -/
def saslStartAuth (s : SaslStart) (rounds : List SaslRound) : Option (List Bool × Bool) :=
  if !s.ok then some ([false], false)
  else if !s.family then some ([false], false)
  else if s.authed then some ([false], false)
  else if !s.sane then some ([false], false)
  else if !s.context then some ([false], false)
  else if !s.first then some ([false], false)
  else if !s.channel then some ([false], false)
  else if !s.ref then some ([false], false)
  else
    match saslSteps rounds with
    | none => none
    | some (true, ns) => some (ns ++ [true], true)
    | some (false, ns) => some (ns ++ [false], false)

end Verif.Model
