import Verif.Model.Sasl
/-!
# TLS (tls/vortex_tls.c)

OpenSSL is not part of /repo: what its calls return is chosen by the environment.
-/
namespace Verif.Model

/-- The handlers used to read and write: `vortex_connection_set_default_io_handler` (src/vortex_connection.c:6646) or
those of `vortex_tls_set_common_data` (tls/vortex_tls.c:633-662). -/
inductive TlsIo
  | clear
  | tls
  deriving DecidableEq, Repr

/-- `SSL_get_error`. -/
inductive SslError
  | wantRead
  | wantWrite
  | syscall
  | other
  deriving DecidableEq, Repr

/-- One call of `SSL_connect` or `SSL_accept`: the value returned (1: the handshake is done; 0: it was not successful but
was shut down controlled; negative: it was not successful) and the error asked for when it is not positive. -/
structure SslCall where
  ret : Int
  err : SslError
  deriving DecidableEq, Repr

/-- A connection, as far as TLS is concerned. -/
structure TlsConn where
  /-- `vortex_connection_is_ok` -/
  ok : Bool
  io : TlsIo
  /-- `vortex_connection_is_tlsficated`, src/vortex_connection.c:7107-7110 -/
  secured : Bool
  /-- `seq_frames_disabled`: no SEQ frames are sent (src/vortex_channel.c:4389) -/
  seqOff : Bool
  deriving DecidableEq, Repr

/-- A connection with a working session that does not use TLS. -/
def TlsConn.plain : TlsConn := ⟨true, .clear, false, false⟩

/-- `vortex_connection_new_empty_from_connection`, src/vortex_connection.c:903-1025: default handlers (:970), the data of
the old one, hence its `tls-fication:status`; SEQ frames are sent. -/
def TlsConn.renew (c : TlsConn) : TlsConn := ⟨true, .clear, c.secured, false⟩

/-! ## The initiator -/

/-- The answer to the start of the TLS channel. -/
inductive TlsAnswer
  /-- no channel or no reply in time -/
  | nothing
  | proceed
  /-- a reply with another content -/
  | otherContent
  | error
  | otherType
  deriving DecidableEq, Repr

/-- What the initiator meets. -/
structure TlsInit where
  answer : TlsAnswer
  /-- the connection that replaces the old one could be created -/
  renewed : Bool
  /-- an SSL context and an SSL object could be created -/
  context : Bool
  /-- the calls of `SSL_connect`, in order -/
  calls : List SslCall
  /-- the peer has a certificate -/
  cert : Bool
  /-- what the post check of the application says, if there is one -/
  post : Option Bool
  /-- greetings are sent, leave the library, and those of the peer are read and accepted -/
  greetSend : Bool
  greetSent : Bool
  greetRead : Bool
  /-- the connection still works after the greetings failed -/
  okAfter : Bool
  deriving DecidableEq, Repr

/-- The loop around `SSL_connect`, tls/vortex_tls.c:860-893: the flag and the connection; `none`: it still waits. -/
def tlsConnect (c : TlsConn) : List SslCall → Option (Bool × TlsConn)
  | [] => none
  | x :: xs =>
    if 0 < x.ret then some (true, c)
    else
      match x.err with
      | .wantRead => tlsConnect c xs
      | .wantWrite => tlsConnect c xs
      | .syscall => some (false, { c with ok := false })
      | .other => some (false, { c with io := .clear })

/-- `vortex_tls_invoke_tls_activation`, tls/vortex_tls.c:709-927. -/
def tlsActivate (e : TlsInit) (c : TlsConn) : Option (Bool × TlsConn) :=
  if !e.context then some (false, c)
  else
    match tlsConnect { c with io := .tls } e.calls with
    | none => none
    | some (false, c) => some (false, c)
    | some (true, c) =>
      if !e.cert then some (false, c)
      else
        match e.post with
        | some false => some (false, { c with ok := false })
        | _ => some (true, c)

/-- What is left: the old connection, the new one if it was created, and the notifications (the connection handed over,
the status). -/
structure TlsOutcome where
  old : TlsConn
  new : Option TlsConn
  notes : List (TlsConn × Bool)
  deriving DecidableEq, Repr

/-- `__vortex_tls_start_negotiation`, tls/vortex_tls.c:1015-1326; `none`: the handshake is not over yet. Not modelled:
the actions called at the end (:1312; the automatic negotiation does nothing there, as the connection is secured). -/
def tlsNegotiate (e : TlsInit) (c : TlsConn) : Option TlsOutcome :=
  let c := { c with seqOff := true }
  if e.answer ≠ .proceed then some ⟨c, none, [(c, false)]⟩
  else if !e.renewed then some ⟨c, none, [(c, false)]⟩
  else
    let old := { c with ok := false }
    match tlsActivate e c.renew with
    | none => none
    | some (false, n) => some ⟨old, some n, [(n, false)]⟩
    | some (true, n) =>
      if e.greetSend && e.greetSent && e.greetRead then
        let n := { n with secured := true }
        some ⟨old, some n, [(n, true)]⟩
      else
        let n := { n with ok := e.okAfter }
        some ⟨old, some n, [(n, false)]⟩

/-- `vortex_tls_start_negotiation`, tls/vortex_tls.c:1507-1573, with a handler installed; the second component: the
notification is made by this very call. -/
def tlsStart (e : TlsInit) (c : TlsConn) : Option TlsOutcome × Bool :=
  if !c.ok then (some ⟨c, none, [(c, false)]⟩, true)
  else if c.secured then (some ⟨c, none, [(c, true)]⟩, true)
  else (tlsNegotiate e c, false)

/-- When the notification comes: while the caller waits in the queue, before that, or after it gave up. -/
inductive TlsTiming
  | waiting
  | early
  | late
  deriving DecidableEq, Repr

/-- What `vortex_tls_start_negotiation_sync` gives to its caller: the connection and the status; and what becomes of the
connections. -/
structure TlsSync where
  conn : Option TlsConn
  status : Bool
  old : TlsConn
  new : Option TlsConn
  deriving DecidableEq, Repr

/-- `__vortex_tls_start_negotiation_sync_process`, tls/vortex_tls.c:2157-2193, when nobody waits (`vortex_async_queue_waiters`
is 0): the connection of the notification is shut down. -/
def TlsOutcome.dropped (o : TlsOutcome) : TlsOutcome :=
  match o.new with
  | some n => { o with new := some { n with ok := false } }
  | none => { o with old := { o.old with ok := false } }

/-- `vortex_tls_start_negotiation_sync`, tls/vortex_tls.c:2271-2355. A notification made by the call itself finds nobody
waiting. While the negotiation is not over, the caller gets a timeout. -/
def tlsSync (e : TlsInit) (t : TlsTiming) (c : TlsConn) : TlsSync :=
  if !c.ok then ⟨some c, false, c, none⟩
  else
    match tlsStart e c with
    | (none, _) => ⟨none, false, { c with ok := false }, none⟩
    | (some o, true) => ⟨none, false, o.dropped.old, o.dropped.new⟩
    | (some o, false) =>
      match t, o.notes with
      | .waiting, (n, st) :: _ => ⟨some n, st, o.old, o.new⟩
      | _, _ => ⟨none, false, o.dropped.old, o.dropped.new⟩

/-- The settings of `vortex_tls_set_auto_tls`, tls/vortex_tls.c:2923-2950. -/
structure TlsAuto where
  enabled : Bool
  allowFailures : Bool
  deriving DecidableEq, Repr

/-- `vortex_tls_auto_tlsfixate_connection`, tls/vortex_tls.c:2777-2847: the code returned, the connection after it, and
the reference to use instead, if it is set (it may be set to NULL). -/
def tlsAutoAction (a : TlsAuto) (e : TlsInit) (t : TlsTiming) (c : TlsConn) : Int × TlsConn × Option (Option TlsConn) :=
  if a.enabled && !c.secured then
    let r := tlsSync e t c
    match r.conn with
    | none => (2, r.old, some none)
    | some n =>
      let replaced := r.new.isSome
      if !n.ok then
        if replaced then (2, r.old, some (some n)) else (-1, n, none)
      else if !a.allowFailures && !n.secured then
        if replaced then (2, r.old, some (some { n with ok := false })) else (-1, { n with ok := false }, none)
      else (2, r.old, some (some n))
  else (1, c, none)

/-- `vortex_connection_actions_notify`, src/vortex_connection.c:5663-5745, with the automatic negotiation as the only
action: the connection the caller of `vortex_connection_new` gets (:2121; the value returned is not looked at). -/
def tlsActionsNotify (a : TlsAuto) (e : TlsInit) (t : TlsTiming) (c : TlsConn) : Option TlsConn :=
  if !c.ok then some c
  else
    match tlsAutoAction a e t c with
    | (2, _, n) => n.getD none
    | (-1, c, _) => some { c with ok := false }
    | (_, c, _) => some c

/-! ## The listener -/

/-- Which preread handler is installed: none, `vortex_tls_prepare_listener`, `vortex_tls_initial_accept`. -/
inductive TlsPhase
  | running
  | prepare
  | accepting
  deriving DecidableEq, Repr

/-- The connection of the listener (the one in use: the new one replaces the old one). -/
structure TlsServer where
  conn : TlsConn
  phase : TlsPhase
  /-- `__vortex_tls_mask` is installed -/
  masked : Bool
  deriving DecidableEq, Repr

def TlsServer.init : TlsServer := ⟨.plain, .running, false⟩

/-- What happens at the listener. -/
inductive TlsEvent
  /-- the peer starts a TLS channel; `ready`: with `<ready />`; `accept`: the application accepts; `files`: it names a
  certificate and a key, or creates the SSL context itself -/
  | start (ready accept files : Bool)
  /-- the socket can be read; what OpenSSL and the application will say: `context`: the SSL context and object can be
  created; the result of `SSL_accept`; the post check -/
  | readable (context : Bool) (call : SslCall) (post : Option Bool)
  deriving DecidableEq, Repr

/-- What can be seen of it. -/
inductive TlsObs
  /-- the TLS channel is refused -/
  | refused
  /-- `<proceed />` is sent -/
  | proceed
  /-- octets are read for the handshake, or nothing is read -/
  | handshake
  /-- the handshake is over and the connection marked as secured -/
  | secured
  /-- the negotiation failed (the failure handler of the application is called, but see C134) -/
  | failure
  /-- octets are read and taken as a part of the session -/
  | session (io : TlsIo)
  deriving DecidableEq, Repr

/-- `vortex_tls_process_start_msg` (tls/vortex_tls.c:1992-2096), `__vortex_tls_mask` (:1579-1591),
`__vortex_reader_process_socket` with its preread handler (src/vortex_reader.c:291-299), `vortex_tls_prepare_listener`
(:1705-1974), `vortex_tls_initial_accept` (:1602-1693). Simplified: a connection that was shut down is not read any more, so
its preread handler does not matter; the handlers that may drop a new connection (src/vortex_listener.c) are left out. -/
def TlsServer.step (s : TlsServer) : TlsEvent → TlsServer × TlsObs
  | .start ready accept files =>
    if s.masked || s.conn.secured || !ready || !accept || !files || decide (s.phase ≠ .running) || !s.conn.ok then (s, .refused)
    else ({ s with phase := .prepare }, .proceed)
  | .readable context call post =>
    match s.phase with
    | .prepare =>
      if !context then (⟨{ s.conn with ok := false }, .running, s.masked⟩, .failure)
      else (⟨{ s.conn.renew with io := .tls }, .accepting, false⟩, .handshake)
    | .accepting =>
      if call.ret = -1 then
        match call.err with
        | .wantRead => (s, .handshake)
        | .wantWrite => (s, .handshake)
        | _ => (⟨{ s.conn with io := .clear }, .running, s.masked⟩, .failure)
      else
        match post with
        | some false => (⟨{ s.conn with ok := false }, .running, s.masked⟩, .failure)
        | _ => (⟨{ s.conn with secured := true }, .running, true⟩, .secured)
    | .running => if s.conn.ok then (s, .session s.conn.io) else (s, .handshake)

/-- A history: what can be seen, and the connection. -/
def TlsServer.run (s : TlsServer) : List TlsEvent → List TlsObs × TlsServer
  | [] => ([], s)
  | e :: es =>
    let r := s.step e
    let q := r.1.run es
    (r.2 :: q.1, q.2)

/-! ## SASL on the connection that replaces the old one -/

/-- The new connection has the data of the old one (src/vortex_connection.c:944-957), where SASL keeps its state; it has no
channels but channel 0 and no profile masks. -/
def SaslServer.renew (c : SaslServer) : SaslServer := { c with masked := false, chans := [] }

end Verif.Model
