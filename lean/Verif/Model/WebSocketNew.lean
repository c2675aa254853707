import Verif.Model.CInt
/-!
# Making BEEP connections over WebSocket (web-socket/vortex_websocket.c)

The setup object, what noPoll is asked for, what the application gets, and the detection of WebSocket in shared
ports. noPoll itself is outside: its answers are input.
-/
namespace Verif.Model

/-- `VortexWebsocketConfItem` with its value, web-socket/vortex_websocket.h:61-106; `none` is NULL. -/
inductive WbItem
  | proxyHost (v : Option (List Byte))
  | proxyPort (v : Option (List Byte))
  | options (v : Nat)
  | origin (v : Option (List Byte))
  | host (v : Option (List Byte))
  | tls (v : Int)
  | debug (v : Int)
  | verify (v : Int)
  deriving DecidableEq, Repr

/-- `struct _VortexWebsocketSetup`, web-socket/vortex_websocket.c:121-165, without context and counter. -/
structure WbSetup where
  proxyHost : Option (List Byte)
  proxyPort : Option (List Byte)
  options : Nat
  origin : Option (List Byte)
  hostHeader : Option (List Byte)
  useWss : Int
  enableDebug : Int
  certVerify : Int
  /-- values that nothing refers to any more and that were not released -/
  lost : Nat
  deriving DecidableEq, Repr

/-- `vortex_websocket_setup_new`, web-socket/vortex_websocket.c:184-200: all fields are zero. -/
def WbSetup.new : WbSetup := ⟨none, none, 0, none, none, 0, 0, 0, 0⟩

/-- `vortex_websocket_setup_conf`, web-socket/vortex_websocket.c:274-333. -/
def WbSetup.conf (s : WbSetup) : WbItem → WbSetup
  | .proxyHost v => { s with proxyHost := v }
  | .proxyPort v => { s with proxyPort := v }
  | .options v => { s with options := v }
  | .origin v => { s with origin := v, lost := s.lost + if s.origin.isSome then 1 else 0 }
  | .host v => { s with hostHeader := v, lost := s.lost + if s.hostHeader.isSome then 1 else 0 }
  | .tls v => { s with useWss := v }
  | .debug v => { s with enableDebug := v }
  | .verify v => { s with certVerify := v }

/-- What noPoll is asked for: `nopoll_conn_tls_new` or `nopoll_conn_new`, and
`nopoll_conn_wait_until_connection_ready`. noPoll verifies the certificate of the peer unless told otherwise. -/
structure WbRequest where
  tls : Bool
  verify : Bool
  host : List Byte
  port : List Byte
  header : List Byte
  origin : List Byte
  /-- seconds -/
  wait : Int
  deriving DecidableEq, Repr

/-- The first part of `__vortex_websocket_connection_new`, web-socket/vortex_websocket.c:514-575; `timeout`:
`vortex_connection_get_connect_timeout`, microseconds. -/
def WbSetup.request (s : WbSetup) (host port : List Byte) (timeout : Int) : WbRequest :=
  let t := if 0 < timeout then timeout / 1000000 else timeout
  { tls := s.useWss ≠ 0, verify := if s.useWss ≠ 0 then s.certVerify ≠ 0 else false, host, port,
    header := s.hostHeader.getD host, origin := s.origin.getD (lit "http://" ++ host), wait := if t ≤ 0 then 60 else t }

/-- What happens then. -/
inductive WbNet
  | noContext
  | notReady
  /-- the exchange of greetings fails -/
  | refused
  | ready
  deriving DecidableEq, Repr

/-- The connection made. -/
structure WbConn where
  isOk : Bool
  serverName : List Byte
  /-- `VORTEX_WEBSOCKET_ENABLED` -/
  webSocket : Bool
  /-- `VORTEX_TLS_WEBSOCKET_ENABLED` and `tls-fication:status` -/
  tls : Bool
  deriving DecidableEq, Repr

/-- The rest of `__vortex_websocket_connection_new`, web-socket/vortex_websocket.c:577-649; `none` is NULL. A
connection whose greetings failed is taken as closed. -/
def WbSetup.connect (s : WbSetup) (host : List Byte) : WbNet → Option WbConn
  | .noContext => none
  | .notReady => none
  | .refused => some ⟨false, s.hostHeader.getD host, true, false⟩
  | .ready => some ⟨true, s.hostHeader.getD host, true, s.useWss ≠ 0⟩

/-- `__vortex_websocket_detect_and_prepare_transport`, web-socket/vortex_websocket.c:1037-1055: the first four octets of
a connection in a shared port, of which three are looked at: detected, and then with TLS or not. -/
def wbDetect (a b c : Nat) : Option Bool :=
  if a = 22 ∧ b = 3 ∧ c = 1 then some true
  else if a = 71 ∧ b = 69 ∧ c = 84 then some false
  else none

/-! ## References of setups -/

structure WbRefs where
  /-- `ref_count` -/
  refs : Nat
  /-- references of the application -/
  owned : Nat
  /-- connections being made in the pool of threads -/
  tasks : Nat
  frees : Nat
  /-- the setup was used after its release -/
  bad : Bool
  deriving DecidableEq, Repr

def WbRefs.new : WbRefs := ⟨1, 1, 0, 0, false⟩

inductive WbRefOp
  | ref
  | unref
  /-- `vortex_websocket_connection_new` with and without handler -/
  | connectThreaded
  | connect
  /-- a task of the pool makes its connection -/
  | task
  /-- `vortex_websocket_setup_conf` -/
  | conf
  deriving DecidableEq, Repr

/-- `vortex_websocket_setup_unref`, web-socket/vortex_websocket.c:235-259. -/
def WbRefs.drop (s : WbRefs) : WbRefs :=
  if s.frees ≠ 0 then { s with bad := true }
  else { s with refs := s.refs - 1, frees := if s.refs - 1 = 0 then 1 else 0 }

/-- `vortex_websocket_setup_ref`, web-socket/vortex_websocket.c:212-227, `vortex_websocket_connection_new`, :691-726
(no reference is taken), `vortex_websocket_connection_data_free`, :349-358. -/
def WbRefs.step (s : WbRefs) : WbRefOp → WbRefs
  | .ref => if s.frees ≠ 0 then { s with bad := true } else { s with refs := s.refs + 1, owned := s.owned + 1 }
  | .unref => { s with owned := s.owned - 1 }.drop
  | .connectThreaded => if s.frees ≠ 0 then { s with bad := true } else { s with owned := s.owned - 1, tasks := s.tasks + 1 }
  | .connect => { s with owned := s.owned - 1 }.drop
  | .task => if s.tasks = 0 then s else { s with tasks := s.tasks - 1 }.drop
  | .conf => if s.frees ≠ 0 then { s with bad := true } else s

def WbRefs.run (s : WbRefs) : List WbRefOp → WbRefs
  | [] => s
  | op :: ops => (s.step op).run ops

end Verif.Model
