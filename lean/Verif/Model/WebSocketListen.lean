/-!
# WebSocket listeners (web-socket/vortex_websocket.c:732-954, 1031-1168)

Threads start WebSocket listeners (`vortex_websocket_listener_new`) or share the port of BEEP listeners
(`vortex_websocket_listener_enable_port_sharing`): both install the function `vortex_websocket_listener_post_actions`, which is called
when a connection was greeted (C125). Host names and server names are numbers. Simplified: what noPoll does is given; messages and
the greetings are in C102 and C33; a function of the application may set the server name before.
-/
namespace Verif.Model

inductive WkPhase
  /-- accepted; greeted and given to the profiles; closed -/
  | opened | ready | closed
  deriving DecidableEq, Repr

structure WkConn where
  phase : WkPhase
  /-- `VORTEX_WEBSOCKET_ENABLED`, and the connection of noPoll -/
  ws : Bool
  /-- noPoll finished the handshake: the `Host` header, and whether TLS runs -/
  shaken : Bool
  host : Option Nat
  tls : Bool
  serverName : Option Nat
  /-- `VORTEX_TLS_WEBSOCKET_ENABLED` -/
  tlsFlag : Bool
  deriving DecidableEq, Repr

structure Wk where
  /-- "vo:web:post-action" -/
  flag : Bool
  /-- how often the function was installed -/
  actions : Nat
  /-- threads that found the flag not set -/
  installing : List Nat
  /-- threads that may start a listener -/
  installed : List Nat
  /-- WebSocket listeners; ports that are shared -/
  listeners : Nat
  shared : Nat
  /-- what `vortex_websocket_listener_new` returned: a listener or NULL -/
  returned : List Bool
  /-- calls of the handlers given to it -/
  told : Nat
  conns : List WkConn
  /-- connections of noPoll that nobody knows -/
  lost : Nat
  deriving DecidableEq, Repr

inductive WkOp
  | check (t : Nat)
  | install (t : Nat)
  /-- thread `t` starts a listener, with a handler to be told, or without -/
  | listen (t : Nat) (handler : Bool)
  | share (t : Nat)
  /-- a WebSocket listener accepts; noPoll returns a connection, or NULL -/
  | accept (ok : Bool)
  /-- a shared port accepts, what the first octets look like, and whether noPoll takes it -/
  | acceptShared (web ok : Bool)
  | handshake (c : Nat) (host : Option Nat) (tls : Bool)
  | name (c n : Nat)
  /-- the greetings of the connection are exchanged -/
  | greet (c : Nat)
  deriving DecidableEq, Repr

def Wk.init : Wk := ⟨false, 0, [], [], 0, 0, [], 0, [], 0⟩

/-- `vortex_websocket_listener_post_actions`, :765-793, with `__vortex_websocket_setup_server_name_from_header`, :732-763, and
`vortex_connection_set_server_name`, src/vortex_connection.c:4909; on -1 the connection is closed. -/
def WkConn.post (c : WkConn) : WkConn :=
  if c.ws ∧ c.phase ≠ .closed then
    match c.host with
    | some h => { c with tlsFlag := c.tlsFlag || c.tls, serverName := some (c.serverName.getD h) }
    | none => { c with phase := .closed }
  else c

/-- The function is called as often as it was installed. -/
def WkConn.posts (c : WkConn) : Nat → WkConn
  | 0 => c
  | n + 1 => (c.post).posts n

def WkConn.greet (c : WkConn) (actions : Nat) : WkConn :=
  if c.phase = .opened ∧ (c.ws = true → c.shaken = true) then
    let d := c.posts actions
    if d.phase = .closed then d else { d with phase := .ready }
  else c

def Wk.step (s : Wk) : WkOp → Wk
  -- `__vortex_websocket_install_post_actions`, :872-884
  | .check t =>
    if t ∈ s.installing then s
    else if s.flag then { s with installed := t :: s.installed } else { s with installing := t :: s.installing }
  | .install t =>
    if t ∈ s.installing then
      { s with installing := s.installing.erase t, actions := s.actions + 1, flag := true, installed := t :: s.installed }
    else s
  -- :912-954
  | .listen t handler =>
    if t ∈ s.installed then { s with installed := s.installed.erase t, listeners := s.listeners + 1, returned := s.returned ++ [!handler] } else s
  -- :1145-1168
  | .share t => if t ∈ s.installed then { s with installed := s.installed.erase t, shared := s.shared + 1 } else s
  -- :824-866
  | .accept ok =>
    if 0 < s.listeners ∧ ok then { s with conns := s.conns ++ [⟨.opened, true, false, none, false, none, false⟩] } else s
  -- :1031-1105
  | .acceptShared web ok =>
    if 0 < s.shared then
      if web then
        if ok then { s with conns := s.conns ++ [⟨.opened, true, false, none, false, none, false⟩] }
        else { s with conns := s.conns ++ [⟨.closed, false, false, none, false, none, false⟩], lost := s.lost + 1 }
      else { s with conns := s.conns ++ [⟨.opened, false, false, none, false, none, false⟩] }
    else s
  | .handshake c host tls =>
    { s with conns := s.conns.modify c fun x => if x.ws ∧ !x.shaken then { x with shaken := true, host := host, tls := tls } else x }
  | .name c n =>
    { s with conns := s.conns.modify c fun x => { x with serverName := some (x.serverName.getD n) } }
  | .greet c => { s with conns := s.conns.modify c (·.greet s.actions) }

def Wk.run (s : Wk) (ops : List WkOp) : Wk := ops.foldl Wk.step s

end Verif.Model
