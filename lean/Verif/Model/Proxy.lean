import Verif.Model.Frame
/-!
# Connections through others: HTTP CONNECT (http/vortex_http.c) and TUNNEL (tunnel/vortex_tunnel.c)
-/
namespace Verif.Model

/-! ## HTTP CONNECT -/

/-- `vortex_frame_readline` on a blocking socket, src/vortex_frame_factory.c:1362-1407: up to `n` octets, up to and with
the first line feed, or up to the end of the stream. -/
def takeLine : Nat → List Byte → List Byte × List Byte
  | 0, s => ([], s)
  | _ + 1, [] => ([], [])
  | n + 1, c :: s =>
    if c = 10 then ([c], s)
    else
      let r := takeLine n s
      (c :: r.1, r.2)

/-- What the caller of `vortex_http_connection_new` meets. -/
structure HttpEnv where
  /-- a handler is given: the work is done in another thread, which calls it -/
  async : Bool
  /-- the proxy can be reached and the request can be sent (http/vortex_http.c:264-296) -/
  reached : Bool
  /-- whether the greetings are exchanged (`vortex_connection_do_greetings_exchange`), given the octets that come -/
  greet : List Byte → Bool

/-- What comes out of it. -/
structure HttpOutcome where
  /-- `vortex_connection_is_ok` -/
  ok : Bool
  /-- the octets that the greetings are read from, if it gets there -/
  session : Option (List Byte)
  /-- calls of the handler -/
  notified : Nat
  /-- the connection is returned to the caller -/
  returned : Bool
  /-- `vortex_http_connection_is_proxied` -/
  proxied : Bool
  deriving DecidableEq, Repr

/-- The label `report_conn`, http/vortex_http.c:344-359. -/
def HttpEnv.report (e : HttpEnv) (ok : Bool) (session : Option (List Byte)) : HttpOutcome :=
  if e.async then ⟨ok, session, 1, false, false⟩ else ⟨ok, session, 0, true, true⟩

/-- `__vortex_http_connection_new`, http/vortex_http.c:240-360, for what the proxy sends; the buffer has 1024 octets. -/
def httpConnect (e : HttpEnv) (s : List Byte) : HttpOutcome :=
  if !e.reached then e.report false none
  else if s = [] then e.report false none
  else
    let l := takeLine 1023 s
    if !(lit "HTTP/1.0 2").isPrefixOf l.1 && !(lit "HTTP/1.1 2").isPrefixOf l.1 then ⟨false, none, 0, !e.async, false⟩
    else
      let l2 := takeLine 1023 l.2
      e.report (e.greet l2.2) (some l2.2)

/-! ## TUNNEL: a host in the middle -/

/-- One of the two connections of a host in the middle. -/
structure TunnelEnd where
  /-- `vortex_connection_is_ok` -/
  ok : Bool
  /-- the reader dropped its reference, the only one: the memory is released -/
  freed : Bool
  /-- octets read from its socket so far -/
  received : List Byte
  /-- octets its socket took so far -/
  written : List Byte
  deriving DecidableEq, Repr

def TunnelEnd.init : TunnelEnd := ⟨true, false, [], []⟩

/-- The two connections: each has the other one as its `VORTEX_TUNNEL_PARTNER_CONNECTION`. -/
structure Tunnel where
  a : TunnelEnd
  b : TunnelEnd
  deriving DecidableEq, Repr

def Tunnel.init : Tunnel := ⟨.init, .init⟩

/-- What `vortex_frame_receive_raw` (src/vortex_frame_factory.c:1253-1300) finds: it returns 0 in the last three cases. -/
inductive TunnelRead
  | octets (l : List Byte)
  | closed
  | wouldBlock
  | error
  deriving DecidableEq, Repr

/-- What becomes of the write (`vortex_frame_send_raw`, see `Verif.Model.SendRaw`): everything is written; or only `n`
octets, and the connection is shut down, or not (src/vortex_frame_factory.c:2044-2047). -/
inductive TunnelWrite
  | all
  | stopped (n : Nat) (shut : Bool)
  deriving DecidableEq, Repr

inductive TunnelOp
  /-- the socket of this connection (`left`: the first one) can be read -/
  | readable (left : Bool) (r : TunnelRead) (w : TunnelWrite)
  /-- the reader thread looks through its connections: those that do not work are dropped (src/vortex_reader.c:993-1001) -/
  | reap
  deriving DecidableEq, Repr

/-- A write to the partner; a connection that does not work takes nothing. -/
def TunnelEnd.write (p : TunnelEnd) (l : List Byte) : TunnelWrite → TunnelEnd
  | .all => if p.ok then { p with written := p.written ++ l } else p
  | .stopped n shut => if p.ok then { p with written := p.written ++ l.take n, ok := !shut } else p

/-- `__vortex_tunnel_pass_octets`, tunnel/vortex_tunnel.c:766-807: the connection and its partner afterwards; `none`: the
partner is used after its release. A connection that was shut down has no socket, it is not called for it. -/
def tunnelPass (c p : TunnelEnd) (r : TunnelRead) (w : TunnelWrite) : Option (TunnelEnd × TunnelEnd) :=
  if !c.ok then some (c, p)
  else if p.freed then none
  else
    match r with
    | .octets l => some ({ c with received := c.received ++ l }, p.write l w)
    | _ => some ({ c with ok := false }, { p with ok := false })

def TunnelEnd.reap (c : TunnelEnd) : TunnelEnd := { c with freed := c.freed || !c.ok }

def Tunnel.step (t : Tunnel) : TunnelOp → Option Tunnel
  | .readable true r w => (tunnelPass t.a t.b r w).map fun x => ⟨x.1, x.2⟩
  | .readable false r w => (tunnelPass t.b t.a r w).map fun x => ⟨x.2, x.1⟩
  | .reap => some ⟨t.a.reap, t.b.reap⟩

/-- A history; `none`: memory was used after its release. -/
def Tunnel.run (t : Tunnel) : List TunnelOp → Option Tunnel
  | [] => some t
  | op :: ops =>
    match t.step op with
    | none => none
    | some t => t.run ops

end Verif.Model
