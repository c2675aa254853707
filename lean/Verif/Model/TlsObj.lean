import Verif.Model.Tls
/-!
# The objects of a TLS negotiation (tls/vortex_tls.c:131-153, 237-302, 617-662, 709-927, 1170-1215, 1602-1974, 1992-2096)

One connection of the listener or of the initiator, with the connection that replaces it: the SSL contexts, SSL objects, mutexes and names of files
that are made for it, what its data holds, its descriptor, and the calls of the functions of the application. OpenSSL counts the references of a
context: `SSL_new` takes one, `SSL_free` gives it back. Simplified: objects that are released by the function that made them (certificates and
keys read from strings); the version of TLS asked for.
-/
namespace Verif.Model

/-- What configures a handshake: a context made by a function of the application, the files it named, or the defaults of OpenSSL. -/
inductive TbSource
  | maker (f : Nat)
  | files (cert key : Option Nat)
  | plain
  deriving DecidableEq, Repr

/-- Functions of the application that are asked. -/
inductive TbAsk
  | cert
  | key
  | maker (f : Nat)
  deriving DecidableEq, Repr

inductive TbPhase
  /-- no negotiation is going on -/
  | idle
  /-- `<proceed />` was sent, the preread handler is `vortex_tls_prepare_listener` -/
  | prepare
  /-- the preread handler is `vortex_tls_initial_accept` -/
  | accepting
  | secured
  /-- not connected any more -/
  | broken
  /-- released -/
  | gone
  deriving DecidableEq, Repr

structure Tb where
  /-- the next object -/
  ids : Nat
  /-- the references of each object; 0: it is released (or was never made) -/
  refs : Nat → Nat
  /-- `ssl-data:ssl`, with the context it refers to -/
  ssl : Option (Nat × Nat)
  /-- `ssl-data:ctx`, `ssl-data:mutex` -/
  ctx : Option Nat
  mutex : Option Nat
  /-- `tls:certificate-file`, `tls:private-file`: the string and what it names -/
  cert : Option (Nat × Nat)
  key : Option (Nat × Nat)
  /-- `CTX_CREATION` of the connection, `tls_default_ctx_creation` -/
  own : Option Nat
  dflt : Option Nat
  phase : TbPhase
  /-- the descriptor is open -/
  socket : Bool
  /-- `close_session` -/
  closes : Bool
  asked : List TbAsk
  /-- what the handshake that began last uses -/
  used : Option TbSource
  /-- calls of the failure handler -/
  reports : Nat
  /-- something released was released again -/
  bad : Bool

def Tb.new : Tb := ⟨0, fun _ => 0, none, none, none, none, none, none, none, .idle, true, true, [], none, 0, false⟩

/-- What `vortex_tls_prepare_listener` meets: a context can be made, the certificate and the key can be loaded and belong together, an SSL object
can be made, the connection that replaces the old one can be made. -/
structure TbPrep where
  made : Bool
  certOk : Bool
  keyOk : Bool
  same : Bool
  sslOk : Bool
  connOk : Bool
  deriving DecidableEq, Repr

/-- How the loop around `SSL_connect` ends. -/
inductive TbShake
  | done
  | syscall
  | other
  deriving DecidableEq, Repr

/-- What the initiator meets after `<proceed />`. -/
structure TbConn where
  renewed : Bool
  made : Bool
  sslOk : Bool
  shake : TbShake
  peerCert : Bool
  post : Option Bool
  greet : Bool
  /-- the connection works after the greetings failed -/
  okAfter : Bool
  deriving DecidableEq, Repr

inductive TbOp
  /-- `vortex_tls_set_ctx_creation`, `vortex_tls_set_default_ctx_creation` -/
  | own (f : Nat)
  | dflt (f : Nat)
  /-- the peer starts a TLS channel: with `<ready />`; what the application says -/
  | start (ready accept : Bool) (cert key : Option Nat)
  | prepare (p : TbPrep)
  | accept (call : SslCall) (post : Option Bool)
  /-- the initiator got `<proceed />` -/
  | connect (e : TbConn)
  /-- the connection is shut down (by the application, or because it fails) -/
  | shutdown
  /-- the last reference is released -/
  | release
  deriving DecidableEq, Repr

def tbSet (f : Nat → Nat) (i v : Nat) : Nat → Nat := fun k => if k = i then v else f k

/-- A new object, with one reference. -/
def Tb.alloc (s : Tb) : Tb := { s with ids := s.ids + 1, refs := tbSet s.refs s.ids 1 }

def Tb.hold (s : Tb) (i : Nat) : Tb := { s with refs := tbSet s.refs i (s.refs i + 1) }

def Tb.drop (s : Tb) (i : Nat) : Tb :=
  if s.refs i = 0 then { s with bad := true } else { s with refs := tbSet s.refs i (s.refs i - 1) }

def Tb.dropOpt (s : Tb) : Option Nat → Tb
  | some i => s.drop i
  | none => s

/-- `SSL_free` -/
def Tb.dropSsl (s : Tb) : Option (Nat × Nat) → Tb
  | some (i, c) => (s.drop i).drop c
  | none => s

def Tb.dropFile (s : Tb) : Option (Nat × Nat) → Tb
  | some (i, _) => s.drop i
  | none => s

/-- `vortex_hash_destroy` of the data of the connection. -/
def Tb.clear (s : Tb) : Tb :=
  let s := { s.dropSsl s.ssl with ssl := none }
  let s := { s.dropOpt s.ctx with ctx := none }
  let s := { s.dropOpt s.mutex with mutex := none }
  let s := { s.dropFile s.cert with cert := none }
  { s.dropFile s.key with key := none }

/-- `vortex_tls_set_common_data`, tls/vortex_tls.c:633-662: the objects of an earlier negotiation are released. -/
def Tb.common (s : Tb) (ssl ctx : Nat) : Tb :=
  let s := { s.dropSsl s.ssl with ssl := some (ssl, ctx) }
  let s := { s.dropOpt s.ctx with ctx := some ctx }
  let m := s.ids
  let s := s.alloc
  { s.dropOpt s.mutex with mutex := some m }

/-- `vortex_tls_notify_failure_handler`, :131-153. -/
def Tb.report (s : Tb) : Tb := { s with reports := s.reports + 1 }

/-- `__vortex_connection_set_not_connected`, src/vortex_connection.c:5772-5860. -/
def Tb.down (s : Tb) : Tb := { s with phase := .broken, socket := s.socket && !s.closes }

/-- `vortex_connection_set_close_socket (.., axl_true)` and `vortex_connection_shutdown`. -/
def Tb.shut (s : Tb) : Tb := { s with closes := true }.down

/-- The function that makes contexts: that of the connection, or the default one, :733-744, 1733-1745. -/
def Tb.maker (s : Tb) : Option Nat :=
  match s.own with
  | some f => some f
  | none => s.dflt

/-- `vortex_tls_process_start_msg`, :1992-2096. -/
def Tb.start (s : Tb) (ready accept : Bool) (cert key : Option Nat) : Tb :=
  if (s.phase ≠ .idle ∧ s.phase ≠ .prepare) ∨ !ready ∨ !accept then s
  else
    match s.maker with
    | some _ => { s with closes := false, phase := .prepare }
    | none =>
      let s := { s with asked := s.asked ++ [.cert] }
      match cert with
      | none => s
      | some c =>
        let i := s.ids
        let s := s.alloc
        let s := { s with asked := s.asked ++ [.key] }
        match key with
        | none => s
        | some k =>
          let j := s.ids
          let s := s.alloc
          let s := { s.dropFile s.cert with cert := some (i, c) }
          let s := { s.dropFile s.key with key := some (j, k) }
          { s with closes := false, phase := .prepare }

/-- A function of the application is asked for a context, or the library makes one. -/
def Tb.ask (s : Tb) : Tb :=
  match s.maker with
  | some f => { s with asked := s.asked ++ [.maker f] }
  | none => s

/-- `vortex_tls_prepare_listener` from the result of the function that makes contexts on, :1833-1974. The connection that cannot be made is released
at once, with the data of the old one and the descriptor (src/vortex_connection.c:1006-1015, 3638, 3736). -/
def Tb.prepareNow (s : Tb) (p : TbPrep) : Tb :=
  if !p.made then s.shut
  else
    let c := s.ids
    let s := s.alloc
    if s.maker = none ∧ (!p.certOk ∨ !p.keyOk ∨ !p.same) then s.report.shut
    else if !p.sslOk then s.report.shut
    else
      let i := s.ids
      let s := (s.alloc).hold c
      if !p.connOk then
        let s := { s.clear with socket := false }
        s.down.alloc
      else
        let src := match s.maker with
          | some f => TbSource.maker f
          | none => .files (s.cert.map (·.2)) (s.key.map (·.2))
        let s := s.common i c
        { s with closes := true, phase := .accepting, used := some src }

/-- `vortex_tls_prepare_listener`, :1705-1974. -/
def Tb.prepare (s : Tb) (p : TbPrep) : Tb :=
  if s.phase ≠ .prepare then s else s.ask.prepareNow p

/-- `vortex_tls_initial_accept`, :1602-1693. -/
def Tb.accept (s : Tb) (call : SslCall) (post : Option Bool) : Tb :=
  if s.phase ≠ .accepting then s
  else if call.ret = -1 then
    match call.err with
    | .wantRead => s
    | .wantWrite => s
    | _ => { s.report with phase := .idle }
  else
    match post with
    | some false => s.report.down
    | _ => { s with phase := .secured }

/-- `vortex_tls_invoke_tls_activation` from the result of the function that makes contexts on (:835-927), and the greetings
(`__vortex_tls_start_negotiation`, :1216-1300). -/
def Tb.activate (s : Tb) (e : TbConn) : Tb :=
  if !e.made then s
  else
    let c := s.ids
    let s := s.alloc
    if !e.sslOk then s
    else
      let i := s.ids
      let s := (s.alloc).hold c
      let src := match s.maker with
        | some f => TbSource.maker f
        | none => .plain
      let s := { s.common i c with used := some src }
      match e.shake with
      | .syscall => s.down.report
      | .other => s
      | .done =>
        if !e.peerCert then s
        else if e.post = some false then s.down
        else if !e.greet then (if e.okAfter then s else s.down)
        else { s with phase := .secured }

/-- `__vortex_tls_start_negotiation` after `<proceed />` (:1170-1322) with `vortex_tls_invoke_tls_activation` (:709-927). When the new connection
cannot be made, it is released with the data and the descriptor of the old one, which is used on; `close_session` is restored for the new one, which
is NULL (:1186). -/
def Tb.connect (s : Tb) (e : TbConn) : Tb :=
  if s.phase ≠ .idle then s
  else if !e.renewed then { s.clear with socket := false, closes := false }
  else { s with closes := true }.ask.activate e

/-- A step; after the release nothing happens any more. -/
def Tb.step (s : Tb) (o : TbOp) : Tb :=
  if s.phase = .gone then s
  else
    match o with
    | .own f => { s with own := some f }
    | .dflt f => { s with dflt := some f }
    | .start ready accept cert key => s.start ready accept cert key
    | .prepare p => s.prepare p
    | .accept call post => s.accept call post
    | .connect e => s.connect e
    | .shutdown => if s.phase = .broken then s else s.down
    | .release => { s.clear with phase := .gone, socket := s.socket && !s.closes }

def Tb.run (s : Tb) : List TbOp → Tb
  | [] => s
  | o :: os => (s.step o).run os

end Verif.Model
