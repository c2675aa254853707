/-!
# Replies to XML-RPC calls at a listener

The start handler `__vortex_xml_rpc_start_msg` (xml-rpc/vortex_xml_rpc.c:1921-1986), with `__vortex_xml_rpc_parse_bootmsg` (1824-1893), the
frame handler `__vortex_xml_rpc_frame_received` (1708-1801; which service gets a single call is also `handOver` of `Verif.Model.XmlRpc`) and `vortex_xml_rpc_notify_reply` (2025-2071), for one channel, with the services
added by `vortex_xml_rpc_accept_negotiation` (2239-2289) in order. Resources, method calls and responses are numbers.

Not modelled: services added while channels are used; responses that cannot be written or sent; the channel going away before
a deferred reply.
-/
namespace Verif.Model

/-- What `vortex_xml_rpc_accept_negotiation` stores. The handlers are the application's. -/
structure SvService where
  /-- the validation handler; the resource of the channel, or NULL -/
  validate : Option Nat → Bool
  /-- the dispatch handler: a response, or NULL: the reply is deferred -/
  dispatch : Nat → Option Nat

/-- The content of the start message. -/
inductive SvContent
  /-- NULL -/
  | absent
  /-- not a `<bootmsg>` with a resource -/
  | wrong
  | boot (r : Nat)
  deriving DecidableEq, Repr

inductive SvOp
  | start (c : SvContent)
  /-- a message is received: a method call, or something else -/
  | call (m : Option Nat)
  /-- service `i` answers, later, call `c` -/
  | notify (i c x : Nat)
  deriving DecidableEq, Repr

inductive SvEvent
  /-- the channel was created, with a positive content or not -/
  | created (ok : Bool)
  /-- the channel was refused -/
  | refused
  /-- message number `c` -/
  | received (c : Nat) (m : Option Nat)
  | invoked (i c : Nat)
  | replied (c x : Nat)
  deriving DecidableEq, Repr

structure SvState where
  /-- the channel: its resource, if recorded -/
  channel : Option (Option Nat)
  /-- the object of each method call received: allocated -/
  calls : List Bool
  /-- services that deferred a call, and did not answer it -/
  held : List (Nat × Nat)
  bad : Bool
  deriving DecidableEq, Repr

def SvState.init : SvState := ⟨none, [], [], false⟩

/-- The loop over the services, xml-rpc/vortex_xml_rpc.c:1742-1782: those invoked with what each returned. -/
def svLoop (res : Option Nat) (m : Nat) : Nat → List SvService → List (Nat × Option Nat)
  | _, [] => []
  | i, s :: r =>
    if s.validate res then [(i, s.dispatch m)]
    else match s.dispatch m with
      | some x => [(i, some x)]
      | none => (i, none) :: svLoop res m (i + 1) r

/-- One step. -/
def SvState.step (sv : List SvService) (s : SvState) (op : SvOp) : SvState × List SvEvent :=
  if s.bad then (s, [])
  else match op with
    | .start c =>
      match s.channel with
      | some _ => (s, [])
      | none =>
        match c with
        -- strlen (NULL), xml-rpc/vortex_xml_rpc.c:1845
        | .absent => ({ s with bad := true }, [])
        | .wrong => (s, [.refused])
        | .boot r =>
          -- xml-rpc/vortex_xml_rpc.c:1945-1986
          if sv.any (fun v => v.validate (some r)) then ({ s with channel := some (some r) }, [.created true])
          else ({ s with channel := some none }, [.created false])
    | .call m =>
      match s.channel with
      | none => (s, [])
      | some res =>
        match m with
        -- xml-rpc/vortex_xml_rpc.c:1721-1724
        | none => ({ s with calls := s.calls ++ [false] }, [.received s.calls.length none])
        | some m =>
          let inv := svLoop res m 0 sv
          let held := s.held ++ (inv.filter fun p => p.2.isNone).map fun p => (p.1, s.calls.length)
          let evs := .received s.calls.length (some m) :: inv.map fun p => .invoked p.1 s.calls.length
          match inv.findSome? fun p => p.2 with
          | some x => ({ s with calls := s.calls ++ [false], held := held }, evs ++ [.replied s.calls.length x])
          | none => ({ s with calls := s.calls ++ [true], held := held }, evs)
    | .notify i c x =>
      if (i, c) ∈ s.held then
        match s.calls[c]? with
        | some true => ({ s with calls := s.calls.set c false, held := s.held.erase (i, c) }, [.replied c x])
        -- the call was released
        | _ => ({ s with bad := true }, [])
      else (s, [])

/-- The steps with what happened. -/
def SvState.run (sv : List SvService) : SvState → List SvOp → SvState × List SvEvent
  | s, [] => (s, [])
  | s, op :: r => ((SvState.run sv (s.step sv op).1 r).1, (s.step sv op).2 ++ (SvState.run sv (s.step sv op).1 r).2)

end Verif.Model
