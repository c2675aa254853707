/-!
# Invocations on an XML-RPC channel

`vortex_xml_rpc_invoke` (xml-rpc/vortex_xml_rpc.c:1405-1456), the task it hands to the thread pool (1324-1367) and the frame
handler of the channel (1160-1300), for one channel, any number of threads and invocations. What is inside messages (see
`Verif.Model.XmlRpc`) is a number. Frames are delivered by threads of the pool in any order.

Not modelled: the connection going away; the wait of `vortex_xml_rpc_invoke_sync` (it waits for what is told here).
-/
namespace Verif.Model

/-- What the handler of an invocation is told. -/
inductive XiResult
  /-- the contents of a frame -/
  | answer (p : Nat)
  /-- `XML_RPC_INVOCATION_FAILURE` -/
  | notSent
  /-- `XML_RPC_WAITING_PREVIOUS` -/
  | waitingPrevious
  /-- `XML_RPC_NOT_XML_RPC_CHANNEL`, `XML_RPC_CHANNEL_NOT_READY` -/
  | notReady
  deriving DecidableEq, Repr

/-- Where the task of an invocation is. -/
inductive XiPhase
  /-- in the thread pool -/
  | queued
  /-- the frame handler is set, the message not sent -/
  | installed
  /-- nothing more to do -/
  | over
  deriving DecidableEq, Repr

/-- An invocation; `live`: its `VortexXmlRpcInvokeData` is allocated. -/
structure XiCall where
  phase : XiPhase
  live : Bool
  deriving DecidableEq, Repr

/-- The second argument of the frame handler of the channel (`received_user_data`). -/
inductive XiHandler
  /-- the queue used while the channel was booted, released since (xml-rpc/vortex_xml_rpc.c:525, 568) -/
  | bootQueue
  | data (c : Nat)
  | null
  deriving DecidableEq, Repr

structure XiState where
  calls : List XiCall
  handler : XiHandler
  /-- invocations whose message was sent and not replied (`outstanding_msg`) -/
  outstanding : List Nat
  /-- contents of frames received and not delivered to the frame handler -/
  arrived : List Nat
  /-- released or null memory was used -/
  bad : Bool
  deriving DecidableEq, Repr

/-- A channel just booted. -/
def XiState.init : XiState := ⟨[], .bootQueue, [], [], false⟩

inductive XiOp
  /-- a thread of the application invokes; `ready`: the channel runs the profile and is booted -/
  | invoke (ready : Bool)
  /-- the task of an invocation sets the frame handler -/
  | task (c : Nat)
  /-- the task sends the message; `ok`: `vortex_channel_send_msg` succeeds -/
  | send (c : Nat) (ok : Bool)
  /-- the reply, with contents `p`, to the first message not replied is received -/
  | reply (p : Nat)
  /-- a message of the peer is received -/
  | message (p : Nat)
  /-- frame number `j` of those received is delivered -/
  | deliver (j : Nat)
  deriving DecidableEq, Repr

inductive XiEvent
  /-- the call returned -/
  | returned (c : Nat) (r : Bool)
  | told (c : Nat) (r : XiResult)
  /-- the peer replied to the message of the invocation -/
  | replied (c : Nat) (p : Nat)
  /-- the object with the method call was released, if it is to be released by the library -/
  | released (c : Nat)
  deriving DecidableEq, Repr

/-- One step. -/
def XiState.step (s : XiState) (op : XiOp) : XiState × List XiEvent :=
  if s.bad then (s, [])
  else match op with
    | .invoke ready =>
      -- xml-rpc/vortex_xml_rpc.c:1421-1440
      if !ready then ({ s with calls := s.calls ++ [⟨.over, false⟩] }, [.told s.calls.length .notReady, .returned s.calls.length false])
      else if !s.outstanding.isEmpty then
        ({ s with calls := s.calls ++ [⟨.over, false⟩] }, [.told s.calls.length .waitingPrevious, .returned s.calls.length false])
      else ({ s with calls := s.calls ++ [⟨.queued, true⟩] }, [.returned s.calls.length false])
    | .task c =>
      match s.calls[c]? with
      -- xml-rpc/vortex_xml_rpc.c:1340
      | some ⟨.queued, l⟩ => ({ s with calls := s.calls.set c ⟨.installed, l⟩, handler := .data c }, [])
      | _ => (s, [])
    | .send c ok =>
      match s.calls[c]? with
      | some ⟨.installed, l⟩ =>
        if ok then ({ s with calls := s.calls.set c ⟨.over, l⟩, outstanding := s.outstanding ++ [c] }, [.released c])
        else
          -- xml-rpc/vortex_xml_rpc.c:1344-1354
          ({ s with calls := s.calls.set c ⟨.over, false⟩, handler := .null, bad := !l }, [.told c .notSent, .released c])
      | _ => (s, [])
    | .reply p =>
      match s.outstanding with
      | [] => (s, [])
      | c :: r => ({ s with outstanding := r, arrived := s.arrived ++ [p] }, [.replied c p])
    | .message p => ({ s with arrived := s.arrived ++ [p] }, [])
    | .deliver j =>
      match s.arrived[j]? with
      | none => (s, [])
      | some p =>
        match s.handler with
        | .data c =>
          match s.calls[c]? with
          -- xml-rpc/vortex_xml_rpc.c:1168-1187
          | some ⟨ph, true⟩ => ({ s with arrived := s.arrived.eraseIdx j, calls := s.calls.set c ⟨ph, false⟩ }, [.told c (.answer p)])
          | _ => ({ s with bad := true }, [])
        | _ => ({ s with bad := true }, [])

/-- The steps with what happened. -/
def XiState.run : XiState → List XiOp → XiState × List XiEvent
  | s, [] => (s, [])
  | s, op :: r => (((s.step op).1.run r).1, (s.step op).2 ++ ((s.step op).1.run r).2)

end Verif.Model
