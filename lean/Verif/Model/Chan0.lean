import Verif.Model.Parse
import Verif.Model.Mime
/-!
# Messages of channel 0 (src/vortex_channel.c)

How a message received on channel 0 is understood, `vortex_channel_0_frame_received`, src/vortex_channel.c:7797-7847, and how a request
to close a channel is decided. What becomes of a start request is in Model/Start.lean, of an accepted close request in
Model/Handshake.lean.
-/
namespace Verif.Model

/-- An XML element as seen through `axl_node_get_name` and `axl_node_get_attribute_value` (axl, not in /repo). -/
structure MgmtNode where
  name : List Byte
  attrs : List (List Byte × List Byte)
  deriving DecidableEq, Repr

/-- A parsed document: its root, and the first child of the root with its content. -/
structure MgmtDoc where
  root : MgmtNode
  child : Option (MgmtNode × Option (List Byte))
  deriving DecidableEq, Repr

/-- `axl_node_get_attribute_value` (axl, not in /repo): `none` is NULL. -/
def MgmtNode.attr (n : MgmtNode) (name : List Byte) : Option (List Byte) := n.attrs.lookup name

inductive MgmtEncoding
  | none
  | base64
  | unknown
  deriving DecidableEq, Repr

/-- What is done with a message of channel 0. -/
inductive MgmtAct
  /-- `atoi (NULL)` -/
  | crash
  /-- an error is sent as reply -/
  | refused
  /-- an error is sent as reply, and the connection is shut down -/
  | refusedShut
  /-- the connection is shut down -/
  | shut
  /-- nothing is done, no reply is sent -/
  | ignored
  /-- a request to start this channel is handled -/
  | start (num : Int) (profile content serverName : Option (List Byte)) (encoding : MgmtEncoding)
  /-- a request to close this channel is handled -/
  | close (num : Int)
  deriving DecidableEq, Repr

inductive MgmtKind
  | start
  | close
  | error
  | ok
  | unknown
  deriving DecidableEq, Repr

/-- `isspace` in the C locale. -/
def isSpaceB (c : Byte) : Bool := c = 32 || (9 ≤ c.toNat && c.toNat ≤ 13)

/-- `atoi` of the C library (glibc: `(int) strtol (s, NULL, 10)`; the standard leaves values out of range undefined). -/
def atoi (s : List Byte) : Int :=
  match (cstr s).dropWhile isSpaceB with
  | [] => 0
  | c :: r =>
    if c = 45 then i32 (max (-(digitsVal (r.takeWhile isDigitB) : Int)) (-9223372036854775808))
    else if c = 43 then strtolInt (r.takeWhile isDigitB)
    else strtolInt ((c :: r).takeWhile isDigitB)

/-- `__vortex_channel_0_frame_received_identify_type`, src/vortex_channel.c:6781-6834; the second result: an error was sent. `parse` is
`axl_doc_parse` (axl, not in /repo). The comparisons :6793-6800 may read octets behind a short payload, the first of which is zero
and decides. -/
def mgmtKind (parse : List Byte → Option MgmtDoc) (body : List Byte) : MgmtKind × Bool :=
  if (lit "<start").isPrefixOf body then (.start, false)
  else if (lit "<close").isPrefixOf body then (.close, false)
  else if (lit "<error").isPrefixOf body then (.error, false)
  else if (lit "<ok").isPrefixOf body then (.ok, false)
  else
    match parse body with
    | none => (.unknown, true)
    | some d =>
      if d.root.name = lit "start" then (.start, false)
      else if d.root.name = lit "close" then (.close, false)
      else if d.root.name = lit "error" then (.error, false)
      else if d.root.name = lit "ok" then (.ok, false)
      else (.unknown, false)

/-- `__vortex_channel_0_frame_received_get_start_param`, src/vortex_channel.c:6853-6916, and :7244-7251. -/
def mgmtStart (parse : List Byte → Option MgmtDoc) (body : List Byte) : MgmtAct :=
  match parse body with
  | none => .refused
  | some d =>
    match d.root.attr (lit "number") with
    | none => .crash
    | some n =>
      let enc := match d.child.bind (·.1.attr (lit "encoding")) with
        | none => MgmtEncoding.none
        | some e => if e = lit "none" then .none else if e = lit "base64" then .base64 else .unknown
      .start (atoi n) (d.child.bind (·.1.attr (lit "uri"))) (d.child.bind (·.2)) (d.root.attr (lit "serverName")) enc

/-- `__vortex_channel_0_frame_received_get_close_param`, src/vortex_channel.c:7401-7423, and :7455-7461. -/
def mgmtClose (parse : List Byte → Option MgmtDoc) (body : List Byte) : MgmtAct :=
  match parse body with
  | none => .refused
  | some d =>
    match d.root.attr (lit "number") with
    | none => .crash
    | some n => .close (atoi n)

/-- `vortex_channel_0_frame_received`, src/vortex_channel.c:7797-7847; the validation :7815-7816 is commented out. -/
def mgmtReceive (parse : List Byte → Option MgmtDoc) (body : List Byte) : MgmtAct :=
  match mgmtKind parse body with
  | (.start, _) => mgmtStart parse body
  | (.close, _) => mgmtClose parse body
  | (.ok, _) => .ignored
  | (.error, _) => .ignored
  | (.unknown, sent) => if sent then .refusedShut else .shut

/-! ## Requests to close -/

/-- A channel as a close request finds it. -/
structure CloseChan where
  /-- `being_closed` -/
  being : Bool
  /-- the data `VORTEX_CHANNEL_WAIT_REPLY` is set: a thread is asking the peer to close the channel -/
  waiter : Bool
  /-- `close_notify` is set -/
  notify : Bool
  /-- the answer of the close handler of the channel, if one is set -/
  handler : Option Bool
  /-- the answer of the close handler of the profile; `none`: the profile is not registered. A registered profile always has a close
  handler (src/vortex_profiles.c:339, 369, 673). -/
  profile : Option Bool
  deriving DecidableEq, Repr

inductive CloseOutcome
  /-- an error is sent as reply -/
  | refused
  /-- `<ok />` is sent as reply -/
  | agreed
  /-- `<ok />` is sent as reply and given to the thread that asks the peer to close the same channel -/
  | crossed
  /-- the global notification handler is called and no reply is sent -/
  | toldGlobal
  /-- the notification handler of the channel is called and no reply is sent -/
  | told
  /-- `vortex_channel_notify_close` is called to close the channel and reply -/
  | closed
  deriving DecidableEq, Repr

/-- `__vortex_channel_0_frame_received_close_msg`, src/vortex_channel.c:7440-7625, for this channel number; `global`: a handler was set
with `vortex_ctx_set_close_notify_handler` (src/vortex_ctx.c:362-375). `chans` is the table of channels. -/
def closeRequest (global : Bool) (chans : Int → Option CloseChan) (num : Int) : CloseOutcome :=
  -- :7467-7474, src/vortex_connection.c:4089-4104
  match (if num < 0 then none else chans num) with
  | none => .refused
  | some c =>
    -- :7481-7528
    if c.being then if c.waiter then .crossed else .agreed
    -- :7530-7543
    else if num ≠ 0 ∧ global then .toldGlobal
    -- :7546-7556
    else if c.notify then .told
    else
      -- :7558-7589
      let value := match c.handler with
        | some a => a
        | none =>
          match c.profile with
          | some a => a
          | none => true
      -- :7608-7624
      if value then .closed else .refused

end Verif.Model
