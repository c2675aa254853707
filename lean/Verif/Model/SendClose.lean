/-!
# The sending thread and channels that end (src/vortex_sequencer.c, src/vortex_connection.c, src/vortex_channel.c)

One channel of one connection, its queued messages, the sending thread and the threads of the application: who holds
references, when the connection and the channel are released, and what happens to messages that were not sent. The order
of channels in the work set and the window are modelled for C25, C26; here the window is a flag, changed by choice.

Simplifications: a message is a number, in the order of the queue; the release of a connection is one step (during it
`vortex_connection_ref` fails, as it does on a connection that is not ok); a thread of the application that sends has a
reference of the connection and one of the channel during the call; messages with feeders are not paused.
-/
namespace Verif.Model

/-- Where the sending thread is, `vortex_sequencer_process_channels` (src/vortex_sequencer.c:527-639). -/
inductive CmSender
  | idle
  /-- the flags of the channel were looked at, :545-556; the mutex is held -/
  | picked
  /-- `conn` was read, :570 -/
  | haveConn
  /-- it has a reference of the connection, :573; the mutex is released, :584 -/
  | sending
  /-- the first message was read, :440 -/
  | round (m : Nat)
  /-- the round ended; `complete` -/
  | sent (complete : Bool)
  /-- the reference of the connection was dropped, :598 -/
  | relock (complete : Bool)
  deriving DecidableEq, Repr

structure Cm where
  /-- references of the connection the application and the reader have -/
  appConn : Nat
  /-- that of the sending thread -/
  sendConn : Bool
  /-- `vortex_connection_is_ok` -/
  ok : Bool
  connFreed : Bool
  /-- the channel is in the table of channels of the connection, which has a reference -/
  attached : Bool
  /-- `channel->connection` is not NULL -/
  link : Bool
  /-- references of the channel the application has -/
  appChan : Nat
  /-- the channel is in `state->ready`, which has a reference -/
  ready : Bool
  chanFreed : Bool
  /-- "vo:seq:del" -/
  del : Bool
  stalled : Bool
  /-- `channel->pending_messages` -/
  pend : List Nat
  /-- messages queued so far -/
  next : Nat
  /-- messages written completely -/
  written : List Nat
  /-- messages whose memory was released -/
  released : List Nat
  /-- a thread is in `vortex_channel_send_msg`, after its checks -/
  inSend : Bool
  sender : CmSender
  /-- released memory was used -/
  bad : Bool
  deriving DecidableEq, Repr

/-- A new channel of a connection; `conns`, `chans` are references the application took. -/
def Cm.start (conns chans : Nat) : Cm :=
  ⟨conns + 1, false, true, false, true, true, chans, false, false, false, false, [], 0, [], [], false, .idle, false⟩

/-- `vortex_channel_unref2` (src/vortex_channel.c:5050-5096), after the reference was dropped: `vortex_channel_free`
(:7921-8034) releases the list of messages but not the messages, :8011. -/
def Cm.settleChan (s : Cm) : Cm :=
  if !s.attached && s.appChan == 0 && !s.ready then { s with chanFreed := true } else s

/-- `vortex_connection_unref` (src/vortex_connection.c:3050-3087), after the reference was dropped: `vortex_connection_free`
(:3601-3771) with `__vortex_connection_foreach_check_and_notify` (:2649-2678), `__vortex_channel_nullify_conn`
(src/vortex_channel.c:9377-9387) and `__vortex_channel_release_pending_messages` (:9149-9206) for the channels it has. -/
def Cm.settleConn (s : Cm) : Cm :=
  if s.appConn == 0 && !s.sendConn then
    if s.attached then
      { s with connFreed := true, link := false, released := s.released ++ s.pend, pend := [], attached := false }.settleChan
    else { s with connFreed := true }
  else s

/-- `axl_hash_cursor_remove`, with `__vortex_sequencer_channel_unref` (src/vortex_sequencer.c:47-51). -/
def Cm.remove (s : Cm) : Cm := { s with ready := false, sender := .idle }.settleChan

/-- `state->mutex` is free. -/
def Cm.mutexFree (s : Cm) : Bool :=
  match s.sender with
  | .picked | .haveConn => false
  | _ => true

/-- The channel is put in the work set, src/vortex_sequencer.c:108-124, 866-878. -/
def Cm.insert (s : Cm) : Cm := if s.chanFreed then { s with bad := true } else { s with ready := true }

inductive CmOp
  /-- `vortex_channel_send_msg` makes its checks -/
  | send
  /-- … and queues the message -/
  | queue
  /-- a SEQ frame arrives -/
  | seq
  /-- the channel is closed: `vortex_connection_remove_channel` -/
  | close
  /-- the connection breaks or is shut down -/
  | shutdown
  | refConn
  | unrefConn
  | refChan
  | unrefChan
  /-- the sending thread goes on; what it finds -/
  | sender (complete stall : Bool)
  deriving DecidableEq, Repr

/-- The sending thread, src/vortex_sequencer.c:527-639, 429-525. -/
def Cm.senderStep (s : Cm) (complete stall : Bool) : Cm :=
  match s.sender with
  | .idle =>
    if s.ready then
      if s.chanFreed then { s with bad := true }
      else if s.del || s.stalled then s.remove  -- :545-556
      else { s with sender := .picked }
    else s
  | .picked => if s.link then { s with sender := .haveConn } else s.remove  -- :570-578, `vortex_connection_ref` of NULL
  | .haveConn =>
    if s.connFreed then { s with bad := true, sender := .idle }
    else if s.ok then { s with sendConn := true, sender := .sending }
    else s.remove
  | .sending =>
    match s.pend with
    | [] => { s with sender := .sent false }  -- :441-445
    | m :: _ => { s with sender := .round m }
  | .round m =>
    if s.released.contains m then { s with bad := true, sender := .sent false }
    else if complete then { s with written := s.written ++ [m], stalled := stall, sender := .sent true }
    else { s with stalled := stall, sender := .sent false }
  | .sent c => { s with sendConn := false, sender := .relock c }.settleConn  -- :598
  | .relock c =>
    if s.chanFreed then { s with bad := true, sender := .idle } else
    -- :600-634, with `vortex_sequencer_remove_message_sent` (:248-280)
    let t := if c then { s with pend := s.pend.tail, released := s.released ++ s.pend.take 1 } else s
    if s.del || (c && t.pend.isEmpty) || s.stalled then t.remove else { t with sender := .idle }

def Cm.step (s : Cm) : CmOp → Cm
  -- `vortex_channel_send_msg_common`, src/vortex_channel.c:2440-2461
  | .send =>
    if s.appConn > 0 && s.appChan > 0 && !s.inSend && s.attached && s.ok then { s with inSend := true } else s
  -- :2635, `vortex_sequencer_add_channel` (src/vortex_sequencer.c:87-133)
  | .queue =>
    if s.inSend && s.mutexFree then
      let t := if s.ready || s.stalled then s else s.insert
      { t with pend := s.pend ++ [s.next], next := s.next + 1, inSend := false }
    else s
  -- src/vortex_reader.c:391-405, `vortex_sequencer_signal_update` (src/vortex_sequencer.c:848-888)
  | .seq =>
    if s.appConn > 0 && s.attached && s.mutexFree then
      let t := { s with stalled := false }
      if s.pend.isEmpty || s.ready then t else t.insert
    else s
  -- `vortex_connection_remove_channel_common` (src/vortex_connection.c:4621-4655)
  | .close =>
    if s.appConn > 0 && s.attached then { s with del := true, attached := false }.settleChan else s
  | .shutdown => { s with ok := false }
  | .refConn => if s.appConn > 0 then { s with appConn := s.appConn + 1 } else s
  | .unrefConn =>
    if s.appConn > (if s.inSend then 1 else 0) then { s with appConn := s.appConn - 1 }.settleConn else s
  | .refChan => if s.appChan > 0 then { s with appChan := s.appChan + 1 } else s
  | .unrefChan =>
    if s.appChan > (if s.inSend then 1 else 0) then { s with appChan := s.appChan - 1 }.settleChan else s
  | .sender complete stall => s.senderStep complete stall

def Cm.run (s : Cm) (ops : List CmOp) : Cm := ops.foldl Cm.step s

end Verif.Model
