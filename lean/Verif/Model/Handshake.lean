/-!
# Closing a channel: the two peers (src/vortex_channel.c)

One channel (not channel 0) between two peers, the channel management frames about it on channel 0 of each
direction, and its own messages and replies of each direction. The wait for replies,
`__vortex_channel_block_until_replies_are_received` (:5492-5572), has no limit while the connection works:
`vortex_cond_timedwait` returns `axl_true` when the half second is over (src/vortex_thread.c:927-933), so the loop
goes on. Not modelled: the end of the context, which ends it (:5520-5523). A frame of one channel may overtake one of another
channel (the sequencer skips the stalled ones), so the two are separate queues. The connection does not break,
except as a consequence of a frame for a channel that does not exist.
-/
namespace Verif.Model

/-- Frames of channel 0 about the channel: the close request, the positive answer, the negative one. -/
inductive HsMsg
  | close
  | ok
  | err
  deriving DecidableEq, Repr

/-- Frames of the channel: a message, and the (last frame of the) reply to one. -/
inductive HsData
  | msg
  | rpy
  deriving DecidableEq, Repr

/-- Where the thread that called `vortex_channel_close` is. -/
inductive HsPhase
  /-- there is none -/
  | idle
  /-- `being_closed` set, src/vortex_channel.c:6029 -/
  | marked
  /-- the reply waiter stored in the channel, :6052; waiting for the replies, :5746 -/
  | stored
  /-- the queue of the waiter was found empty, :5771 -/
  | checked
  /-- waiting for the answer, :5822-5824 -/
  | sent
  deriving DecidableEq, Repr

structure HsSide where
  /-- the channel is in the table of the connection -/
  present : Bool
  /-- `being_closed` -/
  being : Bool
  phase : HsPhase
  /-- answers in the queue of the waiter -/
  queue : List HsMsg
  /-- a close request was accepted, `vortex_channel_notify_close` waits for the replies, :7690 -/
  passive : Bool
  /-- the application was told of a close request and will call `vortex_channel_notify_close` -/
  deferred : Bool
  /-- own messages without a reply, `outstanding_msg` -/
  outstanding : Nat
  /-- messages of the peer not replied yet -/
  owed : Nat
  deriving DecidableEq, Repr

structure HsNet where
  a : HsSide
  b : HsSide
  /-- channel 0, from `a` to `b` -/
  ab : List HsMsg
  ba : List HsMsg
  /-- the channel, from `a` to `b` -/
  abData : List HsData
  baData : List HsData
  /-- a frame for a channel that does not exist arrived, src/vortex_reader.c:344-350 -/
  broken : Bool
  deriving DecidableEq, Repr

def HsSide.init : HsSide := ⟨true, false, .idle, [], false, false, 0, 0⟩
def HsNet.init : HsNet := ⟨.init, .init, [], [], [], [], false⟩

/-- What the close handler, the profile, or the notification handler does with a request, :7530-7587. -/
inductive HsDecision
  | accept
  | refuse
  | defer
  deriving DecidableEq, Repr

inductive HsOp
  /-- `vortex_channel_send_msg` and similar, :2444-2446 -/
  | send
  /-- the same, `being_closed` having been tested before it was set -/
  | sendLate
  /-- the reply to a message of the peer is sent -/
  | reply
  /-- `vortex_channel_close`: :5967-6030 -/
  | close
  /-- :6045-6054 -/
  | store
  /-- all replies received (:5746), then :5766-5771 -/
  | check
  /-- :5774-5777 -/
  | ask
  /-- all the replies sent (:5823), the answer taken (:5824) -/
  | take
  /-- the same, the replies not sent in time, :5608-5616 (the result is not used, :5823) -/
  | takeLate
  /-- no answer in time: `NULL` is of no known type, :5858-5867 -/
  | timeout
  /-- a frame of channel 0 is received; the decision is used if it is a request -/
  | recv (d : HsDecision)
  /-- the deferred decision, `vortex_channel_notify_close` called by the application -/
  | decide (accept : Bool)
  /-- `vortex_channel_notify_close` goes on, the replies received, :7729-7757 -/
  | finish
  /-- a frame of the channel is received -/
  | recvData
  deriving DecidableEq, Repr

/-- What is observed at a side: the channel is removed; a close request is sent; a close request is received; an
answer is sent. -/
inductive HsEvent
  | removed
  | asked
  | gotRequest
  | answered
  deriving DecidableEq, Repr

/-- Steps of the side `a`. -/
def HsNet.stepA (n : HsNet) (op : HsOp) : HsNet × List HsEvent :=
  if n.broken then (n, []) else
  match op with
  | .send =>
    if n.a.present && !n.a.being then
      ({ n with a := { n.a with outstanding := n.a.outstanding + 1 }, abData := n.abData ++ [.msg] }, [])
    else (n, [])
  | .sendLate =>
    if n.a.present then
      ({ n with a := { n.a with outstanding := n.a.outstanding + 1 }, abData := n.abData ++ [.msg] }, [])
    else (n, [])
  | .reply =>
    if n.a.present && 0 < n.a.owed then
      ({ n with a := { n.a with owed := n.a.owed - 1 }, abData := n.abData ++ [.rpy] }, [])
    else (n, [])
  | .close =>
    if n.a.present && !n.a.being then ({ n with a := { n.a with being := true, phase := .marked } }, []) else (n, [])
  | .store => if n.a.phase = .marked then ({ n with a := { n.a with phase := .stored, queue := [] } }, []) else (n, [])
  | .check =>
    if n.a.phase = .stored ∧ n.a.outstanding = 0 then
      ({ n with a := { n.a with phase := if n.a.queue = [] then .checked else .sent } }, [])
    else (n, [])
  | .ask => if n.a.phase = .checked then ({ n with a := { n.a with phase := .sent }, ab := n.ab ++ [.close] }, [.asked]) else (n, [])
  | .take =>
    if n.a.phase = .sent ∧ n.a.owed = 0 then
      match n.a.queue with
      | [] => (n, [])
      | .err :: _ => ({ n with a := { n.a with phase := .idle, queue := [] } }, [])
      | _ :: _ => ({ n with a := { n.a with phase := .idle, queue := [], present := false } }, [.removed])
    else (n, [])
  | .takeLate =>
    if n.a.phase = .sent ∧ 0 < n.a.owed then
      match n.a.queue with
      | [] => (n, [])
      | .err :: _ => ({ n with a := { n.a with phase := .idle, queue := [] } }, [])
      | _ :: _ => ({ n with a := { n.a with phase := .idle, queue := [], present := false } }, [.removed])
    else (n, [])
  | .timeout =>
    if n.a.phase = .sent ∧ n.a.queue = [] then
      ({ n with a := { n.a with phase := .idle, present := false } }, [.removed])
    else (n, [])
  | .recv d =>
    match n.ba with
    | [] => (n, [])
    | .close :: ba =>
      if !n.a.present then ({ n with ba, ab := n.ab ++ [.err] }, [.gotRequest, .answered])
      else if n.a.being then
        ({ n with ba, ab := n.ab ++ [.ok],
                  a := if n.a.phase = .stored ∨ n.a.phase = .checked ∨ n.a.phase = .sent then { n.a with queue := n.a.queue ++ [.ok] }
                       else n.a }, [.gotRequest, .answered])
      else
        match d with
        | .accept => ({ n with ba, a := { n.a with being := true, passive := true } }, [.gotRequest])
        | .refuse => ({ n with ba, ab := n.ab ++ [.err] }, [.gotRequest, .answered])
        | .defer => ({ n with ba, a := { n.a with deferred := true } }, [.gotRequest])
    | ans :: ba => ({ n with ba, a := if n.a.phase = .sent then { n.a with queue := n.a.queue ++ [ans] } else n.a }, [])
  | .decide acc =>
    if n.a.deferred then
      if acc then ({ n with a := { n.a with deferred := false, being := true, passive := true } }, [])
      else ({ n with a := { n.a with deferred := false }, ab := n.ab ++ [.err] }, [.answered])
    else (n, [])
  | .finish =>
    if n.a.passive ∧ n.a.outstanding = 0 then
      ({ n with a := { n.a with passive := false, present := false }, ab := n.ab ++ [.ok] }, [.answered, .removed])
    else (n, [])
  | .recvData =>
    match n.baData with
    | [] => (n, [])
    | x :: baData =>
      if !n.a.present then ({ n with broken := true }, [])
      else match x with
        | .msg => ({ n with baData, a := { n.a with owed := n.a.owed + 1 } }, [])
        | .rpy => ({ n with baData, a := { n.a with outstanding := n.a.outstanding - 1 } }, [])

/-- The same system, the sides exchanged. -/
def HsNet.swap (n : HsNet) : HsNet := ⟨n.b, n.a, n.ba, n.ab, n.baData, n.abData, n.broken⟩

/-- A step of one of the sides (`true`: `a`). -/
def HsNet.step (n : HsNet) (s : Bool) (op : HsOp) : HsNet × List (Bool × HsEvent) :=
  if s then ((n.stepA op).1, (n.stepA op).2.map (true, ·))
  else ((n.swap.stepA op).1.swap, (n.swap.stepA op).2.map (false, ·))

def HsNet.run (n : HsNet) : List (Bool × HsOp) → HsNet × List (Bool × HsEvent)
  | [] => (n, [])
  | (s, op) :: ops =>
    let r := n.step s op
    let r' := r.1.run ops
    (r'.1, r.2 ++ r'.2)

end Verif.Model
