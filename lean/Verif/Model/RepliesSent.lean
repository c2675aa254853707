import Verif.Model.Reader
/-!
Waiting until the replies of a channel are sent: what is remembered of messages received and replies written,
src/vortex_channel.c:1567-1572, 2261-2271 and 2309-2311, src/vortex_reader.c:443-450, src/vortex_sequencer.c:823-834, and
`vortex_channel_block_until_replies_are_sent`, src/vortex_channel.c:5592-5665.

Not modelled: the order of memory accesses of the two counters by different threads.
-/
namespace Verif.Model

/-- `last_message_received` and `last_reply_written` of a channel. -/
structure RpySent where
  chan0 : Bool
  lastMsg : Int
  lastReply : Int
  deriving DecidableEq, Repr

/-- `vortex_channel_empty_new`, src/vortex_channel.c:1567-1572. -/
def RpySent.init (chan0 : Bool) : RpySent := ⟨chan0, -1, if chan0 then -2 else -1⟩

inductive RpyAct
  /-- the last frame of a message with this number was received -/
  | msg (n : Int)
  /-- the last frame of a reply of this type to this message was written -/
  | reply (t : FType) (n : Int)
  deriving DecidableEq, Repr

/-- src/vortex_channel.c:2309-2311; src/vortex_sequencer.c:824-827 with src/vortex_channel.c:2261-2271. -/
def RpySent.step (s : RpySent) : RpyAct → RpySent
  | .msg n => { s with lastMsg := n }
  | .reply t n =>
    if t = .rpy ∨ t = .nul then
      if s.lastReply = -2 ∧ s.chan0 = true then { s with lastReply := -1 } else { s with lastReply := n }
    else s

def RpySent.run (s : RpySent) (acts : List RpyAct) : RpySent := acts.foldl RpySent.step s

/-- One round of the loop: the state found, whether the connection is ok, and how long the wait then takes, in microseconds. -/
structure RpyLook where
  s : RpySent
  connOk : Bool
  waited : Nat

/-- The loop, src/vortex_channel.c:5605-5650: the result and the time spent; `none`: it goes on after these rounds. -/
def rpyBlockLoop (left : Int) : List RpyLook → Option (Bool × Nat)
  | [] => none
  | o :: os =>
    if o.s.lastMsg = o.s.lastReply then some (true, 0)
    else if left < 0 then some (false, 0)
    else if o.connOk then (rpyBlockLoop (left - 500000) os).map fun r => (r.1, r.2 + o.waited)
    else some (false, 0)

/-- `vortex_channel_block_until_replies_are_sent`, src/vortex_channel.c:5592-5665; `timeout` is the one of the context. -/
def rpyBlock (timeout microseconds : Int) (looks : List RpyLook) : Option (Bool × Nat) :=
  rpyBlockLoop (if microseconds < 0 then timeout else microseconds) looks

end Verif.Model
