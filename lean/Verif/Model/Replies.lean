import Verif.Model.Sender
/-!
# Received messages waiting for an answer, and the reply functions (src/vortex_channel.c)
-/
namespace Verif.Model

/-- `channel->incoming_msg` (numbers received and not answered, oldest first) and
`channel->incoming_msg_frame_fragment` (-1: no message partially received), src/vortex_channel.c. -/
structure Incoming where
  pending : List Int
  fragment : Int
  deriving DecidableEq, Repr

/-- `vortex_channel_empty_new`, src/vortex_channel.c:1537-1659, channels other than 0. -/
def Incoming.init : Incoming := ⟨[], -1⟩

/-- `vortex_channel_check_msg_no`, src/vortex_channel.c:9222-9319 (`none`: returns false), with
`vortex_channel_check_msg_no_find_item` as list membership. One critical section. -/
def Incoming.check (s : Incoming) (more : Bool) (m : Int) : Option Incoming :=
  if s.fragment ≠ -1 ∧ s.fragment ≠ m then none
  else if more then
    if s.fragment = -1 then
      if m ∈ s.pending then none else some { pending := s.pending ++ [m], fragment := m }
    else some s
  else if s.fragment ≠ -1 then some { s with fragment := -1 }
  else if m ∈ s.pending then none
  else some { s with pending := s.pending ++ [m] }

/-- `vortex_channel_get_next_reply_no`, src/vortex_channel.c:5125-5152. -/
def Incoming.nextReplyNo (s : Incoming) : Int := s.pending.headD (-1)

/-- `vortex_channel_remove_first_pending_msg_no`, src/vortex_channel.c:5189-5215: on an empty list
`axl_list_get_first` gives NULL, read as 0. `false`: the connection is shut down. -/
def Incoming.removeFirst (s : Incoming) (m : Int) : Bool × Incoming :=
  if s.pending.headD 0 = m then (true, { s with pending := s.pending.drop 1 }) else (false, s)

/-- A value of the hash `channel->stored_replies`: a reply, or a list of ANS/NUL replies
(`ans_nul_list`). -/
inductive Stored
  | single (d : OutMsg)
  | list (ds : List OutMsg)
  deriving DecidableEq, Repr

/-- Where the thread that holds `send_mutex` is inside `__vortex_channel_common_rpy`. -/
inductive Phase
  /-- no thread holds the mutex -/
  | idle
  /-- at the label `send_reply` (:3301) with `msg_no_rpy` and `data` -/
  | sending (m : Int) (d : OutMsg)
  /-- at :3352, about to look for stored replies that can be sent now -/
  | fetching
  deriving DecidableEq, Repr

/-- The part of a channel the reply functions use. `mime` are the octets of its MIME headers (see
`Verif.Model.Mime`; taken to be constant). `queue` is what has been handed to
`vortex_sequencer_queue_data`, oldest first. `broken`: the connection was shut down or NULL
dereferenced by this code. -/
structure ReplyChan where
  channel : Int
  mime : List Byte
  inc : Incoming
  stored : Int → Option Stored
  indication : Int → Bool
  lastAns : Int
  queue : List OutMsg
  phase : Phase
  broken : Bool

/-- `vortex_channel_empty_new`, src/vortex_channel.c:1537-1659. -/
def ReplyChan.init (channel : Int) (mime : List Byte) : ReplyChan :=
  ⟨channel, mime, .init, fun _ => none, fun _ => false, 0, [], .idle, false⟩

def setAt {α : Type} (f : Int → α) (m : Int) (v : α) : Int → α := fun k => if k = m then v else f k

/-- `__vortex_channel_skip_mime_headers`, src/vortex_channel.c:2988-3021; the hash
`fixed_more_indication` as a set of numbers. -/
def skipMime (ind : Int → Bool) (more : Bool) (m : Int) : Bool × (Int → Bool) :=
  if more then
    if ind m then (true, ind) else (false, setAt ind m true)
  else (ind m, setAt ind m false)

/-- The reader thread accepts a MSG frame: `vortex_channel_check_msg_no`. `none`: rejected. -/
def ReplyChan.frame (s : ReplyChan) (more : Bool) (m : Int) : Option ReplyChan :=
  match s.inc.check more m with
  | none => none
  | some inc => some { s with inc := inc }

/-- `__vortex_channel_common_rpy` up to `send_reply`, src/vortex_channel.c:3044-3298, for
`vortex_channel_send_rpy`, `_send_rpy_more`, `_send_err`, `_send_err_more`, `_send_ans_rpy` and
`_finalize_ans_rpy` (type NUL, empty body), on an open channel and working connection, without feeder.
`none`: the call blocks on `send_mutex`. The Boolean is the value returned. -/
def ReplyChan.reply (s : ReplyChan) (m : Int) (type : FType) (more : Bool) (body : List Byte) :
    Option (Bool × ReplyChan) :=
  if s.phase ≠ .idle then none
  else
    let (skip, ind) := skipMime s.indication more m
    let s := { s with indication := ind }
    let d : OutMsg :=
      { type := type, channel := s.channel, msgno := m, ansno := s.lastAns, fixedMore := more
        message := (if skip then [] else s.mime) ++ body }
    if s.inc.nextReplyNo ≠ m then
      if type = .nul ∨ type = .ans then
        match s.stored m with
        | none => some (true, { s with stored := setAt s.stored m (some (.list [d])) })
        | some (.single _) => some (false, s)
        | some (.list l) =>
          if type = .nul ∧ l.getLast?.map (·.type) = some .nul then some (false, s)
          else some (true, { s with stored := setAt s.stored m (some (.list (l ++ [d]))) })
      else some (true, { s with stored := setAt s.stored m (some (.single d)) })
    else some (true, { s with phase := .sending m d })

/-- `__vortex_channel_common_rpy` from `send_reply` to the call of `vortex_sequencer_queue_data`,
src/vortex_channel.c:3301-3349; queueing succeeds. -/
def ReplyChan.send (s : ReplyChan) : Option ReplyChan :=
  match s.phase with
  | .sending m d =>
    let s :=
      match d.type with
      | .nul =>
        let (ok, inc) := s.inc.removeFirst m
        { s with lastAns := 0, inc := inc, broken := s.broken || !ok }
      | .ans => { s with lastAns := i32 (s.lastAns + 1) }
      | .rpy | .err =>
        if d.fixedMore then s
        else
          let (ok, inc) := s.inc.removeFirst m
          { s with inc := inc, broken := s.broken || !ok }
      | _ => s
    let s := if d.type ≠ .nul ∧ d.type ≠ .ans then { s with stored := setAt s.stored m none } else s
    some { s with queue := s.queue ++ [d], phase := .fetching }
  | _ => none

/-- `__vortex_channel_common_rpy`, src/vortex_channel.c:3352-3389: look for a stored reply to the message
that is first now. -/
def ReplyChan.fetch (s : ReplyChan) : Option ReplyChan :=
  match s.phase with
  | .fetching =>
    let m := s.inc.nextReplyNo
    match s.stored m with
    | none => some { s with phase := .idle }
    | some (.single d) => some { s with phase := .sending m d }
    | some (.list []) => some { s with broken := true, phase := .idle }
    | some (.list (d :: l)) =>
      some { s with
        stored := setAt s.stored m (if l = [] then none else some (.list l))
        phase := .sending m { d with ansno := s.lastAns } }
  | _ => none

/-- The thread inside the reply function runs on for up to `n` steps. -/
def ReplyChan.finish (s : ReplyChan) : Nat → ReplyChan
  | 0 => s
  | n + 1 =>
    match s.phase with
    | .idle => s
    | .sending _ _ => (s.send.getD s).finish n
    | .fetching => (s.fetch.getD s).finish n

end Verif.Model
