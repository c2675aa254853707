/-!
Waiting for frames of a channel with `vortex_channel_get_reply`, src/vortex_channel.c:8346-8411: the queue of the caller, filled by
`vortex_channel_queue_reply` (8183-8210), the initial piggyback (8425-8440), and the mark -4 that the close handler puts into the queue
when the connection fails (8219-8224).

One thread calls the function again and again on one channel (not NULL) with one queue, which it then releases; the pool delivers frames and
the connection fails at any moment. Between two steps of one thread the others go on. Not modelled: a context that is being ended (no close
handler is called), threads that cannot be created, several threads or channels with one queue.
-/
namespace Verif.Model

/-- What the queue holds: a copy of a frame or the mark -4. -/
inductive ReplyItem
  | frame (x : Nat)
  | mark
  deriving DecidableEq, Repr

/-- Where the thread is in `vortex_channel_get_reply`. -/
inductive GetPc
  | idle
  /-- the connection was ok or the queue was not empty, :8376 -/
  | checked
  /-- in the timed wait, :8392 -/
  | waiting
  /-- back with an item or NULL (time over), the close handler still to be removed, :8393-8404 -/
  | popped (r : Option ReplyItem)
  deriving DecidableEq, Repr

/-- What the caller gets. -/
inductive GetRes
  | piggyback (x : Nat)
  | frame (x : Nat)
  /-- NULL; `timeout`: after the whole time -/
  | null (timeout : Bool)
  deriving DecidableEq, Repr

structure GetReply where
  /-- `vortex_connection_is_ok` -/
  connOk : Bool
  /-- the close handlers were all taken from the list: `__vortex_connection_invoke_on_close` is over -/
  over : Bool
  /-- the data "piggyback" of the channel -/
  piggy : Option Nat
  /-- the queue, first item first -/
  items : List ReplyItem
  /-- the user's reference of the queue is not given back -/
  alive : Bool
  /-- the close handler with this queue is in the list of the connection -/
  handler : Bool
  /-- threads created to call the close handler with this queue that have not pushed, src/vortex_connection.c:5007-5043 -/
  marks : Nat
  pc : GetPc
  /-- the history: frames delivered to the queue, results of the calls -/
  delivered : List Nat
  results : List GetRes

def GetReply.init : GetReply := ⟨true, false, none, [], true, false, 0, .idle, [], []⟩

inductive GetAct
  /-- `vortex_channel_set_piggyback`, src/vortex_channel.c:8470-8497 -/
  | piggyback (x : Nat)
  /-- `vortex_channel_queue_reply` is called with this frame, :8183-8210; not any more when the queue was released -/
  | deliver (x : Nat)
  /-- the connection is marked as not connected -/
  | fail
  /-- one round of the loop of `__vortex_connection_invoke_on_close`, src/vortex_connection.c:5077-5098 -/
  | takeHandler
  /-- one thread of those created there calls the close handler -/
  | mark
  /-- the caller enters, src/vortex_channel.c:8353-8380 -/
  | call
  /-- it installs the close handler, :8384-8389 -/
  | install
  /-- the timed wait ends with the first item, src/vortex_thread.c:1271-1281 -/
  | pop
  /-- it ends without an item, src/vortex_thread.c:1243-1268 -/
  | timeout
  /-- the handler is removed, whatever `vortex_connection_remove_on_close_full` returns, and the result returned,
  src/vortex_channel.c:8393-8410 -/
  | finish
  /-- the user gives back the reference of the queue, the last one when no call goes on -/
  | release
  deriving DecidableEq, Repr

/-- What the caller gets for the item popped, src/vortex_channel.c:8393-8410. -/
def GetReply.result : Option ReplyItem → GetRes
  | some (.frame x) => .frame x
  | some .mark => .null false
  | none => .null true

/-- One step; `none` if a released queue is used. -/
def GetReply.step (s : GetReply) : GetAct → Option GetReply
  | .piggyback x => some { s with piggy := some x }
  | .deliver x => if s.alive then some { s with items := s.items ++ [.frame x], delivered := s.delivered ++ [x] } else some s
  | .fail => some { s with connOk := false }
  | .takeHandler =>
    if s.connOk || s.over then some s
    else if s.handler then some { s with handler := false, marks := s.marks + 1 }
    else some { s with over := true }
  | .mark =>
    if s.marks = 0 then some s
    else if s.alive then some { s with items := s.items ++ [.mark], marks := s.marks - 1 }
    else none
  | .call =>
    if s.pc = .idle ∧ s.alive = true then
      match s.piggy with
      | some x => some { s with piggy := none, results := s.results ++ [.piggyback x] }
      | none =>
        if s.connOk = false ∧ s.items = [] then some { s with results := s.results ++ [.null false] }
        else some { s with pc := .checked }
    else some s
  | .install => if s.pc = .checked then some { s with handler := true, pc := .waiting } else some s
  | .pop =>
    if s.pc = .waiting then
      match s.items with
      | [] => some s
      | i :: rest => some { s with items := rest, pc := .popped (some i) }
    else some s
  | .timeout => if s.pc = .waiting ∧ s.items = [] then some { s with pc := .popped none } else some s
  | .finish =>
    match s.pc with
    | .popped r => some { s with handler := false, pc := .idle, results := s.results ++ [GetReply.result r] }
    | _ => some s
  | .release => if s.pc = .idle then some { s with alive := false } else some s

def GetReply.run (s : GetReply) : List GetAct → Option GetReply
  | [] => some s
  | a :: as => match s.step a with
    | none => none
    | some r => r.run as

end Verif.Model
