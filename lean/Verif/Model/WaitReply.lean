import Verif.Model.Reader
/-!
# Send and wait for the reply (src/vortex_channel.c)

Threads using `vortex_channel_send_msg_and_wait` and `vortex_channel_wait_reply` on one channel, the
reader thread, and the thread that finds the connection broken. Each call of send-and-wait uses a
`WaitReplyData` of its own, numbered in order of creation. Messages are sent in one call, and the replies
are whole (`complete_flag`).
-/
namespace Verif.Model

/-- What is pushed on the queue of a `WaitReplyData`. -/
inductive BoxItem
  /-- a frame with this message number -/
  | frame (m : Int)
  /-- `INT_TO_PTR (-3)`: the connection is broken -/
  | gone
  deriving DecidableEq, Repr

/-- How far a thread is in `vortex_channel_wait_reply`, src/vortex_channel.c:8635-8719. -/
inductive WaitPhase
  /-- not called -/
  | idle
  /-- the connection was found ok (line 8647); the close handler is not installed -/
  | checked
  /-- in `vortex_async_queue_timedpop` (line 8667) -/
  | blocked
  /-- back from it; `none`: time out -/
  | popped (r : Option BoxItem)
  /-- the close handler has run or is running: in `vortex_async_queue_pop` (line 8678) -/
  | draining (r : Option BoxItem)
  | returned
  deriving DecidableEq, Repr

structure WaitChan where
  out : OutChan
  /-- `channel->waiting_msgno`: message number and wait object -/
  waiting : List (Int × Nat)
  /-- wait objects created -/
  created : Nat
  box : Nat → List BoxItem
  phase : Nat → WaitPhase
  /-- wait objects whose close handler is installed in the connection -/
  handlers : List Nat
  /-- wait objects whose close handler was taken from the list to be called -/
  firing : List Nat
  broken : Bool

def WaitChan.init (limit : Int) (failOnLimit : Bool) : WaitChan :=
  ⟨.init limit failOnLimit, [], 0, fun _ => [], fun _ => .idle, [], [], false⟩

inductive ReplyDest
  | waiter (w : Nat)
  | handler
  /-- not the reply expected: connection shut down -/
  | refused
  deriving DecidableEq, Repr

inductive WaitOp
  /-- `vortex_channel_send_msg` (`false`) or `vortex_channel_send_msg_and_wait` (`true`) -/
  | send (wait : Bool)
  /-- a reply frame of type RPY, ERR, ANS or NUL (nothing happens for other types, and
  for negative numbers, which the parser does not give) -/
  | reply (t : FType) (m : Int)
  /-- thread with wait object `w` calls `vortex_channel_wait_reply` -/
  | wait (w : Nat)
  | install (w : Nat)
  | pop (w : Nat)
  | timeout (w : Nat)
  | uninstall (w : Nat)
  | drain (w : Nat)
  /-- the connection is broken; its close handlers are taken from the list -/
  | breaks
  /-- the close handler of `w` runs -/
  | notify (w : Nat)
  deriving DecidableEq, Repr

inductive WaitEvent
  | sent (m : Int) (w : Option Nat)
  | replied (t : FType) (m : Int) (d : ReplyDest)
  /-- `vortex_channel_wait_reply` returns a frame with this number, or NULL -/
  | returned (w : Nat) (r : Option Int)
  deriving DecidableEq, Repr

def putAt {α : Type} (f : Nat → α) (w : Nat) (v : α) : Nat → α := fun x => if x = w then v else f x

/-- What the caller gets, src/vortex_channel.c:8681-8718. -/
def BoxItem.result : Option BoxItem → Option Int
  | some (.frame m) => some m
  | _ => none

/-- `vortex_channel_invoke_received_handler`, src/vortex_channel.c:6574-6616, for a frame the reader has
accepted. -/
def WaitChan.dispatch (c : WaitChan) (t : FType) (m : Int) : ReplyDest × WaitChan :=
  if t = .rpy ∨ t = .err then
    match c.waiting with
    | [] => (.handler, c)
    | (n, w) :: rest =>
      if m = n then (.waiter w, { c with waiting := rest, box := putAt c.box w (c.box w ++ [.frame m]) })
      else (.handler, c)
  else (.handler, c)

/-- Frame types that complete a reply, src/vortex_reader.c:441-507. -/
def FType.lastReply : FType → Bool
  | .rpy | .err | .nul => true
  | _ => false

def FType.isReply : FType → Bool
  | .rpy | .err | .ans | .nul => true
  | _ => false

def WaitChan.step (c : WaitChan) : WaitOp → List WaitEvent × WaitChan
  | .send wait =>
    -- src/vortex_channel.c:2425-2655
    if c.broken then ([], c)
    else match c.out.sendMsg false with
      | (.sent m, out) =>
        if wait then
          ([.sent m (some c.created)],
           { c with out := out, waiting := c.waiting ++ [(m, c.created)], created := c.created + 1 })
        else ([.sent m none], { c with out := out })
      | (_, _) => ([], c)
  | .reply t m =>
    -- src/vortex_reader.c:359-382, 441-507
    if c.broken ∨ t.isReply = false ∨ m < 0 then ([], c)
    else if c.out.expectedReply = m then
      let c := if t.lastReply then { c with out := (c.out.removeFirst m).2 } else c
      ([.replied t m (c.dispatch t m).1], (c.dispatch t m).2)
    else ([.replied t m .refused], { c with broken := true, firing := c.firing ++ c.handlers, handlers := [] })
  | .wait w =>
    if c.phase w = .idle ∧ w < c.created then
      if c.broken then ([.returned w none], { c with phase := putAt c.phase w .returned })
      else ([], { c with phase := putAt c.phase w .checked })
    else ([], c)
  | .install w =>
    if c.phase w = .checked then
      ([], { c with phase := putAt c.phase w .blocked, handlers := w :: c.handlers })
    else ([], c)
  | .pop w =>
    if c.phase w = .blocked then
      match c.box w with
      | [] => ([], c)
      | i :: rest => ([], { c with phase := putAt c.phase w (.popped (some i)), box := putAt c.box w rest })
    else ([], c)
  | .timeout w =>
    if c.phase w = .blocked then ([], { c with phase := putAt c.phase w (.popped none) }) else ([], c)
  | .uninstall w =>
    match c.phase w with
    | .popped r =>
      if w ∈ c.handlers then
        ([.returned w (BoxItem.result r)],
         { c with phase := putAt c.phase w .returned, handlers := c.handlers.filter (· != w) })
      else if r = some .gone then ([.returned w none], { c with phase := putAt c.phase w .returned })
      else ([], { c with phase := putAt c.phase w (.draining r) })
    | _ => ([], c)
  | .drain w =>
    match c.phase w with
    | .draining r =>
      match c.box w with
      | [] => ([], c)
      | _ :: rest =>
        ([.returned w (BoxItem.result r)], { c with phase := putAt c.phase w .returned, box := putAt c.box w rest })
    | _ => ([], c)
  | .breaks => ([], { c with broken := true, firing := c.firing ++ c.handlers, handlers := [] })
  | .notify w =>
    if w ∈ c.firing then
      ([], { c with firing := c.firing.filter (· != w), box := putAt c.box w (c.box w ++ [.gone]) })
    else ([], c)

def WaitChan.run (c : WaitChan) : List WaitOp → List WaitEvent × WaitChan
  | [] => ([], c)
  | op :: ops => ((c.step op).1 ++ ((c.step op).2.run ops).1, ((c.step op).2.run ops).2)

end Verif.Model
