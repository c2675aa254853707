/-!
# The memory of a wait reply object (src/vortex_channel.c)

One `WaitReplyData`, the queue inside it, and all that use them: the thread that created the object, the reader, the
thread that terminates the channel, the threads that answer a close message crossing one of ours, and the thread that
runs the handler of a closed connection. One step is what a thread does between two points where others may come in.
Frames are numbered in the order in which they are created. Which reply belongs to which message is not modelled here
(see `WaitReply.lean`).
-/
namespace Verif.Model

/-- What is on the queue of the object. -/
inductive WmItem
  | frame (f : Nat)
  /-- `INT_TO_PTR (-3)`, src/vortex_channel.c:8591 -/
  | gone
  deriving DecidableEq, Repr

/-- Where the thread that created the object is. -/
inductive WmPc
  /-- it has the object and is not in a call (just created, or the last call gave no frame) -/
  | ready
  /-- src/vortex_channel.c:8657: it has a reference of the queue; the handler is not installed -/
  | checked
  /-- in `vortex_async_queue_timedpop`, line 8667 -/
  | blocked
  /-- back from it; `none`: time out -/
  | popped (r : Option WmItem)
  /-- in `vortex_async_queue_pop`, line 8678 -/
  | draining (r : Option WmItem)
  /-- at line 8681 -/
  | back (r : Option WmItem)
  /-- at line 8708, going to give up the object -/
  | cleared (f : Nat)
  /-- at line 8712, going to give up the queue and to return -/
  | leaving (r : Option Nat)
  /-- it gave up the object -/
  | done
  deriving DecidableEq, Repr

/-- The handler for the close of the connection. -/
inductive WmHook
  | none
  /-- in the list of the connection -/
  | installed
  /-- taken from the list, with a thread created that has not called it yet (src/vortex_connection.c:5003-5039, 5071-5092) -/
  | taken
  deriving DecidableEq, Repr

/-- The reader, which holds `channel->receive_mutex`. -/
inductive WmReader
  | idle
  /-- took the object from `waiting_msgno`, src/vortex_channel.c:6598 -/
  | took
  /-- pushed the frame, line 6601 -/
  | pushed
  deriving DecidableEq, Repr

structure Wm where
  pc : WmPc
  /-- `refcount` of the object, and whether it was released -/
  rc : Int
  freed : Bool
  /-- reference count of the queue, and whether it was released -/
  qrc : Int
  qfreed : Bool
  items : List WmItem
  /-- how many times the object is in `channel->waiting_msgno` -/
  waiting : Nat
  reader : WmReader
  hook : WmHook
  broken : Bool
  /-- whether the channel being closed has the object as `VORTEX_CHANNEL_WAIT_REPLY` -/
  slot : Bool
  /-- threads that answer a crossing close message: those that got the object from the channel (src/vortex_channel.c:7498), … -/
  looking : Nat
  /-- … that have a reference (line 7499), … -/
  refd : Nat
  /-- … and that pushed their frame (line 7513) -/
  pushed : Nat
  /-- frames created so far -/
  next : Nat
  /-- frames given to the caller -/
  given : List Nat
  /-- frames released with the object -/
  released : List Nat
  /-- frames taken from the queue and dropped (line 8678) -/
  lost : List Nat
  /-- the object, or the queue, was used after its release -/
  objFault : Bool
  queueFault : Bool
  deriving DecidableEq, Repr

/-- `vortex_channel_create_wait_reply`, src/vortex_channel.c:8563-8580; `closing`: for `vortex_channel_close`, which makes it
known to the channel (lines 6045-6057). -/
def Wm.init (closing : Bool) : Wm :=
  ⟨.ready, 1, false, 1, false, [], 0, .idle, .none, false, closing, 0, 0, 0, 0, [], [], [], false, false⟩

/-- The memory of the object is read or written. -/
def Wm.touch (s : Wm) : Wm := if s.freed then { s with objFault := true } else s

/-- The memory of the queue is read or written. -/
def Wm.qtouch (s : Wm) : Wm := if s.qfreed then { s with queueFault := true } else s

/-- `vortex_async_queue_unref`, src/vortex_thread.c:1429-1462. -/
def Wm.qunref (s : Wm) : Wm :=
  let s := s.qtouch
  if s.qrc - 1 = 0 then { s with qrc := 0, qfreed := true } else { s with qrc := s.qrc - 1 }

def WmItem.frame? : WmItem → Option Nat
  | .frame f => some f
  | .gone => none

/-- `vortex_channel_free_wait_reply`, src/vortex_channel.c:8067-8109. -/
def Wm.unref (s : Wm) : Wm :=
  let s := s.touch
  if s.rc - 1 = 0 then
    { s with rc := 0, freed := true, released := s.released ++ s.items.filterMap WmItem.frame?, items := [] }.qunref
  else { s with rc := s.rc - 1 }

/-- `vortex_channel_wait_reply_ref`, src/vortex_channel.c:8042-8058. -/
def Wm.ref (s : Wm) : Wm :=
  let s := s.touch
  { s with rc := s.rc + 1 }

/-- `QUEUE_PUSH` of a new frame on `wait_reply->queue`, src/vortex_channel.c:6601, 7513. -/
def Wm.pushFrame (s : Wm) : Wm :=
  let s := s.touch.qtouch
  { s with items := s.items ++ [.frame s.next], next := s.next + 1 }

inductive WmOp
  /-- the object is given to `vortex_channel_send_msg_and_wait`, which gets to line 2615 of src/vortex_channel.c (also if it fails
  later on; if it fails earlier nothing happens to the object) -/
  | send
  /-- `vortex_channel_wait_reply` is called, and then its parts in order -/
  | wait
  | install
  | pop
  | timeout
  | uninstall
  | drain
  | finish
  | release
  | leave
  /-- `vortex_channel_free_wait_reply` is called by the thread that has the object -/
  | free
  /-- the channel being closed is removed from its connection (line 5909), by the thread that gave up the object -/
  | remove
  /-- the reader: a reply is compared with the number in the object (lines 6582-6590) … -/
  | peek
  /-- … and, if it is its reply, delivered -/
  | take
  | push
  | settle
  /-- `vortex_channel_free`, lines 7983-7986: one object of the queue -/
  | chanFree
  /-- a close message crossing ours -/
  | look
  | cref
  | cpush
  | cunref
  /-- the connection is broken, its handler is taken from the list, and called -/
  | breaks
  | hook
  | notify
  deriving DecidableEq, Repr

def Wm.step (s : Wm) : WmOp → Wm
  | .send =>
    -- src/vortex_channel.c:2604-2617
    if s.pc = .ready then { s.ref with waiting := s.waiting + 1 } else s
  | .wait =>
    -- lines 8644-8658
    if s.pc = .ready ∧ s.broken = false then { s.touch.qtouch with pc := .checked, qrc := s.qrc + 1 } else s
  | .install =>
    -- line 8663
    if s.pc = .checked then { s with pc := .blocked, hook := .installed } else s
  | .pop =>
    -- line 8667
    if s.pc = .blocked then
      match s.items with
      | [] => s
      | i :: rest => { s.touch.qtouch with pc := .popped (some i), items := rest }
    else s
  | .timeout => if s.pc = .blocked then { s.touch.qtouch with pc := .popped none } else s
  | .uninstall =>
    -- lines 8670-8679, src/vortex_connection.c:6840-6880
    match s.pc with
    | .popped r =>
      if s.hook = .installed then { s with pc := .back r, hook := .none }
      else if r = some .gone then { s with pc := .back r }
      else { s with pc := .draining r }
    | _ => s
  | .drain =>
    match s.pc with
    | .draining r =>
      match s.items with
      | [] => s
      | i :: rest => { s.qtouch with pc := .back r, items := rest, lost := s.lost ++ [i].filterMap WmItem.frame? }
    | _ => s
  | .finish =>
    -- lines 8681-8706
    match s.pc with
    | .back (some (.frame f)) => { s.touch with pc := .cleared f, slot := false }
    | .back _ => { s with pc := .leaving none }
    | _ => s
  | .release =>
    match s.pc with
    | .cleared f => { s.unref with pc := .leaving (some f) }
    | _ => s
  | .leave =>
    match s.pc with
    | .leaving (some f) => { s.qunref with pc := .done, given := s.given ++ [f] }
    | .leaving none => { s.qunref with pc := .ready }
    | _ => s
  | .free =>
    -- src/vortex_channel.c:5793, 5831, 993, 1016
    if s.pc = .ready then { s.unref with pc := .done } else s
  | .remove => if s.pc = .done then { s with slot := false } else s
  | .peek => if 0 < s.waiting ∧ s.reader = .idle then s.touch else s
  | .take =>
    if 0 < s.waiting ∧ s.reader = .idle then { s.touch with waiting := s.waiting - 1, reader := .took } else s
  | .push => if s.reader = .took then { s.pushFrame with reader := .pushed } else s
  | .settle => if s.reader = .pushed then { s.unref with reader := .idle } else s
  | .chanFree =>
    if 0 < s.waiting ∧ s.reader = .idle then { s.unref with waiting := s.waiting - 1 } else s
  | .look => if s.slot then { s with looking := s.looking + 1 } else s
  | .cref => if 0 < s.looking then { s.ref with looking := s.looking - 1, refd := s.refd + 1 } else s
  | .cpush => if 0 < s.refd then { s.pushFrame with refd := s.refd - 1, pushed := s.pushed + 1 } else s
  | .cunref => if 0 < s.pushed then { s.unref with pushed := s.pushed - 1 } else s
  | .breaks => { s with broken := true }
  | .hook => if s.broken ∧ s.hook = .installed then { s with hook := .taken } else s
  | .notify =>
    if s.hook = .taken then { s.qtouch with hook := .none, items := s.items ++ [.gone] } else s

def Wm.run (s : Wm) : List WmOp → Wm
  | [] => s
  | op :: ops => (s.step op).run ops

end Verif.Model
