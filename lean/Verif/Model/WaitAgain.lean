/-!
# Wait reply objects used for several messages (src/vortex_channel.c)

One channel, the threads that send messages over it with or without a wait reply object, and the replies of the peer. Messages are
numbered in the order in which they are sent; on the wire a message has that number modulo 2^31. Calls are whole: what happens inside of
`vortex_channel_wait_reply` is in `WaitReply.lean`, which has one object for each message, and the memory of one object is in
`WaitMem.lean`. Not modelled: broken connections, limits for outstanding messages.
-/
namespace Verif.Model

/-- `WaitReplyData`, src/vortex_channel.c:419-432: `msg_no_reply`, the messages whose replies are on `queue`, `refcount`. `owned`: the
thread that created it has not given it up. -/
structure WaObj where
  msg : Nat
  box : List Nat
  refs : Nat
  owned : Bool
  deriving DecidableEq, Repr

structure WaState where
  /-- messages sent -/
  sent : Nat
  /-- `outstanding_msg`: messages that are not answered completely, the oldest first -/
  open_ : List Nat
  /-- `waiting_msgno` -/
  waiting : List Nat
  objs : List WaObj
  deriving DecidableEq, Repr

def WaState.init : WaState := ⟨0, [], [], []⟩

inductive WaOp
  /-- `vortex_channel_create_wait_reply` -/
  | create
  /-- `vortex_channel_send_msg`, `vortex_channel_send_msg_and_wait` -/
  | send (o : Option Nat)
  /-- the peer answers the oldest message, with RPY or ERR (`true`), or with ANS and NUL frames -/
  | reply (one : Bool)
  /-- `vortex_channel_wait_reply`; it returns NULL if there is nothing until the time is over -/
  | wait (o : Nat)
  /-- `vortex_channel_free_wait_reply` -/
  | drop (o : Nat)
  deriving DecidableEq, Repr

inductive WaEvent
  | created (o : Nat)
  /-- message `k` is sent with the object -/
  | sent (k : Nat) (o : Option Nat)
  /-- the reply to message `k` is put on the queue of the object -/
  | given (k o : Nat)
  /-- the reply to message `k` is delivered by the received handler of the channel -/
  | handler (k : Nat)
  /-- `vortex_channel_wait_reply` returns the reply to message `k`, or NULL -/
  | returned (o : Nat) (k : Option Nat)
  /-- the memory of the object is released, with the replies on its queue -/
  | freed (o : Nat) (lost : List Nat)
  /-- released memory is used -/
  | fault
  /-- not a call the interface allows: the object was given up, or does not exist; or nothing is outstanding -/
  | ignored
  deriving DecidableEq, Repr

/-- `vortex_channel_free_wait_reply`, src/vortex_channel.c:8067-8110. -/
def WaState.unref (x : WaState) (o : Nat) (p : WaObj) : WaState × List WaEvent :=
  if p.refs = 0 then (x, [.fault])
  else if p.refs = 1 then ({ x with objs := x.objs.set o { p with refs := 0, box := [] } }, [.freed o p.box])
  else ({ x with objs := x.objs.set o { p with refs := p.refs - 1 } }, [])

/-- `vortex_channel_invoke_received_handler`, src/vortex_channel.c:6564-6616, for a RPY or ERR frame that answers message `k`. -/
def WaState.dispatch (x : WaState) (k : Nat) : WaState × List WaEvent :=
  match x.waiting with
  | [] => (x, [.handler k])
  | o :: rest =>
    match x.objs[o]? with
    | none => (x, [.fault])
    | some p =>
      if p.refs = 0 then (x, [.fault])
      else if k % 2 ^ 31 ≠ p.msg then (x, [.handler k])
      else
        let p := { p with box := p.box ++ [k] }
        let y := WaState.unref { x with waiting := rest, objs := x.objs.set o p } o p
        (y.1, .given k o :: y.2)

/-- src/vortex_channel.c:8562-8579 (create), 2603-2630 (send), 8635-8719 (wait); src/vortex_reader.c:359-382, 441-507 (replies are for the
oldest message). -/
def WaState.step (x : WaState) : WaOp → WaState × List WaEvent
  | .create => ({ x with objs := x.objs ++ [⟨0, [], 1, true⟩] }, [.created x.objs.length])
  | .send none => ({ x with sent := x.sent + 1, open_ := x.open_ ++ [x.sent] }, [.sent x.sent none])
  | .send (some o) =>
    match x.objs[o]? with
    | none => (x, [.ignored])
    | some p =>
      if p.owned = false then (x, [.ignored])
      else
        ({ x with
            sent := x.sent + 1, open_ := x.open_ ++ [x.sent], waiting := x.waiting ++ [o],
            objs := x.objs.set o { p with msg := x.sent % 2 ^ 31, refs := p.refs + 1 } }, [.sent x.sent (some o)])
  | .reply one =>
    match x.open_ with
    | [] => (x, [.ignored])
    | k :: rest =>
      let x := { x with open_ := rest }
      if one then x.dispatch k else (x, [.handler k])
  | .wait o =>
    match x.objs[o]? with
    | none => (x, [.ignored])
    | some p =>
      if p.owned = false then (x, [.ignored])
      else match p.box with
        | [] => (x, [.returned o none])
        | k :: rest =>
          let p := { p with box := rest, owned := false }
          let y := WaState.unref { x with objs := x.objs.set o p } o p
          (y.1, .returned o (some k) :: y.2)
  | .drop o =>
    match x.objs[o]? with
    | none => (x, [.ignored])
    | some p =>
      if p.owned = false then (x, [.ignored])
      else
        let p := { p with owned := false }
        WaState.unref { x with objs := x.objs.set o p } o p

/-- The calls with their events. -/
def WaState.run : WaState → List WaOp → WaState × List (List WaEvent)
  | x, [] => (x, [])
  | x, op :: r => (((x.step op).1.run r).1, (x.step op).2 :: ((x.step op).1.run r).2)

end Verif.Model
