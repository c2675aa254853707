import Verif.Model.Reader
/-!
# Callers waiting for the outstanding limit (src/vortex_channel.c)
-/
namespace Verif.Model

/-- Callers of `vortex_channel_send_msg` on a channel with an outstanding limit and waiting mode.
`waiting`: inside `VORTEX_COND_WAIT (&channel->send_cond, ..)` (the element tells whether their part has
the "more" indication). `woken`: signalled, waiting to get `send_mutex` back. `due`: replies whose number has
been removed and whose signal has not been sent yet (the reader is between :5250 and :5256). -/
structure Senders where
  out : OutChan
  waiting : List Bool
  woken : List Bool
  due : Nat
  shut : Bool
  deriving DecidableEq, Repr

/-- Nobody is sending. -/
def Senders.init (limit : Int) : Senders := ⟨.init limit false, [], [], 0, false⟩

inductive SenderOp
  /-- a thread calls `vortex_channel_send_msg` (or `_send_msg_more`) and runs until it returns or waits -/
  | call (more : Bool)
  /-- the reader accepts the last frame of a reply: first critical section of
  `vortex_channel_remove_first_outstanding_msg_no`, src/vortex_channel.c:5234-5252 -/
  | reply
  /-- its second critical section, :5254-5259; the system picks the waiting thread number `i` -/
  | signal (i : Nat)
  /-- the woken thread number `i` gets the mutex and goes back to `check_limit` (:2485-2486) -/
  | retry (i : Nat)
  /-- the connection is shut down -/
  | shutdown
  deriving DecidableEq, Repr

/-- `check_limit` and what follows, src/vortex_channel.c:2467-2655, holding `send_mutex`. The numbers
given out are appended to the result. -/
def Senders.attempt (s : Senders) (more : Bool) : Senders :=
  match s.out.sendMsg more with
  | (.blocked, _) => { s with waiting := s.waiting ++ [more] }
  | (_, out) => { s with out := out }

/-- One step. `vortex_channel_send_msg_common` (src/vortex_channel.c:2425-2655) checks the connection
(:2449) before waiting, and not afterwards; nothing but a reply signals `send_cond`. -/
def Senders.step (s : Senders) : SenderOp → Senders
  | .call more => if s.shut then s else s.attempt more
  | .reply =>
    if s.shut then s
    else
      match s.out.outstanding with
      | [] => s
      | _ :: rest => { s with out := { s.out with outstanding := rest }, due := s.due + 1 }
  | .signal i =>
    if s.due = 0 then s
    else
      match s.waiting[i]? with
      | none => if s.waiting = [] then { s with due := s.due - 1 } else s
      | some m => { s with due := s.due - 1, waiting := s.waiting.eraseIdx i, woken := s.woken ++ [m] }
  | .retry i =>
    match s.woken[i]? with
    | none => s
    | some m => { s with woken := s.woken.eraseIdx i }.attempt m
  | .shutdown => { s with shut := true }

/-- A history. -/
def Senders.run (s : Senders) (ops : List SenderOp) : Senders := ops.foldl Senders.step s

end Verif.Model
