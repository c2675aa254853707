import Verif.Model.CInt
/-!
# Requests answered through the pull API (pull/vortex_pull.c)

Requests of the peer to start or close a channel become events, which the application takes from a queue and answers later. The steps of the
handler that makes an event, of the application that waits for one and of the function that removes the pull API are taken apart where
another thread may come between. Requests are numbered in the order they come; what an event refers to is left out, masks are those of the
two kinds of requests (C41 is about masks), and two threads that remove the pull API at the same moment are not modelled.
-/
namespace Verif.Model

inductive PqKind
  | start
  | close
  deriving DecidableEq, Repr

/-- A queue of events, `VortexAsyncQueue`. -/
structure PqQueue where
  items : List Nat := []
  live : Bool := true
  deriving DecidableEq, Repr

structure PqState where
  /-- the number of requests so far -/
  count : Nat := 0
  /-- `VORTEX_PULL_QUEUE_KEY` of the context -/
  cur : Option Nat := none
  /-- all queues ever made -/
  queues : List PqQueue := []
  maskStart : Bool := false
  maskClose : Bool := false
  /-- handlers that have an event but did not queue it yet: kind, request, the queue they found -/
  mid : List (PqKind × Nat × Nat) := []
  /-- calls that wait for an event, with the queue they found -/
  pulls : List Nat := []
  /-- events the application has taken -/
  held : List Nat := []
  /-- calls that remove the pull API: the queue, and whether an event was seen in it -/
  cleaning : List (Nat × Bool) := []
  /-- the answers sent to the peer -/
  answers : List (Nat × Bool) := []
  /-- a queue was used after it was released -/
  bad : Bool := false
  deriving DecidableEq, Repr

inductive PqOp
  /-- `vortex_pull_init` -/
  | init
  | mask (k : PqKind) (on : Bool)
  /-- the peer asks; `plain` is the answer of the handlers of the application, asked if there is no pull API -/
  | request (k : PqKind) (plain : Bool)
  /-- a handler goes on -/
  | queue (i : Nat)
  /-- `vortex_pull_next_event` is called -/
  | next
  /-- and goes on -/
  | take (i : Nat)
  /-- `vortex_channel_notify_start`, `vortex_channel_notify_close` -/
  | answer (r : Nat) (yes : Bool)
  /-- `vortex_pull_cleanup` is called -/
  | cleanup
  /-- and goes on -/
  | clean (i : Nat)
  deriving DecidableEq, Repr

def PqState.masked (s : PqState) : PqKind → Bool
  | .start => s.maskStart
  | .close => s.maskClose

/-- `vortex_async_queue_push` -/
def PqState.push (s : PqState) (g r : Nat) : PqState :=
  match s.queues[g]? with
  | none => { s with bad := true }
  | some q => if q.live then { s with queues := s.queues.set g { q with items := q.items ++ [r] } } else { s with bad := true }

def PqState.step (s : PqState) : PqOp → PqState
  -- `vortex_pull_init`, pull/vortex_pull.c:336-389
  | .init =>
    match s.cur with
    | some _ => s
    | none => { s with cur := some s.queues.length, queues := s.queues ++ [{}] }
  | .mask .start on => { s with maskStart := on }
  | .mask .close on => { s with maskClose := on }
  -- `vortex_pull_start_handler`, :1142-1176, `vortex_pull_close_notify`, :1033-1063, `vortex_pull_event_marshaller`, :201-228
  | .request k plain =>
    match s.cur with
    | none => { s with count := s.count + 1, answers := (s.count, plain) :: s.answers }
    | some g =>
      if s.masked k then { s with count := s.count + 1, answers := (s.count, true) :: s.answers }
      else { s with count := s.count + 1, mid := s.mid ++ [(k, s.count, g)] }
  -- for a start request the queue is looked up again, :1184-1187; for a close request not, :240-242
  | .queue i =>
    match s.mid[i]? with
    | none => s
    | some (.start, r, _) =>
      match s.cur with
      | none => { s with mid := s.mid.eraseIdx i }
      | some g => PqState.push { s with mid := s.mid.eraseIdx i } g r
    | some (.close, r, g) => PqState.push { s with mid := s.mid.eraseIdx i } g r
  -- `vortex_pull_next_event`, :522-535, without limit
  | .next =>
    match s.cur with
    | none => s
    | some g => { s with pulls := s.pulls ++ [g] }
  | .take i =>
    match s.pulls[i]? with
    | none => s
    | some g =>
      match s.queues[g]? with
      | none => { s with bad := true }
      | some q =>
        if q.live then
          match q.items with
          | [] => s
          | r :: l => { s with queues := s.queues.set g { q with items := l }, pulls := s.pulls.eraseIdx i, held := r :: s.held }
        else { s with bad := true }
  | .answer r yes => { s with answers := (r, yes) :: s.answers, held := s.held.erase r }
  -- `vortex_pull_cleanup`, :398-438
  | .cleanup =>
    match s.cur with
    | none => s
    | some g => { s with cur := none, cleaning := s.cleaning ++ [(g, false)] }
  | .clean i =>
    match s.cleaning[i]? with
    | none => s
    | some (g, seen) =>
      match s.queues[g]? with
      | none => { s with bad := true }
      | some q =>
        if q.live then
          match q.items, seen with
          -- nothing to remove: the queue is released
          | [], false => { s with queues := s.queues.set g { q with live := false }, cleaning := s.cleaning.eraseIdx i }
          -- `vortex_async_queue_pop` on an empty queue waits
          | [], true => s
          | _ :: _, false => { s with cleaning := s.cleaning.set i (g, true) }
          | _ :: l, true => { s with queues := s.queues.set g { q with items := l }, cleaning := s.cleaning.set i (g, false) }
        else { s with bad := true }

def pqRun (ops : List PqOp) : PqState := ops.foldl PqState.step {}

end Verif.Model
