/-!
Waiting for a change of a hash, `vortex_hash_lock_until_changed`, src/vortex_hash.c:449-479, and the notification of changes,
`__vortex_hash_notify_change`, src/vortex_hash.c:55-75, which every operation that changed something calls after it has unlocked the hash
(:207, :250, :300, :420, :512, :596, :729).

Any number of threads wait and any number change the hash. The queue is a count of tokens (all its items are the same) and of the threads
inside `vortex_async_queue_pop` or `_timedpop` (C33). Not modelled: references to the hash.
-/
namespace Verif.Model

/-- Where a thread is in `vortex_hash_lock_until_changed`. The number of changes that were made when it entered is kept for the history,
and when it began to wait. -/
inductive HWaitPc
  | out
  /-- the queue exists, src/vortex_hash.c:459-464 -/
  | entered (v : Nat)
  /-- in the queue, counted as a waiter, :470-472 -/
  | inside (v vc : Nat)
  /-- it returned 1 (`true`) or 0, after `n` changes in all -/
  | returned (v : Nat) (changed : Bool) (n : Nat)
  deriving DecidableEq, Repr

/-- Where a thread is that changes the hash. -/
inductive HChangePc
  | out
  /-- the change is made, the hash unlocked -/
  | changed
  /-- so many tokens are to be pushed, :64-71 -/
  | pushing (k : Nat)
  deriving DecidableEq, Repr

structure HashWait where
  /-- `changed_queue` exists -/
  queue : Bool
  tokens : Nat
  /-- `waiters` of the queue -/
  waiters : Nat
  /-- changes made so far -/
  version : Nat
  wpc : Nat → HWaitPc
  cpc : Nat → HChangePc

def HashWait.init : HashWait := ⟨false, 0, 0, 0, fun _ => .out, fun _ => .out⟩

inductive HWaitAct
  /-- thread `i` calls `vortex_hash_lock_until_changed` -/
  | enter (i : Nat)
  /-- it enters the queue: takes a token if there is one (src/vortex_thread.c:1167-1186) -/
  | count (i : Nat)
  /-- the wait ends with a token -/
  | take (i : Nat)
  /-- the wait ends because the time is over -/
  | timeout (i : Nat)
  /-- thread `j` makes a change -/
  | change (j : Nat)
  /-- it looks at the queue and at the number of waiters, src/vortex_hash.c:60-64 -/
  | look (j : Nat)
  /-- it pushes a token, :67 -/
  | push (j : Nat)
  deriving DecidableEq, Repr

def HashWait.setW (s : HashWait) (i : Nat) (p : HWaitPc) : HashWait := { s with wpc := fun k => if k = i then p else s.wpc k }
def HashWait.setC (s : HashWait) (j : Nat) (p : HChangePc) : HashWait := { s with cpc := fun k => if k = j then p else s.cpc k }

/-- When there is nothing more to push the thread is out. -/
def HChangePc.left : Nat → HChangePc
  | 0 => .out
  | k + 1 => .pushing (k + 1)

def HashWait.step (s : HashWait) : HWaitAct → HashWait
  | .enter i =>
    match s.wpc i with
    | .out => { s with queue := true }.setW i (.entered s.version)
    | .returned .. => { s with queue := true }.setW i (.entered s.version)
    | _ => s
  | .count i =>
    match s.wpc i with
    | .entered v =>
      if s.tokens = 0 then { s with waiters := s.waiters + 1 }.setW i (.inside v s.version)
      else { s with tokens := s.tokens - 1 }.setW i (.returned v true s.version)
    | _ => s
  | .take i =>
    match s.wpc i with
    | .inside v _ =>
      if s.tokens = 0 then s
      else { s with tokens := s.tokens - 1, waiters := s.waiters - 1 }.setW i (.returned v true s.version)
    | _ => s
  | .timeout i =>
    match s.wpc i with
    | .inside v _ =>
      if s.tokens = 0 then { s with waiters := s.waiters - 1 }.setW i (.returned v false s.version) else s
    | _ => s
  | .change j =>
    match s.cpc j with
    | .out => { s with version := s.version + 1 }.setC j .changed
    | _ => s
  | .look j =>
    match s.cpc j with
    | .changed => if s.queue then s.setC j (.left s.waiters) else s.setC j .out
    | _ => s
  | .push j =>
    match s.cpc j with
    | .pushing (k + 1) => { s with tokens := s.tokens + 1 }.setC j (.left k)
    | _ => s

def HashWait.run (s : HashWait) (acts : List HWaitAct) : HashWait := acts.foldl HashWait.step s

end Verif.Model
