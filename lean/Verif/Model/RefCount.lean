import Verif.Model.WaitReply
import Verif.Model.CInt
/-!
# Reference counting

Channels, connections, queues, feeders, pull events, profiles, hashes and MIME statuses count references under a
mutex; frames without any.
-/
namespace Verif.Model

/-- An object with a reference counter protected by a mutex. -/
structure RefObj where
  /-- `ref_count` -/
  count : Int
  /-- threads that saw the counter reach zero and have not released the object yet -/
  freeing : Nat
  /-- times released -/
  frees : Nat
  /-- used after having been released -/
  bad : Bool
  deriving DecidableEq, Repr

/-- Just created: the counter is 1 in all of them (`empty_new`, src/vortex_channel.c:1537-1659, and so on). -/
def RefObj.init : RefObj := ⟨1, 0, 0, false⟩

inductive RefOp
  | ref
  | unref
  /-- the thread that dropped the last reference goes on -/
  | free
  deriving DecidableEq, Repr

/-- * `ref`: `vortex_channel_ref2`, src/vortex_channel.c:5007-5037; `vortex_connection_ref_internal` (the state of
the connection apart), src/vortex_connection.c:2928-2960; `vortex_async_queue_ref`, src/vortex_thread.c:1380-1397;
`vortex_payload_feeder_ref`, src/vortex_payload_feeder.c:438-453; `vortex_event_ref`, pull/vortex_pull.c:542-557;
`vortex_hash_ref`, src/vortex_hash.c:146-153; `vortex_frame_mime_status_ref`, src/vortex_frame_factory.c:142-150;
`vortex_channel_wait_reply_ref`, src/vortex_channel.c:8042-8057; `vortex_ctx_ref2`, src/vortex_ctx.c:661-676. The
answer is the one of the first two.
* `unref`: the part of `vortex_channel_unref2` (src/vortex_channel.c:5050-5087), `vortex_connection_unref`
(src/vortex_connection.c:3050-3089), `__vortex_profiles_unref` (src/vortex_profiles.c:153-175) and so on done with
the mutex held. * `free`: what follows once the counter is zero, with or without the mutex. -/
def RefObj.step (o : RefObj) : RefOp → RefObj × Option Bool
  | .ref => ({ o with count := i32 (o.count + 1), bad := o.bad || 0 < o.frees }, some (decide (2 ≤ i32 (o.count + 1))))
  | .unref =>
    ({ o with count := i32 (o.count - 1), bad := o.bad || 0 < o.frees,
              freeing := if i32 (o.count - 1) = 0 then o.freeing + 1 else o.freeing }, none)
  | .free => if 0 < o.freeing then ({ o with freeing := o.freeing - 1, frees := o.frees + 1, bad := o.bad || 0 < o.frees }, none) else (o, none)

/-- Final state and answers of the `ref` calls. -/
def RefObj.run (o : RefObj) : List RefOp → RefObj × List Bool
  | [] => (o, [])
  | op :: ops =>
    let r := o.step op
    let r' := r.1.run ops
    (r'.1, r.2.toList ++ r'.2)

/-! ## Objects found in a table -/

/-- An object registered in a hash that owns one reference; threads find it there. -/
structure RefTable where
  obj : RefObj
  inTable : Bool
  /-- references held by threads -/
  held : Nat
  /-- threads that have the pointer and no reference -/
  borrowed : Nat
  deriving DecidableEq, Repr

inductive RefTableOp
  /-- `__vortex_profiles_get_and_ref`, src/vortex_profiles.c:100-126: found and referenced with the mutex of the hash -/
  | getAndRef
  /-- `vortex_connection_get_channel`, src/vortex_connection.c:4260-4283 -/
  | lookup
  /-- `vortex_channel_ref2` by a thread that called the former (as src/vortex_channel.c:7476-7477) -/
  | refBorrowed
  /-- a thread drops a reference it has -/
  | drop
  /-- `vortex_hash_remove`: the table drops its reference after the removal -/
  | remove
  /-- a release under way is completed -/
  | free
  deriving DecidableEq, Repr

def RefTable.init : RefTable := ⟨.init, true, 0, 0⟩

def RefTable.step (s : RefTable) : RefTableOp → RefTable
  | .getAndRef => if s.inTable then { s with obj := (s.obj.step .ref).1, held := s.held + 1 } else s
  | .lookup => if s.inTable then { s with borrowed := s.borrowed + 1 } else s
  | .refBorrowed =>
    if 0 < s.borrowed then { s with obj := (s.obj.step .ref).1, held := s.held + 1, borrowed := s.borrowed - 1 } else s
  | .drop => if 0 < s.held then { s with obj := (s.obj.step .unref).1, held := s.held - 1 } else s
  | .remove => if s.inTable then { s with obj := (s.obj.step .unref).1, inTable := false } else s
  | .free => { s with obj := (s.obj.step .free).1 }

def RefTable.run (s : RefTable) : List RefTableOp → RefTable
  | [] => s
  | op :: ops => (s.step op).run ops

/-! ## Frames -/

/-- Where a thread is in `vortex_frame_ref` or `vortex_frame_unref`. -/
inductive FrameRefAt
  | idle
  /-- the counter was read -/
  | loaded (isRef : Bool) (value : Int)
  /-- the decremented counter was written, to be tested -/
  | stored
  deriving DecidableEq, Repr

structure FrameRefs where
  count : Int
  frees : Nat
  bad : Bool
  threads : Nat → FrameRefAt

def FrameRefs.init : FrameRefs := ⟨1, 0, false, fun _ => .idle⟩

inductive FrameRefOp
  | load (t : Nat) (isRef : Bool)
  | store (t : Nat)
  | test (t : Nat)
  deriving DecidableEq, Repr

/-- `vortex_frame_ref`, `vortex_frame_unref`, src/vortex_frame_factory.c:2090-2124: no mutex, so the increment and
the decrement are a read and a write, and the test another read. -/
def FrameRefs.step (s : FrameRefs) : FrameRefOp → FrameRefs
  | .load t isRef =>
    match s.threads t with
    | .idle => { s with threads := putAt s.threads t (.loaded isRef s.count), bad := s.bad || 0 < s.frees }
    | _ => s
  | .store t =>
    match s.threads t with
    | .loaded true v => { s with count := i32 (v + 1), threads := putAt s.threads t .idle, bad := s.bad || 0 < s.frees }
    | .loaded false v => { s with count := i32 (v - 1), threads := putAt s.threads t .stored, bad := s.bad || 0 < s.frees }
    | _ => s
  | .test t =>
    match s.threads t with
    | .stored =>
      { s with threads := putAt s.threads t .idle, bad := s.bad || 0 < s.frees,
               frees := if s.count = 0 then s.frees + 1 else s.frees }
    | _ => s

def FrameRefs.run (s : FrameRefs) : List FrameRefOp → FrameRefs
  | [] => s
  | op :: ops => (s.step op).run ops

/-- The steps of a call. -/
def frameCall (t : Nat) (isRef : Bool) : List FrameRefOp := [.load t isRef, .store t, .test t]

end Verif.Model
