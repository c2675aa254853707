/-!
# Serialized delivery (src/vortex_channel.c)

Frames handed to the frame-received handler of a channel by the threads of the pool, with
`vortex_channel_set_serialize`. The connection is up during the whole history.
-/
namespace Verif.Model

/-- A received frame: order of arrival, its sequence number, its content size
(`vortex_frame_get_seqno`, `vortex_frame_get_content_size`). -/
structure SFrame where
  id : Nat
  seqno : Nat
  size : Nat
  deriving DecidableEq, Repr

structure Ser where
  /-- `channel->serialize_next_seqno` -/
  next : Nat
  /-- `channel->serialize_hash`; the key is the sequence number -/
  hash : List SFrame
  /-- tasks of `__vortex_channel_invoke_received_handler` that have not entered
  `vortex_channel_check_serialize` yet, queued or picked up by a thread -/
  waiting : List SFrame
  /-- threads past the check; `true`: the handler has been called -/
  calling : List (SFrame × Bool)
  /-- frames given to the pool so far, and the sequence number of the next frame of the channel -/
  arrived : Nat
  seqno : Nat
  deriving DecidableEq, Repr

/-- `vortex_channel_set_serialize` (src/vortex_channel.c:4773-4799) called before any frame is received:
`last` is `channel->last_seq_no_expected`. -/
def Ser.init (last : Nat) : Ser := ⟨last, [], [], [], 0, last⟩

inductive SerEvent
  /-- the handler is called with frame `id` -/
  | begins (id : Nat)
  /-- it returns -/
  | ends (id : Nat)
  deriving DecidableEq, Repr

inductive SerOp
  /-- the next frame, of the given size, goes to the pool: src/vortex_channel.c:6623-6657 -/
  | arrive (size : Nat)
  /-- the next frame is a reply a thread waits for: src/vortex_channel.c:6576-6612 -/
  | consumed (size : Nat)
  /-- the thread of waiting task `i` runs `vortex_channel_check_serialize`, :6325-6366 -/
  | check (i : Nat)
  /-- thread `i` calls the handler, :6459-6460 -/
  | call (i : Nat)
  /-- the handler called by thread `i` returns and the thread runs
  `vortex_channel_check_serialize_pending`, :6267-6312 -/
  | finish (i : Nat)
  deriving DecidableEq, Repr

/-- `axl_hash_insert_full` (libaxl): the entry of an equal key is destroyed. -/
def Ser.insert (h : List SFrame) (f : SFrame) : List SFrame := f :: h.filter (fun g => g.seqno != f.seqno)

def Ser.step (s : Ser) : SerOp → List SerEvent × Ser
  | .arrive size =>
    ([], { s with waiting := s.waiting ++ [⟨s.arrived, s.seqno, size⟩], arrived := s.arrived + 1,
                  seqno := (s.seqno + size) % 4294967296 })
  | .consumed size => ([], { s with seqno := (s.seqno + size) % 4294967296 })
  | .check i =>
    match s.waiting[i]? with
    | none => ([], s)
    | some f =>
      if f.seqno = s.next then
        ([], { s with waiting := s.waiting.eraseIdx i, calling := s.calling ++ [(f, false)] })
      else ([], { s with waiting := s.waiting.eraseIdx i, hash := Ser.insert s.hash f })
  | .call i =>
    match s.calling[i]? with
    | some (f, false) => ([.begins f.id], { s with calling := s.calling.set i (f, true) })
    | _ => ([], s)
  | .finish i =>
    match s.calling[i]? with
    | some (f, true) =>
      let next := (f.seqno + f.size) % 4294967296
      match s.hash.find? (fun g => g.seqno == next) with
      | some g =>
        ([.ends f.id], { s with next := next, hash := s.hash.filter (fun g => g.seqno != next),
                                calling := s.calling.set i (g, false) })
      | none => ([.ends f.id], { s with next := next, calling := s.calling.eraseIdx i })
    | _ => ([], s)

def Ser.run (s : Ser) : List SerOp → List SerEvent × Ser
  | [] => ([], s)
  | op :: ops => ((s.step op).1 ++ ((s.step op).2.run ops).1, ((s.step op).2.run ops).2)

end Verif.Model
