/-!
Delivering a frame to a received handler, src/vortex_profiles.c:896-1118 (first level) and src/vortex_channel.c:6271-6660 (second level):
the references to the connection, the channel and the profile, and the frame itself.

Every frame handed over by the reader becomes a task of the thread pool; tasks run side by side. Steps are atomic between the calls of
handlers: what happens in `enter` is a test of flags, one section under the serialize mutex, or the release of references (each atomic).
Not modelled: allocation failures, a connection that refuses a reference, replies taken by a thread that waits (C20).
-/
namespace Verif.Model

/-- The kind of handler that takes a frame. -/
inductive DelivLevel
  | first
  | second
  deriving DecidableEq, Repr

/-- What is used of a frame: sequence number, content size, and which one it is. -/
structure DelivFrm where
  seqno : Nat
  size : Nat
  id : Nat
  deriving DecidableEq, Repr

/-- A task of the pool: `VortexProfileReceivedData`, src/vortex_profiles.c:888-893, or `ReceivedInvokeData`, src/vortex_channel.c:6250-6254. -/
structure DelivTask where
  level : DelivLevel
  frm : DelivFrm
  deriving DecidableEq, Repr

structure Deliv where
  /-- `vortex_connection_is_ok` -/
  connOk : Bool
  /-- the channel is found in the connection -/
  chanOpen : Bool
  /-- the profile has a received handler -/
  handler : Bool
  /-- `channel->serialize` -/
  serialize : Bool
  /-- `channel->serialize_next_seqno` -/
  nextSeq : Nat
  /-- `channel->serialize_hash`, by sequence number -/
  stored : List DelivFrm
  /-- tasks not begun -/
  waiting : List DelivTask
  /-- tasks in the handler -/
  running : List DelivTask
  /-- references to the connection, the channel and the profile taken for deliveries -/
  connRefs : Nat
  chanRefs : Nat
  profRefs : Nat
  /-- the history: frames taken over from the reader, frames passed to handlers, frames released -/
  accepted : List DelivFrm
  called : List DelivFrm
  released : List DelivFrm

def Deliv.init (serialize : Bool) : Deliv := ⟨true, true, true, serialize, 0, [], [], [], 0, 0, 0, [], [], []⟩

inductive DelivAct
  /-- the reader hands a frame to a handler of this level -/
  | arrive (level : DelivLevel) (f : DelivFrm)
  /-- the thread of waiting task `i` begins -/
  | enter (i : Nat)
  /-- the handler of running task `i` returns -/
  | back (i : Nat)
  /-- the received handler of the profile is set or cleared, src/vortex_profiles.c:396-445 -/
  | handler (b : Bool)
  /-- the connection fails or is shut down -/
  | connDown
  /-- the channel is closed and removed from the connection -/
  | chanClosed
  deriving DecidableEq, Repr

/-- The references that a task has to the profile. -/
def DelivLevel.prof : DelivLevel → Nat
  | .first => 1
  | .second => 0

/-- `free_resources` of both functions with the channel known: src/vortex_profiles.c:984-1003 and src/vortex_channel.c:6518-6533. -/
def Deliv.finish (s : Deliv) (l : DelivLevel) : Deliv :=
  { s with connRefs := s.connRefs - 1, chanRefs := s.chanRefs - 1, profRefs := s.profRefs - l.prof }

/-- `free_resources` of the first level before the channel was looked up: `channel` is `NULL` and its reference is not released,
src/vortex_profiles.c:905, 993. -/
def Deliv.finishNoChannel (s : Deliv) (l : DelivLevel) : Deliv :=
  { s with connRefs := s.connRefs - 1, profRefs := s.profRefs - l.prof }

/-- A step. -/
def Deliv.step (s : Deliv) : DelivAct → Deliv
  | .arrive l f =>
    -- vortex_profiles_invoke_frame_received, src/vortex_profiles.c:1038-1117; vortex_channel_invoke_received_handler, src/vortex_channel.c:6618-6660
    if (s.handler && s.chanOpen) || l == .second then
      { s with connRefs := s.connRefs + 1, chanRefs := s.chanRefs + 1, profRefs := s.profRefs + l.prof,
               waiting := s.waiting ++ [⟨l, f⟩], accepted := f :: s.accepted }
    else s
  | .enter i =>
    match s.waiting[i]? with
    | none => s
    | some t =>
      let s := { s with waiting := s.waiting.eraseIdx i }
      match t.level, s.connOk, s.chanOpen, s.handler with
      -- __vortex_profiles_invoke_frame_received, src/vortex_profiles.c:911-949: no handler, connection down, channel gone
      | .first, _, _, false => { s.finishNoChannel .first with released := t.frm :: s.released }
      | .first, false, _, true => { s.finishNoChannel .first with released := t.frm :: s.released }
      | .first, true, false, true => { s.finishNoChannel .first with released := t.frm :: s.released }
      -- __vortex_channel_invoke_received_handler, src/vortex_channel.c:6438-6442
      | .second, false, _, _ => { s.finish .second with released := t.frm :: s.released }
      | _, _, _, _ =>
        -- vortex_channel_check_serialize, src/vortex_channel.c:6325-6366
        if s.serialize && t.frm.seqno != s.nextSeq then
          { s with stored := t.frm :: s.stored.filter (fun g => g.seqno != t.frm.seqno),
                   released := s.stored.filter (fun g => g.seqno == t.frm.seqno) ++ s.released,
                   profRefs := s.profRefs - t.level.prof }
        else { s with running := t :: s.running, called := t.frm :: s.called }
  | .back i =>
    match s.running[i]? with
    | none => s
    | some t =>
      let s := { s with running := s.running.eraseIdx i, released := t.frm :: s.released }
      if s.serialize then
        -- vortex_channel_check_serialize_pending, src/vortex_channel.c:6266-6313
        let next := (t.frm.seqno + t.frm.size) % 4294967296
        match s.stored.find? (fun g => g.seqno == next) with
        | none => { s with nextSeq := next }.finish t.level
        | some g =>
          { s with nextSeq := next, stored := s.stored.filter (fun g => g.seqno != next), connRefs := s.connRefs - 1,
                   chanRefs := s.chanRefs - 1, running := ⟨t.level, g⟩ :: s.running, called := g :: s.called }
      else s.finish t.level
  | .handler b => { s with handler := b }
  | .connDown => { s with connOk := false }
  | .chanClosed => { s with chanOpen := false }

def Deliv.run (s : Deliv) (acts : List DelivAct) : Deliv := acts.foldl Deliv.step s

end Verif.Model
