/-!
Several calls of `vortex_channel_close` for one channel, src/vortex_channel.c:5943-6074 with the outcomes of `__vortex_channel_close`,
:5672-5924, and `vortex_connection_close_all_channels`, src/vortex_connection.c:500-628.

The negotiation itself is in Model/Handshake.lean; here it is one step that ends with the answer of the peer. A close request of the peer is no
action of its own: while a thread negotiates it counts as agreement, and for a channel with `being_closed` set it is answered without
removing the channel (:7481-7531); the peer does not ask before the first call. Not modelled: calls from inside
the close handler (:5962-5966, they return axl_true at once), failures of allocation, a channel created later with the number of the one
closed (the loop :5993 looks for the number).
-/
namespace Verif.Model

inductive CloseAgainPc
  | out
  /-- the thread set `being_closed` and negotiates, :6029-6073 -/
  | asking
  /-- the thread found `being_closed`, :5968-6000 -/
  | waiting
  | returned (result : Bool)
  deriving DecidableEq, Repr

structure CloseAgain where
  /-- the channel is in the table of its connection -/
  present : Bool
  /-- `being_closed` -/
  being : Bool
  /-- the connection works -/
  ok : Bool
  /-- close requests sent -/
  requests : Nat
  pc : Nat → CloseAgainPc

def CloseAgain.init : CloseAgain := ⟨true, false, true, 0, fun _ => .out⟩

def CloseAgain.set (s : CloseAgain) (i : Nat) (p : CloseAgainPc) : CloseAgain :=
  { s with pc := fun k => if k = i then p else s.pc k }

inductive CloseAgainAct
  | call (i : Nat)
  /-- the peer agrees: the channel is removed, :5864-5867, 5903-5914 -/
  | agree (i : Nat)
  /-- the peer does not agree, :5852-5863: the channel stays, and `being_closed` with it -/
  | refuse (i : Nat)
  /-- the thread that negotiates finds the connection down: the channel is removed, :5832-5846 -/
  | broken (i : Nat)
  /-- a thread that waits looks again, :5993-6002 -/
  | look (i : Nat)
  | fail
  deriving DecidableEq, Repr

def CloseAgain.step (s : CloseAgain) : CloseAgainAct → CloseAgain
  | .call i =>
    if s.pc i = .asking ∨ s.pc i = .waiting then s
    else if s.being then s.set i .waiting
    else { s.set i .asking with being := true, requests := s.requests + 1 }
  | .agree i => if s.pc i = .asking then { s.set i (.returned true) with present := false } else s
  | .refuse i => if s.pc i = .asking then s.set i (.returned false) else s
  | .broken i => if s.pc i = .asking ∧ s.ok = false then { s.set i (.returned true) with present := false } else s
  | .look i => if s.pc i = .waiting ∧ (s.ok && s.present) = false then s.set i (.returned true) else s
  | .fail => { s with ok := false }

def CloseAgain.run (s : CloseAgain) (acts : List CloseAgainAct) : CloseAgain := acts.foldl CloseAgain.step s

/-! ## All channels of a connection -/

/-- A channel as `vortex_connection_close_all_channels` meets it: whether `being_closed` is left from an earlier call, and whether the peer
agrees to close it. The connection works. -/
structure ToClose where
  num : Nat
  being : Bool
  agrees : Bool
  deriving DecidableEq, Repr

/-- `vortex_channel_close` of one channel with nobody else closing it: `none`, it does not return; otherwise what is left of the channel. -/
def ToClose.close (c : ToClose) : Option (Option ToClose) :=
  if c.being then none
  else if c.agrees then some none
  else some (some { c with being := true })

/-- The channels in the list, closed one after the other by `__close_channel_aux`, :515-536, when the list is released. -/
def closeEach : List ToClose → Option (List ToClose)
  | [] => some []
  | c :: cs =>
    match c.close with
    | none => none
    | some r =>
      match closeEach cs with
      | none => none
      | some rs => some (r.toList ++ rs)

/-- Channel 0, :610-622. -/
def closeZero (also : Bool) (zero : Option ToClose) : Option (Bool × Option ToClose) :=
  match also, zero with
  | true, some z =>
    match z.close with
    | none => none
    | some r => some (r.isNone, r)
  | _, _ => some (true, zero)

/-- `vortex_connection_close_all_channels`, :557-628: the result, channel 0 and the other channels afterwards; `none`: it does not return. -/
def closeAllChannels (also : Bool) (zero : Option ToClose) (others : List ToClose) : Option (Bool × Option ToClose × List ToClose) :=
  if zero.toList.length + others.length = 0 then some (true, zero, others)
  else if zero.toList.length + others.length = 1 then (closeZero also zero).map fun r => (r.1, r.2, others)
  else
    match closeEach others with
    | none => none
    | some left =>
      if zero.toList.length + left.length > 1 then some (false, zero, left)
      else (closeZero also zero).map fun r => (r.1, r.2, left)

end Verif.Model
