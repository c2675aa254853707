import Verif.Proof.Segments
/-!
# C07, C08 — what a channel puts on the wire
-/
namespace Verif.Props
open Verif.Model Verif.Spec Verif.Proof

/-- **C07**: whatever messages are queued, whenever the sequencer runs and whatever SEQ frames the
peer sends (any 32 bit values), the number of octets put on the wire never exceeds the limit granted
so far, counted without wrapping (so the claim covers the 2^32 wrap). As it holds for every
history it holds at every moment of a history. -/
theorem C07_sender_within_window (ops : List SendOp) :
    totalSize (SendChan.init.run ops).2 ≤ grantedLimit 4096 ops := by
  have := run_total ops SendChan.init 0 4096 SendInv.init
  simpa using this.2

/-- **C07 (sequence numbers)**: the octets counted by `C07_sender_within_window` are the ones the
sequence numbers denote: every frame starts where the previous one ended. Part of
`C08_segmentation`, restated here for the frames of all messages together. -/
theorem C07_sequence_numbers (ops : List SendOp) :
    Contiguous 0 (SendChan.init.run ops).2 := by
  obtain ⟨left, h, _⟩ := run_sent ops SendChan.init 0 4096 SendInv.init (by simp [SendChan.init])
  have append : ∀ (fs gs : List Frame) (s : Nat), Contiguous s fs →
      Contiguous (s + (fs.map (·.payload)).flatten.length) gs → Contiguous s (fs ++ gs) := by
    intro fs
    induction fs with
    | nil => intro gs s _ h; simpa using h
    | cons f fs ih =>
      intro gs s h1 h2
      refine ⟨h1.1, ih gs _ h1.2 ?_⟩
      simp only [List.map_cons, List.flatten_cons, List.length_append] at h2
      rw [Nat.add_assoc]; exact h2
  have all : ∀ s ms fs l, Sent s ms fs l → Contiguous s fs := by
    intro s ms fs l h
    induction h with
    | nothing => trivial
    | begun _ h => exact h.contiguous
    | whole hw hr ih =>
      apply append _ _ _ hw.contiguous
      rw [hw.content]; exact ih
  exact all _ _ _ _ h

/-- A history used in the examples: two messages, a window update in between. -/
def sampleOps : List SendOp :=
  [.queue ⟨.msg, 1, 0, 0, false, List.replicate 5000 65⟩, .round, .round, .seq 4096 4096,
   .queue ⟨.nul, 1, 1, 0, false, []⟩, .round, .round]

-- after 4096 octets the channel stalls; the window update lets it go on
example : (SendChan.init.run sampleOps).2.map (fun f => (f.seqno, f.size, f.more))
    = [(0, 4096, true), (4096, 904, false), (5000, 0, false)] := by decide +kernel
example : totalSize (SendChan.init.run (sampleOps.take 3)).2 = 4096 ∧
    grantedLimit 4096 (sampleOps.take 3) = 4096 ∧ grantedLimit 4096 sampleOps = 8192 := by
  decide +kernel

/-- **C08**: for every history of queued messages, sequencer rounds and window updates, the frames
written are a correct transmission of the queued messages in order: each message's frames
concatenate to its content, are contiguous, of 1 to 4096 octets (an empty NUL being one empty frame),
with the continuation flag on all but the last; the last message may be only begun. What is left
is what is still in the queue. -/
theorem C08_segmentation (ops : List SendOp) :
    ∃ left, Sent 0 (queued ops) (SendChan.init.run ops).2 left ∧
      ∀ c, (SendChan.init.run ops).1 = some c → left.length = c.pending.length := by
  have := run_sent ops SendChan.init 0 4096 SendInv.init (by simp [SendChan.init])
  simpa [SendChan.init] using this

-- a history that completes: nothing is left
example : (SendChan.init.run sampleOps).1.map (·.pending) = some [] := by decide +kernel

/-- **C08 (violation)**: an empty message other than NUL is never transmitted: the sequencer closes the
connection when it gets to it. -/
theorem C08_empty_message_closes (m : OutMsg) (ht : m.type ≠ .nul) (he : m.message = []) :
    (SendChan.init.run [.queue m, .round]) = (none, []) := by
  have : sendRound SendWin.init ⟨m, 0, 0⟩ = .shutdown := by
    unfold sendRound
    simp only [ht, and_false, if_false]
    rw [if_pos]
    unfold SendWin.nextFrameSize
    simp only
    omega
  simp [SendChan.run, SendChan.step, SendChan.queue, SendChan.round, SendChan.init, he]
  have h2 : SendWin.init.stalled = false := by decide
  simp [h2, SendChan.emit, this]

end Verif.Props
