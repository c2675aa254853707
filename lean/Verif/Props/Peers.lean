import Verif.Proof.Peers
import Verif.Props.Recv
import Verif.Props.Frame
/-!
# C11 — flow control between two peers
-/
namespace Verif.Props
open Verif.Model Verif.Spec Verif.Proof

/-- **C11 (full statement, violated)**: no history of messages with content, sequencer rounds,
deliveries and window settings makes an endpoint close the connection, and whenever nothing is in
flight and a message is pending the sender's next round emits a frame. -/
def C11_statement : Prop :=
  ∀ (ch : Nat) (ops : List PeersOp), ch < 2147483648 → Messages ops →
    (∀ n, PeersOp.setWindow n ∈ ops → 0 < n ∧ n < 2147483648) →
    ∃ p, Peers.init.run ch ops = some p ∧
      (p.data = [] → p.seqs = [] → p.snd.pending ≠ [] → (p.emits .round).isSome = true)

/-- **C11 (partial)**: the statement holds for every history, of any length and across any number of
2^32 wraps, in which the application only enlarges its window and does so before the wrap gets
close (`GrowEarly`; in particular in every history that does not configure windows), and no SEQ
frame has one of the two acknos of C03 (`AcksParse`). -/
theorem C11_no_deadlock_partial (ch : Nat) (hch : ch < 2147483648) (ops : List PeersOp)
    (hm : Messages ops) (hg : GrowEarly 0 4096 ops) (ha : AcksParse ch Peers.init ops) :
    ∃ p, Peers.init.run ch ops = some p ∧
      (p.data = [] → p.seqs = [] → p.snd.pending ≠ [] → (p.emits .round).isSome = true) := by
  obtain ⟨p, e, S, E, C, c0, t, l, h⟩ := peers_run ch hch ops Peers.init 0 0 0 0 0 4096
    (PeersInv.init ch) hm hg ha
  refine ⟨p, e, ?_⟩
  intro hd hs hp
  obtain ⟨q, ps, hq⟩ := List.exists_cons_of_ne_nil hp
  have hst : p.snd.win.stalled = false := by
    have h1 := h.data
    have h2 := h.seqs
    rw [hd] at h1
    rw [hs] at h2
    have h1 : E = S := h1
    obtain ⟨h2a, h2b⟩ := h2
    have h3 := h.half
    have h4 := h.snd.seq
    have h5 := h.rc
    have h6 := h.rcv.ce
    have h7 := h.rcv.wlt
    have h8 := h.rcv.wpos
    have h9 := u32_cast ((p.snd.win.remoteConsumed : Int) + p.snd.win.remoteWindow)
    unfold SendWin.stalled
    rw [beq_eq_false_iff_ne]
    omega
  obtain ⟨f, c, w, q', hr⟩ := sendRound_ok h hst q ps hq
  simp [Peers.emits, SendChan.round, SendChan.emit, hst, hq, hr]

/-- A message of `n` octets. -/
def blob (n : Nat) : OutMsg := ⟨.msg, 1, 0, 0, false, List.replicate n 65⟩

theorem aux_blob_ne (n : Nat) (h : 0 < n) : (blob n).message ≠ [] := by
  intro he
  have := congrArg List.length he
  simp only [blob, List.length_replicate, List.length_nil] at this
  omega

theorem aux_blob_length (n : Nat) : (blob n).message.length = n := by simp [blob]

-- a history that meets the hypotheses, with a stall, window growth and progress
example : let ops : List PeersOp := [.queue (blob 9000), .setWindow 8192, .round, .round, .deliverData,
      .round, .deliverSeq, .round]
    Messages ops ∧ GrowEarly 0 4096 ops ∧
    (Peers.init.run 1 ops).map (fun p => (p.snd.win.lastSeq, p.data.map (·.size), p.rcv.windowSize))
      = some (8192, [4096], 8192) := by
  refine ⟨?_, ?_, ?_⟩
  · intro m hm
    simp only [List.mem_cons, PeersOp.queue.injEq, List.not_mem_nil, reduceCtorEq, or_false] at hm
    subst hm
    exact Or.inr (aux_blob_ne _ (by omega))
  · simp only [GrowEarly, aux_blob_length]
    refine ⟨by omega, by omega, by omega, trivial⟩
  · decide +kernel

/-- **C11 (violation, shrinking window)**: the receiver halves its window; when half of the old window
has been consumed it sends a SEQ that restates the same limit, and the sender closes the
connection. -/
theorem C11_equal_limit_closes :
    Peers.init.run 1 [.setWindow 2048, .queue (blob 2048), .round, .deliverData] ≠ none ∧
    Peers.init.run 1 [.setWindow 2048, .queue (blob 2048), .round, .deliverData, .deliverSeq] = none := by
  constructor <;> decide +kernel

theorem C11_statement_false : ¬ C11_statement := by
  intro h
  obtain ⟨p, hp, _⟩ := h 1 [.setWindow 2048, .queue (blob 2048), .round, .deliverData, .deliverSeq]
    (by decide)
    (by
      intro m hm
      simp only [List.mem_cons, PeersOp.queue.injEq, List.not_mem_nil, reduceCtorEq, or_false,
        false_or] at hm
      subst hm
      exact Or.inr (aux_blob_ne _ (by omega)))
    (by intro n hn; simp at hn; omega)
  rw [show ((1 : Nat) : Int) = 1 from rfl, C11_equal_limit_closes.2] at hp
  simp at hp

/-- One cycle of a bulk transfer: a message of 2048 octets is sent, received and acknowledged. -/
def cycle : List PeersOp := [.queue (blob 2048), .round, .deliverData, .deliverSeq]

/-- `k` cycles. -/
def cycles : Nat → List PeersOp
  | 0 => []
  | k + 1 => cycle ++ cycles k

/-- Both peers after `p` octets have been sent, received and acknowledged. -/
def settled (p : Nat) : Peers := ⟨⟨⟨p, p, 4096, 4096⟩, []⟩, ⟨p, 4096, p, 4096, 4096⟩, [], []⟩

/-- The frame carrying a whole `blob n`. -/
def blobFrame (p n : Nat) : Frame := ⟨.msg, 1, 0, false, p, n, 0, List.replicate n 65⟩

theorem aux_round (p n : Nat) (hp : p + 4096 ≤ 4294967296) (hpn : p + n < 4294967296) (h0 : 0 < n) (hn : n ≤ 4096) :
    (SendChan.mk ⟨p, p, 4096, 4096⟩ [⟨blob n, 0, n⟩]).round =
      some (⟨⟨p + n, p, 4096, 4096⟩, []⟩, some (blobFrame p n)) := by
  have hst : (SendWin.mk p p 4096 4096).stalled = false := by
    unfold SendWin.stalled
    rw [beq_eq_false_iff_ne]
    have := u32_cast ((p : Int) + 4096)
    show p ≠ u32 ((p : Int) + 4096)
    omega
  have hmax : (SendWin.mk p p 4096 4096).maxSeqNo = p + 4095 := by
    unfold SendWin.maxSeqNo
    show u32 ((p : Int) + 4096 - 1) = _
    rw [u32_nonneg _ (by omega) (by omega)]; omega
  have hnf : (SendWin.mk p p 4096 4096).nextFrameSize p n (p + 4095) = n := by
    unfold SendWin.nextFrameSize
    simp only
    rw [if_pos (by omega)]
    have e1 : u32 (((p + 4095 : Nat) : Int) - p + 1) = 4096 := by
      rw [u32_nonneg _ (by omega) (by omega)]; omega
    have e2 : i32 ((4096 : Nat) : Int) = 4096 := by decide
    rw [e1, e2]
    omega
  have hadv : (SendWin.mk p p 4096 4096).advance n = ⟨p + n, p, 4096, 4096⟩ := by
    unfold SendWin.advance
    have : u32 ((p : Int) + (u32 (n : Int) : Nat)) = p + n := by
      rw [u32_nonneg (n : Int) (by omega) (by omega), u32_nonneg _ (by omega) (by omega)]
      omega
    simp only [this]
  have hsr : sendRound ⟨p, p, 4096, 4096⟩ ⟨blob n, 0, n⟩ =
      .sent (blobFrame p n) true ⟨p + n, p, 4096, 4096⟩ ⟨blob n, 0, n⟩ := by
    have hty : (blob n).type = .msg := rfl
    unfold sendRound
    simp only [hmax, hnf, hty, hadv]
    rw [if_neg (by omega), if_neg (by omega)]
    simp only [decide_true, if_true, Bool.not_true, Bool.false_or, List.drop_zero, Int.toNat_natCast,
      blobFrame]
    simp [blob]
  unfold SendChan.round SendChan.emit
  simp only [hst, hsr, if_true]
  rfl

theorem aux_grant (p n : Nat) (_ : p + n < 4294967296) (h0 : 0 < n) (hn : n ≤ 4096) :
    (SendWin.mk (p + n) p 4096 4096).grant (p + n) (u32 4096) = some ⟨p + n, p + n, 4096, 4096⟩ := by
  unfold SendWin.grant
  simp only
  have e0 : u32 4096 = 4096 := by decide
  have e1 : u32 (((p + n : Nat) : Int) - p) = n := by
    rw [u32_nonneg _ (by omega) (by omega)]; omega
  have e2 : u32 ((4096 : Int) - (n : Nat)) = 4096 - n := by
    rw [u32_nonneg _ (by omega) (by omega)]; omega
  have e3 : i32 ((4096 - n : Nat) : Int) = 4096 - (n : Int) := by
    rw [i32_small _ (by omega) (by omega)]; omega
  have e5 : i32 ((4096 : Nat) : Int) = 4096 := by decide
  have c1 : p ≤ p + n := by omega
  have c2 : (4096 : Int) - n ≥ 0 ∧ 4096 > 4096 - n := by omega
  simp only [if_pos c1, e0, e1, e2, e3, e5, if_pos c2]

theorem aux_cycle (p : Nat) (hp : p + 4096 < 4294967294) (rest : List PeersOp) :
    (settled p).run 1 (cycle ++ rest) = (settled (p + 2048)).run 1 rest := by
  have h1 : (settled p).step 1 (.queue (blob 2048)) =
      some ⟨⟨⟨p, p, 4096, 4096⟩, [⟨blob 2048, 0, 2048⟩]⟩, ⟨p, 4096, p, 4096, 4096⟩, [], []⟩ := by
    simp only [Peers.step, settled, SendChan.queue, List.nil_append]
    rw [aux_blob_length]; rfl
  have h2 : (Peers.mk ⟨⟨p, p, 4096, 4096⟩, [⟨blob 2048, 0, 2048⟩]⟩ ⟨p, 4096, p, 4096, 4096⟩ [] []).step 1
      .round = some ⟨⟨⟨p + 2048, p, 4096, 4096⟩, []⟩, ⟨p, 4096, p, 4096, 4096⟩,
        [blobFrame p 2048], []⟩ := by
    have := aux_round p 2048 (by omega) (by omega) (by omega) (by omega)
    have e : ((2048 : Nat) : Int) = 2048 := rfl
    rw [e] at this
    simp only [Peers.step, this, Option.toList, List.nil_append]
  obtain ⟨line, hb, hps⟩ := parseSeq_built 1 (by omega) (p + 2048) (by omega) 4096 (by omega) (by omega)
  have h3 : (Peers.mk ⟨⟨p + 2048, p, 4096, 4096⟩, []⟩ ⟨p, 4096, p, 4096, 4096⟩
        [blobFrame p 2048] []).step 1 .deliverData =
      some ⟨⟨⟨p + 2048, p, 4096, 4096⟩, []⟩, ⟨p + 2048, 4096, p + 2048, 4096, 4096⟩, [], [line]⟩ := by
    have hr := aux_default_receive p (by omega)
    have e1 : (blobFrame p 2048).seqno = p := rfl
    have e2 : (blobFrame p 2048).size = 2048 := rfl
    have e3 : ((1 : Nat) : Int) = 1 := rfl
    rw [e3] at hb
    simp only [Peers.step, e1, e2, hr, hb, List.nil_append]
  have h4 : (Peers.mk ⟨⟨p + 2048, p, 4096, 4096⟩, []⟩ ⟨p + 2048, 4096, p + 2048, 4096, 4096⟩ []
        [line]).step 1 .deliverSeq = some (settled (p + 2048)) := by
    have hg := aux_grant p 2048 (by omega) (by omega) (by omega)
    simp only [Peers.step, hps, hg, settled]
  unfold cycle
  simp only [List.cons_append, List.nil_append, Peers.run, h1, h2, h3, h4]

theorem aux_lt {p q : Nat} (h : p + (q + 2048) + 2048 < 4294967294) : p + 4096 < 4294967294 := by
  have h1 : p + 4096 ≤ p + (q + 2048) + 2048 := by omega
  exact Nat.lt_of_le_of_lt h1 h

theorem aux_cycles (k : Nat) : ∀ (p : Nat) (_ : p + pos2048 k + 2048 < 4294967294) (rest : List PeersOp),
    (settled p).run 1 (cycles k ++ rest) = (settled (p + pos2048 k)).run 1 rest := by
  induction k with
  | zero => intro p _ rest; rfl
  | succ k ih =>
    intro p hp rest
    have hp' : p + (pos2048 k + 2048) + 2048 < 4294967294 := hp
    clear hp
    simp only [cycles, List.append_assoc]
    have a1 : p + 4096 < 4294967294 := aux_lt hp'
    have a2 : p + 2048 + pos2048 k + 2048 < 4294967294 := by
      clear ih; generalize pos2048 k = q at hp' ⊢; omega
    rw [aux_cycle p a1, ih (p + 2048) a2]
    have : p + 2048 + pos2048 k = p + pos2048 (k + 1) := by
      show _ = p + (pos2048 k + 2048)
      omega
    rw [this]

/-- **C11 (violation, unlucky ackno)**: with default windows and no configuration at all, after
4294967294 octets an acknowledgement closes the connection (see C03). -/
theorem C11_unlucky_ackno_closes :
    Peers.init.run 1 (cycles 2097150 ++ [.queue (blob 4094), .round, .deliverData]) ≠ none ∧
    Peers.init.run 1 (cycles 2097150 ++ [.queue (blob 4094), .round, .deliverData, .deliverSeq]) = none := by
  have e0 : Peers.init = settled 0 := rfl
  have hp : pos2048 2097150 = 4294963200 := aux_pos2048 2097150
  have hc : ∀ rest, Peers.init.run 1 (cycles 2097150 ++ rest) = (settled 4294963200).run 1 rest := by
    intro rest
    have hb : 0 + pos2048 2097150 + 2048 < 4294967294 := by rw [hp]; omega
    have := aux_cycles 2097150 0 hb rest
    rw [hp, Nat.zero_add] at this
    rw [e0, this]
  rw [hc, hc]
  obtain ⟨⟨line, hb, hw⟩, _⟩ := C03_seq_round_trip_fails 1 4096 (by omega) (by omega)
  have hps : parseSeq line = none := by unfold parseSeq; rw [hw]
  have h1 : (settled 4294963200).step 1 (.queue (blob 4094)) =
      some ⟨⟨⟨4294963200, 4294963200, 4096, 4096⟩, [⟨blob 4094, 0, 4094⟩]⟩,
        ⟨4294963200, 4096, 4294963200, 4096, 4096⟩, [], []⟩ := by
    simp only [Peers.step, settled, SendChan.queue, List.nil_append]
    rw [aux_blob_length]; rfl
  have h2 : (Peers.mk ⟨⟨4294963200, 4294963200, 4096, 4096⟩, [⟨blob 4094, 0, 4094⟩]⟩
        ⟨4294963200, 4096, 4294963200, 4096, 4096⟩ [] []).step 1 .round =
      some ⟨⟨⟨4294967294, 4294963200, 4096, 4096⟩, []⟩, ⟨4294963200, 4096, 4294963200, 4096, 4096⟩,
        [blobFrame 4294963200 4094], []⟩ := by
    have := aux_round 4294963200 4094 (by omega) (by omega) (by omega) (by omega)
    have e : ((4094 : Nat) : Int) = 4094 := rfl
    rw [e] at this
    simp only [Peers.step, this, Option.toList, List.nil_append]
  have h3 : (Peers.mk ⟨⟨4294967294, 4294963200, 4096, 4096⟩, []⟩
        ⟨4294963200, 4096, 4294963200, 4096, 4096⟩ [blobFrame 4294963200 4094] []).step 1 .deliverData =
      some ⟨⟨⟨4294967294, 4294963200, 4096, 4096⟩, []⟩,
        ⟨4294967294, 4096, 4294967294, 4096, 4096⟩, [], [line]⟩ := by
    have hr : (RecvWin.mk 4294963200 4096 4294963200 4096 4096).receive 4294963200 4094 =
        some (⟨4294967294, 4096, 4294967294, 4096, 4096⟩, some (4294967294, 4096)) := by
      decide +kernel
    have e1 : (blobFrame 4294963200 4094).seqno = 4294963200 := rfl
    have e2 : (blobFrame 4294963200 4094).size = 4094 := rfl
    have e3 : ((1 : Nat) : Int) = 1 := rfl
    have e4 : ((4096 : Nat) : Int) = 4096 := rfl
    have e5 : ((4294967294 : Nat) : Int) = 4294967294 := rfl
    rw [e3, e4] at hb
    rw [← e5] at hb
    simp only [Peers.step, e1, e2, hr, hb, List.nil_append]
  have h4 : (Peers.mk ⟨⟨4294967294, 4294963200, 4096, 4096⟩, []⟩
        ⟨4294967294, 4096, 4294967294, 4096, 4096⟩ [] [line]).step 1 .deliverSeq = none := by
    simp only [Peers.step, hps]
  simp only [Peers.run, h1, h2, h3, h4, ne_eq, reduceCtorEq, not_false_eq_true, and_self]

end Verif.Props
