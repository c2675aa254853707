import Verif.Spec.Peers
import Verif.Proof.RecvFlow
import Verif.Proof.Segments
import Verif.Proof.Header
/-! Helper lemmas on two peers. -/
namespace Verif.Proof
open Verif.Model Verif.Spec

theorem parseSeq_built (ch : Nat) (hc : ch < 2147483648) (a : Nat) (ha : a < 4294967294) (n : Int)
    (h0 : 0 ≤ n) (h1 : n < 2147483648) :
    ∃ line, buildSeq ch a n = some line ∧ parseSeq line = some (a, n) := by
  have hb := buildSeq_eq ch a n
  rw [u32_natCast _ (by omega), u32_natCast _ (by omega), u32_of_nonneg n h0 (by omega)] at hb
  refine ⟨_, hb, ?_⟩
  unfold parseSeq
  rw [parse_seqHeader ch a n.toNat (by omega) (by omega) (by omega) [NUL] _ rfl]
  simp only [Option.some.injEq, Prod.mk.injEq, true_and]
  omega

/-- The data in flight: contiguous from position `E` to position `S`. -/
def Flight : Nat → List Frame → Nat → Prop
  | E, [], S => E = S
  | E, f :: fs, S => f.seqno = E % 4294967296 ∧ 0 ≤ f.size ∧ f.size ≤ 4096 ∧
      Flight (E + f.size.toNat) fs S

theorem Flight.le : ∀ {fs : List Frame} {E S : Nat}, Flight E fs S → E ≤ S
  | [], _, _, h => Nat.le_of_eq h
  | f :: fs, E, S, h => by have := Flight.le h.2.2.2; omega

theorem Flight.snoc : ∀ {fs : List Frame} {E S : Nat} (f : Frame), Flight E fs S →
    f.seqno = S % 4294967296 → 0 ≤ f.size → f.size ≤ 4096 →
    Flight E (fs ++ [f]) (S + f.size.toNat)
  | [], E, S, f, h, h1, h2, h3 => by
    have h : E = S := h
    subst h
    exact ⟨h1, h2, h3, rfl⟩
  | g :: fs, E, S, f, h, h1, h2, h3 => ⟨h.1, h.2.1, h.2.2.1, Flight.snoc f h.2.2.2 h1 h2 h3⟩

/-- The SEQ lines in flight: from the grant `(c0, w0)` the sender knows to the grant `(C, W)` the
receiver has made, each acceptable after the previous one. -/
def Grants (ch : Nat) : Nat → Int → List (List Byte) → Nat → Int → Prop
  | c0, w0, [], C, W => c0 = C ∧ w0 = W
  | c0, w0, line :: q, C, W => ∃ (A : Nat) (w : Int),
      parseSeq line = some (A % 4294967296, w) ∧ 0 < w ∧ w < 2147483648 ∧ c0 ≤ A ∧ (A : Int) ≤ c0 + w0 ∧
      (c0 : Int) + w0 < A + w ∧ Grants ch A w q C W

theorem Grants.le {ch : Nat} : ∀ {q : List (List Byte)} {c0 : Nat} {w0 : Int} {C : Nat} {W : Int},
    Grants ch c0 w0 q C W → c0 ≤ C ∧ (c0 : Int) + w0 ≤ C + W
  | [], c0, w0, C, W, h => by obtain ⟨h1, h2⟩ := h; subst h1; subst h2; omega
  | line :: q, c0, w0, C, W, h => by
    obtain ⟨A, w, _, _, _, h1, h2, h3, h4⟩ := h
    have := Grants.le h4
    omega

theorem Grants.snoc {ch : Nat} {A : Nat} {w : Int} {line : List Byte}
    (hp : parseSeq line = some (A % 4294967296, w)) (hw : 0 < w) (hw2 : w < 2147483648) :
    ∀ {q : List (List Byte)} {c0 : Nat} {w0 : Int} {C : Nat} {W : Int},
    Grants ch c0 w0 q C W → C ≤ A → (A : Int) ≤ C + W → (C : Int) + W < A + w →
    Grants ch c0 w0 (q ++ [line]) A w
  | [], c0, w0, C, W, h, h1, h2, h3 => by
    obtain ⟨e1, e2⟩ := h
    subst e1; subst e2
    exact ⟨A, w, hp, hw, hw2, h1, h2, h3, rfl, rfl⟩
  | l :: q, c0, w0, C, W, h, h1, h2, h3 => by
    obtain ⟨A', w', a1, a2, a3, a4, a5, a6, a7⟩ := h
    exact ⟨A', w', a1, a2, a3, a4, a5, a6, Grants.snoc hp hw hw2 a7 h1 h2 h3⟩

/-- Global invariant. `S` octets sent, `E` received, `C` acknowledged by the receiver, `c0` the
acknowledgement known to the sender; `total` octets queued and `last` the window configured. -/
structure PeersInv (ch : Nat) (p : Peers) (S E C c0 : Nat) (total : Nat) (last : Int) : Prop where
  snd : SendInv p.snd.win S (c0 + p.snd.win.remoteWindow.toNat)
  rc : p.snd.win.remoteConsumed = c0 % 4294967296
  rwpos : 0 < p.snd.win.remoteWindow
  own : 0 < p.snd.win.windowSize
  pend : ∀ q ∈ p.snd.pending, PendingOk q ∧ (q.msg.type = .nul ∨ 0 < q.messageSize) ∧ 0 ≤ q.messageSize
  rcv : RecvInv p.rcv E C
  data : Flight E p.data S
  seqs : Grants ch c0 p.snd.win.remoteWindow p.seqs C p.rcv.windowSize
  half : (C : Int) + p.rcv.windowSize - E > p.rcv.windowSize / 2
  des : p.rcv.desired = last
  grow : p.rcv.windowSize ≤ p.rcv.desired
  early : p.rcv.windowSize = p.rcv.desired ∨
    (C : Int) + p.rcv.windowSize + p.rcv.desired ≤ 4294967296
  tot : (S : Int) + (p.snd.pending.map (·.messageSize)).sum ≤ total

theorem PeersInv.init (ch : Nat) : PeersInv ch Peers.init 0 0 0 0 0 4096 where
  snd := SendInv.init
  rc := rfl
  rwpos := by decide
  own := by decide
  pend := by intro q h; simp [Peers.init, SendChan.init] at h
  rcv := RecvInv.init
  data := rfl
  seqs := ⟨rfl, rfl⟩
  half := by decide
  des := rfl
  grow := by decide
  early := Or.inl rfl
  tot := by decide

theorem pending_sum_nonneg (ps : List Pending) (h : ∀ q ∈ ps, 0 ≤ q.messageSize) :
    0 ≤ (ps.map (·.messageSize)).sum := by
  induction ps with
  | nil => simp
  | cons q ps ih =>
    simp only [List.map_cons, List.sum_cons]
    have := h q List.mem_cons_self
    have := ih (fun q hq => h q (List.mem_cons_of_mem _ hq))
    omega

/-- With the invariant, a send round never fails, and emits unless stalled or idle. -/
theorem sendRound_ok {ch p S E C c0 total last} (h : PeersInv ch p S E C c0 total last)
    (hst : p.snd.win.stalled = false) (q : Pending) (ps) (hp : p.snd.pending = q :: ps) :
    ∃ f c w q', sendRound p.snd.win q = .sent f c w q' := by
  have hq := h.pend q (by rw [hp]; exact List.mem_cons_self)
  unfold sendRound
  simp only
  split
  · exact ⟨_, _, _, _, rfl⟩
  · next hz =>
    have hms : 0 < q.messageSize := by
      rcases hq.2.1 with h1 | h1
      · rcases Int.lt_or_le 0 q.messageSize with h2 | h2
        · exact h2
        · exact absurd ⟨by have := hq.2.2; omega, h1⟩ hz
      · exact h1
    have hle := nextFrameSize_le2 p.snd.win q.messageSize p.snd.win.lastSeq p.snd.win.maxSeqNo
    have hpos : 0 < p.snd.win.nextFrameSize p.snd.win.lastSeq q.messageSize p.snd.win.maxSeqNo := by
      obtain ⟨s1, s2, s3, s4, s5, s6⟩ := h.snd
      have hrc := h.rc
      have hrw := h.rwpos
      have hown := h.own
      have hc0 := (Grants.le h.seqs).1
      have hce := h.rcv.ce
      have hes := h.data.le
      have hne : p.snd.win.lastSeq ≠ u32 ((p.snd.win.remoteConsumed : Int) + p.snd.win.remoteWindow) := by
        unfold SendWin.stalled at hst
        simpa using hst
      have hu := u32_cast ((p.snd.win.remoteConsumed : Int) + p.snd.win.remoteWindow)
      unfold SendWin.nextFrameSize SendWin.maxSeqNo
      simp only
      have hm := u32_cast ((p.snd.win.remoteConsumed : Int) + p.snd.win.remoteWindow - 1)
      generalize u32 ((p.snd.win.remoteConsumed : Int) + p.snd.win.remoteWindow - 1) = mx at *
      generalize u32 ((p.snd.win.remoteConsumed : Int) + p.snd.win.remoteWindow) = lim at *
      have hL : (S : Int) < c0 + p.snd.win.remoteWindow := by omega
      have hav : (if p.snd.win.lastSeq ≤ mx then i32 (u32 ((mx : Int) - p.snd.win.lastSeq + 1))
          else i32 ((4294967296 - (p.snd.win.lastSeq : Int)) + mx + 1)) =
          (c0 : Int) + p.snd.win.remoteWindow - S := by
        have hs := i32_small ((c0 : Int) + p.snd.win.remoteWindow - S) (by omega) (by omega)
        rw [← hs]
        split
        · apply i32_congr
          rw [u32_cast]
          omega
        · apply i32_congr
          omega
      rw [hav]
      omega
    rw [if_neg (by omega)]
    exact ⟨_, _, _, _, rfl⟩

/-- Octets queued by an operation. -/
def peersOctets : PeersOp → Nat
  | .queue m => m.message.length
  | _ => 0

theorem peers_step (ch : Nat) (hch : ch < 2147483648) (op : PeersOp) (ops : List PeersOp) :
    ∀ (p : Peers) (S E C c0 total : Nat) (last : Int), PeersInv ch p S E C c0 total last →
    (∀ m, op = .queue m → m.type = .nul ∨ m.message ≠ []) → GrowEarly total last (op :: ops) →
    (op = .deliverData → ∀ f fs w a n, p.data = f :: fs →
      p.rcv.receive f.seqno f.size = some (w, some (a, n)) → a < 4294967294) →
    ∃ p', p.step ch op = some p' ∧ ∃ S E C c0 t' last, PeersInv ch p' S E C c0 t' last ∧
      GrowEarly t' last ops ∧ t' = total + peersOctets op := by
  intro p S E C c0 total last h hm hg ha
  have hle := h.data.le
  cases op with
  | queue m =>
    refine ⟨_, rfl, S, E, C, c0, total + m.message.length, last, ?_, hg, rfl⟩
    refine ⟨h.snd, h.rc, h.rwpos, h.own, ?_, h.rcv, h.data, h.seqs, h.half, h.des, h.grow, h.early, ?_⟩
    · intro q hq
      simp only [SendChan.queue, List.mem_append, List.mem_singleton] at hq
      rcases hq with hq | hq
      · exact h.pend q hq
      · subst hq
        refine ⟨by simp [PendingOk, residual], ?_, by simp⟩
        rcases hm m rfl with h1 | h1
        · exact Or.inl h1
        · right
          show (0 : Int) < (m.message.length : Int)
          have := List.length_pos_iff.mpr h1
          omega
    · have := h.tot
      simp only [SendChan.queue, List.map_append, List.map_cons, List.map_nil, List.sum_append,
        List.sum_cons, List.sum_nil]
      omega
  | setWindow n =>
    obtain ⟨g1, g2, g3, g4⟩ := hg
    refine ⟨_, rfl, S, E, C, c0, total, n, ?_, g4, rfl⟩
    have hpos : n > 0 := by have := h.rcv.dpos; rw [h.des] at this; omega
    have e : p.rcv.setWindow n = { p.rcv with desired := n } := by
      unfold RecvWin.setWindow; rw [if_pos hpos]
    have hi := setWindow_recvInv h.rcv n g2
    rw [e] at hi
    have hsum := pending_sum_nonneg p.snd.pending (fun q hq => (h.pend q hq).2.2)
    have htot := h.tot
    have hgrow := h.grow
    have hdes := h.des
    have hce := h.rcv.ce
    refine ⟨h.snd, h.rc, h.rwpos, h.own, h.pend, ?_, h.data, ?_, ?_, ?_, ?_, ?_, h.tot⟩
    · rw [e]; exact hi
    · rw [e]; exact h.seqs
    · rw [e]; exact h.half
    · rw [e]
    · rw [e]; show p.rcv.windowSize ≤ n; omega
    · rw [e]; right
      show (C : Int) + p.rcv.windowSize + n ≤ 4294967296
      omega
  | round =>
    unfold Peers.step
    unfold SendChan.round
    by_cases hst : p.snd.win.stalled = true
    · simp only [hst, if_true, Option.toList, List.append_nil]
      exact ⟨_, rfl, S, E, C, c0, total, last, h, hg, rfl⟩
    · simp only [hst, Bool.false_eq_true, if_false]
      unfold SendChan.emit
      cases hp : p.snd.pending with
      | nil =>
        refine ⟨_, rfl, S, E, C, c0, total, last, ?_, hg, rfl⟩
        simpa using h
      | cons q ps =>
        obtain ⟨f, c, w, q', hs⟩ := sendRound_ok h (by simpa using hst) q ps hp
        simp only [hs, Option.toList]
        obtain ⟨g1, g2, g3, g4, g5, g6, g7, g8, g9, g10⟩ := sendRound_sent h.snd q f c w q' hs
        have hq := h.pend q (by rw [hp]; exact List.mem_cons_self)
        refine ⟨_, rfl, S + f.size.toNat, E, C, c0, total, last, ?_, hg, rfl⟩
        have ew1 : w.remoteWindow = p.snd.win.remoteWindow := by rw [g6]; rfl
        have ew2 : w.remoteConsumed = p.snd.win.remoteConsumed := by rw [g6]; rfl
        have ew3 : w.windowSize = p.snd.win.windowSize := by rw [g6]; rfl
        have htot := h.tot
        rw [hp] at htot
        simp only [List.map_cons, List.sum_cons] at htot
        refine ⟨?_, ?_, ?_, ?_, ?_, h.rcv, ?_, ?_, h.half, h.des, h.grow, h.early, ?_⟩
        · simp only [ew1]; exact g5
        · simp only [ew2]; exact h.rc
        · simp only [ew1]; exact h.rwpos
        · simp only [ew3]; exact h.own
        · intro r hr
          simp only at hr
          cases c with
          | true =>
            simp only [if_true] at hr
            exact h.pend r (by rw [hp]; exact List.mem_cons_of_mem _ hr)
          | false =>
            simp only [Bool.false_eq_true, if_false] at hr g10
            rcases List.mem_cons.mp hr with e | e
            · subst e
              have hne : f.size ≠ q.messageSize := by simpa using g7.symm
              have hpo : q.messageSize = (residual q).message.length := hq.1
              rw [g10]
              refine ⟨?_, Or.inr ?_, ?_⟩
              · show q.messageSize - f.size =
                  (((q.msg.message.drop (q.step + f.size.toNat)).length : Nat) : Int)
                unfold residual at hpo
                simp only [List.length_drop] at hpo ⊢
                omega
              · show 0 < q.messageSize - f.size
                omega
              · show 0 ≤ q.messageSize - f.size
                omega
            · exact h.pend r (by rw [hp]; exact List.mem_cons_of_mem _ e)
        · exact Flight.snoc f h.data (by rw [g4]; exact h.snd.seq) g1 g2
        · simp only [ew1]; exact h.seqs
        · cases c with
          | true =>
            have hcs : f.size = q.messageSize := by simpa using g7.symm
            simp only [if_true]
            omega
          | false =>
            simp only [Bool.false_eq_true, if_false] at g10 ⊢
            rw [g10]
            simp only [List.map_cons, List.sum_cons]
            omega
  | deliverSeq =>
    unfold Peers.step
    cases hq : p.seqs with
    | nil => exact ⟨_, rfl, S, E, C, c0, total, last, h, hg, rfl⟩
    | cons line q =>
      have hgr := h.seqs
      rw [hq] at hgr
      obtain ⟨A, w, hp, w1, w2, a1, a2, a3, a4⟩ := hgr
      simp only [hp]
      have hrw := h.rwpos
      have hav := grant_available h.snd A
      have hu : u32 (A : Int) = A % 4294967296 := by unfold u32; omega
      rw [hu] at hav
      have hmx : i32 (((c0 + p.snd.win.remoteWindow.toNat : Nat) : Int) - A) =
          (c0 : Int) + p.snd.win.remoteWindow - A := by
        rw [i32_small _ (by have := h.snd.rw2; omega) (by have := h.snd.rw2; omega)]; omega
      have hu2 : u32 w = w.toNat := u32_nonneg _ (by omega) (by omega)
      have hgrant : p.snd.win.grant (A % 4294967296) (u32 w) =
          some { p.snd.win with remoteConsumed := A % 4294967296, remoteWindow := w } := by
        unfold SendWin.grant
        simp only [hav, hmx]
        have hc : (c0 : Int) + p.snd.win.remoteWindow - A ≥ 0 ∧
            u32 w > u32 ((c0 : Int) + p.snd.win.remoteWindow - A) := by
          refine ⟨by omega, ?_⟩
          rw [hu2, u32_nonneg _ (by omega) (by have := h.snd.rw2; omega)]
          omega
        rw [if_pos hc]
        have : i32 ((u32 w : Nat) : Int) = w := by
          rw [hu2, i32_small _ (by omega) (by omega)]; omega
        rw [this]
      simp only [hgrant]
      refine ⟨_, rfl, S, E, C, A, total, last, ?_, hg, rfl⟩
      obtain ⟨s1, s2, s3, s4, s5, s6⟩ := h.snd
      refine ⟨⟨s1, ?_, ?_, ?_, ?_, ?_⟩, rfl, w1, h.own, h.pend, h.rcv, h.data, a4, h.half, h.des,
        h.grow, h.early, h.tot⟩
      · show A % 4294967296 < 4294967296; omega
      · show -2147483648 ≤ w; omega
      · show w < 2147483648; omega
      · show (((A % 4294967296 : Nat) : Int) + w - ((A + w.toNat : Nat) : Int)) % 4294967296 = 0
        omega
      · show S ≤ A + w.toNat
        omega
  | deliverData =>
    unfold Peers.step
    cases hd : p.data with
    | nil => exact ⟨_, rfl, S, E, C, c0, total, last, h, hg, rfl⟩
    | cons f fs =>
      have hfl := h.data
      rw [hd] at hfl
      obtain ⟨f1, f2, f3, f4⟩ := hfl
      have hfle := f4.le
      have hrc := receive_cases h.rcv f.size f2 (by omega)
      obtain ⟨r1, r2, r3, r4, r5, r6, r7, r8, r9⟩ := h.rcv
      have hlim := (Grants.le h.seqs).2
      have hsl := h.snd.le
      have hrwp := h.rwpos
      have c1 : (E : Int) - C + f.size ≤ p.rcv.seqWindow := by omega
      rw [← f1, if_pos c1] at hrc
      have hadv := advance_recvInv h.rcv f.size f2 c1
      by_cases c2 : (C : Int) + p.rcv.seqWindow - E - f.size > p.rcv.seqWindow / 2
      · rw [if_pos c2] at hrc
        simp only [hrc]
        refine ⟨_, rfl, S, E + f.size.toNat, C, c0, total, last, ?_, hg, rfl⟩
        refine ⟨h.snd, h.rc, h.rwpos, h.own, h.pend, hadv, f4, h.seqs, ?_, h.des, h.grow, h.early, h.tot⟩
        show (C : Int) + p.rcv.windowSize - ((E + f.size.toNat : Nat) : Int) > p.rcv.windowSize / 2
        omega
      · rw [if_neg c2] at hrc
        have c3 : ¬ (p.rcv.windowSize ≠ p.rcv.desired ∧
            u32 ((E : Int) + f.size + p.rcv.desired - 1) < u32 ((C : Int) + p.rcv.seqWindow - 1)) := by
          rintro ⟨n1, n2⟩
          have hg2 := h.grow
          rcases h.early with he | he
          · exact n1 he
          · rw [u32_nonneg _ (by omega) (by omega), u32_nonneg _ (by omega) (by omega)] at n2
            omega
        rw [if_neg c3] at hrc
        have hack := ha rfl f fs _ _ _ hd hrc
        obtain ⟨line, hb, hps⟩ := parseSeq_built ch hch _ hack p.rcv.desired (by omega) r7
        simp only [hrc, hb]
        refine ⟨_, rfl, S, E + f.size.toNat, E + f.size.toNat, c0, total, last, ?_, hg, rfl⟩
        have hup := updated_recvInv h.rcv f.size f2
        have hu : u32 ((E : Int) + f.size) = (E + f.size.toNat) % 4294967296 := by unfold u32; omega
        have hg2 := h.grow
        refine ⟨h.snd, h.rc, h.rwpos, h.own, h.pend, hup, f4, ?_, ?_, h.des, Int.le_refl _, Or.inl rfl,
          h.tot⟩
        · rw [hu] at hps
          exact Grants.snoc hps (by omega) r7 h.seqs (by omega) (by omega) (by omega)
        · show ((E + f.size.toNat : Nat) : Int) + p.rcv.desired - ((E + f.size.toNat : Nat) : Int) >
            p.rcv.desired / 2
          omega

theorem peers_run (ch : Nat) (hch : ch < 2147483648) (ops : List PeersOp) :
    ∀ (p : Peers) (S E C c0 total : Nat) (last : Int), PeersInv ch p S E C c0 total last →
    Messages ops → GrowEarly total last ops → AcksParse ch p ops →
    ∃ p', p.run ch ops = some p' ∧ ∃ S E C c0 total last, PeersInv ch p' S E C c0 total last := by
  induction ops with
  | nil => intro p S E C c0 total last h _ _ _; exact ⟨p, rfl, _, _, _, _, _, _, h⟩
  | cons op ops ih =>
    intro p S E C c0 total last h hm hg ha
    obtain ⟨p1, e1, S', E', C', c0', t', l', h', hg', _⟩ := peers_step ch hch op ops p S E C c0 total last h
      (fun m e => hm m (by rw [e]; exact List.mem_cons_self)) hg ha.1
    obtain ⟨p2, e2, hx⟩ := ih p1 S' E' C' c0' t' l' h' (fun m hmm => hm m (List.mem_cons_of_mem _ hmm))
      hg' (ha.2 p1 e1)
    refine ⟨p2, ?_, hx⟩
    unfold Peers.run
    rw [e1]
    exact e2

end Verif.Proof
