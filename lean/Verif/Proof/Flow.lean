import Verif.Spec.Flow
/-! Helper lemmas on the send window. -/
namespace Verif.Proof
open Verif.Model Verif.Spec

/-- `S` octets sent, limit `L` granted, both counted without wrapping. -/
structure SendInv (w : SendWin) (S L : Nat) : Prop where
  seq : w.lastSeq = S % 4294967296
  rc : w.remoteConsumed < 4294967296
  rw1 : -2147483648 ≤ w.remoteWindow
  rw2 : w.remoteWindow < 2147483648
  lim : ((w.remoteConsumed : Int) + w.remoteWindow - L) % 4294967296 = 0
  le : S ≤ L

theorem nextLimit_ge (L a w : Nat) : L ≤ nextLimit L a w := by
  unfold nextLimit; omega

theorem SendInv.init : SendInv SendWin.init 0 4096 := by
  constructor <;> decide

theorem nextFrameSize_le {w S L} (h : SendInv w S L) (m : Int) :
    w.nextFrameSize w.lastSeq m w.maxSeqNo ≤ (L : Int) - S ∨
    w.nextFrameSize w.lastSeq m w.maxSeqNo ≤ 0 := by
  obtain ⟨h1, h2, h3, h4, h5, h6⟩ := h
  unfold SendWin.nextFrameSize SendWin.maxSeqNo
  simp only [h1]
  unfold u32 i32
  split <;> omega

theorem nextFrameSize_le2 (w : SendWin) (m : Int) (a b : Nat) :
    w.nextFrameSize a m b ≤ m ∧ w.nextFrameSize a m b ≤ 4096 := by
  unfold SendWin.nextFrameSize
  simp only
  omega

theorem advance_inv {w S L} (h : SendInv w S L) (n : Int) (h0 : 0 ≤ n) (hn : n ≤ (L : Int) - S)
    (hm : n < 4294967296) :
    SendInv (w.advance n) (S + n.toNat) L := by
  obtain ⟨h1, h2, h3, h4, h5, h6⟩ := h
  constructor
  · simp only [SendWin.advance, h1]
    unfold u32
    omega
  · exact h2
  · exact h3
  · exact h4
  · exact h5
  · omega

theorem grant_available {w S L} (h : SendInv w S L) (a : Nat) :
    (if w.remoteConsumed ≤ u32 a then
      i32 (u32 (w.remoteWindow - u32 (((u32 a : Nat) : Int) - w.remoteConsumed)))
    else i32 (w.remoteWindow - (4294967296 - (w.remoteConsumed : Int)) - (u32 a : Nat))) =
    i32 ((L : Int) - a) := by
  obtain ⟨h1, h2, h3, h4, h5, h6⟩ := h
  have e1 : (u32 a : Int) = (a : Int) % 4294967296 := by unfold u32; omega
  split
  · rw [e1]
    unfold u32 i32
    omega
  · rw [e1]
    unfold i32
    omega

theorem u32_cast (a : Int) : ((u32 a : Nat) : Int) = a % 4294967296 := by unfold u32; omega

theorem grant_inv {w S L} (h : SendInv w S L) (a win : Nat) (w' : SendWin)
    (hg : w.grant (u32 a) (u32 win) = some w') :
    SendInv w' S (nextLimit L a win) ∧ L < nextLimit L a win := by
  have hav := grant_available h a
  obtain ⟨h1, h2, h3, h4, h5, h6⟩ := h
  unfold SendWin.grant at hg
  simp only [hav] at hg
  have hu1 := u32_cast a
  have hu2 := u32_cast win
  have hu3 := u32_cast (i32 ((L : Int) - a))
  have hi1 : i32 ((L : Int) - a) = ((L : Int) - a + 2147483648) % 4294967296 - 2147483648 := rfl
  have hi2 : i32 (u32 win : Nat) = (((u32 win : Nat) : Int) + 2147483648) % 4294967296 - 2147483648 := rfl
  split at hg
  · next hc =>
    obtain ⟨hc1, hc2⟩ := hc
    injection hg with hg
    subst hg
    generalize u32 a = A at *
    generalize u32 win = W at *
    generalize hI : i32 ((L : Int) - a) = I at *
    generalize hJ : i32 (W : Int) = J at *
    generalize u32 I = U at *
    have hlim : (nextLimit L a win : Int) =
        L - ((L : Int) - a) % 4294967296 + (win : Int) % 4294967296 := by
      unfold nextLimit ackPosition
      omega
    refine ⟨⟨h1, ?_, ?_, ?_, ?_, ?_⟩, ?_⟩
    · show A < 4294967296
      omega
    · show -2147483648 ≤ J
      omega
    · show J < 2147483648
      omega
    · show ((A : Int) + J - (nextLimit L a win : Nat)) % 4294967296 = 0
      omega
    · omega
    · omega
  · simp at hg

theorem ownWindow_inv {w S L} (h : SendInv w S L) (n : Int) :
    SendInv { w with windowSize := n } S L := ⟨h.1, h.2, h.3, h.4, h.5, h.6⟩

/-- What a send round does, given the window invariant. -/
theorem sendRound_sent {w S L} (h : SendInv w S L) (p : Pending) (f c w' p')
    (hr : sendRound w p = .sent f c w' p') :
    0 ≤ f.size ∧ f.size ≤ 4096 ∧ f.size ≤ p.messageSize ∧ f.seqno = w.lastSeq ∧
      SendInv w' (S + f.size.toNat) L ∧ w' = w.advance f.size ∧ c = decide (f.size = p.messageSize) ∧
      (f.size = 0 → p.messageSize = 0 ∧ p.msg.type = .nul) ∧
      f = { type := p.msg.type, channel := p.msg.channel, msgno := p.msg.msgno,
            more := !c || p.msg.fixedMore, seqno := w.lastSeq, size := f.size,
            ansno := if p.msg.type = .ans then p.msg.ansno else 0,
            payload := (p.msg.message.drop p.step).take f.size.toNat } ∧
      p' = (if c then p
        else { p with step := p.step + f.size.toNat, messageSize := p.messageSize - f.size }) := by
  unfold sendRound at hr
  simp only at hr
  have hle := nextFrameSize_le h p.messageSize
  have hle2 := nextFrameSize_le2 w p.messageSize w.lastSeq w.maxSeqNo
  split at hr
  · next hz =>
    injection hr with e1 e2 e3 e4
    subst e1; subst e2; subst e3; subst e4
    refine ⟨by show (0 : Int) ≤ 0; omega, by show (0 : Int) ≤ _; omega,
      by show (0 : Int) ≤ _; omega, rfl, ?_, rfl, rfl, fun _ => hz, rfl, rfl⟩
    have := advance_inv h 0 (by omega) (by have := h.le; omega) (by omega)
    exact this
  · split at hr
    · simp at hr
    · next hsz =>
      injection hr with e1 e2 e3 e4
      subst e1; subst e2; subst e3; subst e4
      refine ⟨by show (0:Int) ≤ w.nextFrameSize _ _ _; omega, by show w.nextFrameSize _ _ _ ≤ _; omega,
        by show w.nextFrameSize _ _ _ ≤ _; omega, rfl, ?_, rfl, rfl, ?_, rfl, rfl⟩
      · exact advance_inv h _ (by omega) (by omega) (by omega)
      · intro h0
        have : w.nextFrameSize w.lastSeq p.messageSize w.maxSeqNo = 0 := h0
        omega

theorem run_total (ops : List SendOp) : ∀ (c : SendChan) (S L : Nat), SendInv c.win S L →
    0 ≤ totalSize (c.run ops).2 ∧ (S : Int) + totalSize (c.run ops).2 ≤ grantedLimit L ops := by
  induction ops with
  | nil => intro c S L h; simp only [SendChan.run, totalSize, grantedLimit]; have := h.le; omega
  | cons op ops ih =>
    intro c S L h
    have mono : ∀ (ops : List SendOp) (L : Nat), L ≤ grantedLimit L ops := by
      intro ops
      induction ops with
      | nil => intro L; exact Nat.le_refl _
      | cons op ops ih =>
        intro L
        cases op with
        | seq a w =>
          refine Nat.le_trans ?_ (ih _)
          exact nextLimit_ge _ _ _
        | _ => exact ih _
    have hle := h.le
    have late : 0 ≤ totalSize (c.run (.lateRound :: ops)).2 ∧
        (S : Int) + totalSize (c.run (.lateRound :: ops)).2 ≤ grantedLimit L (.lateRound :: ops) := by
      unfold SendChan.run
      simp only [SendChan.step, SendChan.emit, grantedLimit]
      have hm := mono ops L
      split
      · simp only [totalSize]; omega
      · next c' fo heq =>
        simp only
        split at heq
        · injection heq with heq
          injection heq with e1 e2
          subst e1; subst e2
          simp only [Option.toList, List.nil_append]
          exact ih c S L h
        · next p ps hp =>
          split at heq
          · simp at heq
          · next f cpl w p' hr =>
            injection heq with heq
            injection heq with e1 e2
            subst e1; subst e2
            have hs := sendRound_sent h p f cpl w p' hr
            have := ih ⟨w, if cpl then ps else p' :: ps⟩ _ L hs.2.2.2.2.1
            simp only [Option.toList, List.singleton_append, totalSize]
            omega
    unfold SendChan.run
    cases op with
    | queue m =>
      simp only [SendChan.step, Option.toList, List.nil_append, grantedLimit]
      exact ih (c.queue m) S L h
    | ownWindow n =>
      simp only [SendChan.step, Option.toList, List.nil_append, grantedLimit]
      exact ih _ S L (ownWindow_inv h n)
    | seq a win =>
      simp only [SendChan.step, grantedLimit]
      cases hg : c.win.grant (u32 a) (u32 win) with
      | none =>
        simp only [Option.map_none, totalSize]
        have := mono ops (nextLimit L a win)
        have : L ≤ nextLimit L a win := nextLimit_ge _ _ _
        omega
      | some w' =>
        simp only [Option.map_some, Option.toList, List.nil_append]
        exact ih { c with win := w' } S _ (grant_inv h a win w' hg).1
    | lateRound => unfold SendChan.run at late; exact late
    | round =>
      by_cases hst : c.win.stalled = true
      · simp only [SendChan.step, SendChan.round, hst, if_true, Option.toList, List.nil_append,
          grantedLimit]
        exact ih c S L h
      · simp only [SendChan.step, SendChan.round, hst, if_false, grantedLimit]
        unfold SendChan.run at late
        exact late

end Verif.Proof
