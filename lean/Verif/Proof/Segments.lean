import Verif.Spec.Segments
import Verif.Proof.Flow
/-! Helper lemmas on segmentation. -/
namespace Verif.Proof
open Verif.Model Verif.Spec

/-- What is left to send of a pending message, seen as a message. -/
def residual (p : Pending) : OutMsg := { p.msg with message := p.msg.message.drop p.step }

/-- The counters of a pending message agree with its content. -/
def PendingOk (p : Pending) : Prop := p.messageSize = (residual p).message.length

theorem sent_cons {s : Nat} {m : OutMsg} {f : Frame} {n : Nat} {ms fs left}
    (hf : FrameOf m f) (hp : f.payload = m.message.take n) (hn : n < m.message.length)
    (hm : f.more = true) (hq : f.seqno = s % 4294967296)
    (h : Sent (s + n) ({ m with message := m.message.drop n } :: ms) fs left) :
    ∃ left', Sent s (m :: ms) (f :: fs) left' ∧ left'.length = left.length := by
  have hl : f.payload.length = n := by rw [hp, List.length_take]; omega
  have hn0 : f.payload ≠ [] ∨ m.type = .nul ∧ m.message = [] := hf.nonempty
  have key : ∀ g, FrameOf { m with message := m.message.drop n } g → FrameOf m g := by
    intro g hg
    refine ⟨hg.type, hg.channel, hg.msgno, hg.ansno, hg.size, hg.bound, ?_⟩
    rcases hg.nonempty with h1 | ⟨h1, h2⟩
    · exact Or.inl h1
    · exfalso
      have := congrArg List.length h2
      simp only [List.length_drop, List.length_nil] at this
      omega
  cases h with
  | nothing =>
    refine ⟨m :: ms, .begun ms ⟨?_, ⟨m.message.drop n, ?_, ?_⟩, ?_, ?_⟩, rfl⟩
    · intro g hg; simp at hg; rw [hg]; exact hf
    · intro h0
      have := congrArg List.length h0
      simp only [List.length_drop, List.length_nil] at this
      omega
    · simp only [List.map_cons, List.map_nil, List.flatten_cons, List.flatten_nil, List.append_nil, hp]
      exact List.take_append_drop _ _
    · exact ⟨hq, trivial⟩
    · intro g hg; simp at hg; rw [hg]; exact hm
  | begun _ hb =>
    refine ⟨m :: ms, .begun ms ⟨?_, ?_, ?_, ?_⟩, rfl⟩
    · intro g hg
      rcases List.mem_cons.mp hg with h | h
      · rw [h]; exact hf
      · exact key g (hb.frames g h)
    · obtain ⟨rest, hr, he⟩ := hb.content
      refine ⟨rest, hr, ?_⟩
      simp only [List.map_cons, List.flatten_cons, List.append_assoc, he, hp]
      exact List.take_append_drop _ _
    · refine ⟨hq, ?_⟩
      rw [hl]; exact hb.contiguous
    · intro g hg
      rcases List.mem_cons.mp hg with h | h
      · rw [h]; exact hm
      · exact hb.flags g h
  | @whole _ _ fs1 _ gs _ hw hr =>
    refine ⟨left, ?_, rfl⟩
    have : f :: (fs1 ++ gs) = (f :: fs1) ++ gs := rfl
    rw [this]
    refine .whole ⟨?_, ?_, ?_, ?_⟩ ?_
    · intro g hg
      rcases List.mem_cons.mp hg with h | h
      · rw [h]; exact hf
      · exact key g (hw.frames g h)
    · simp only [List.map_cons, List.flatten_cons, hw.content, hp]
      exact List.take_append_drop _ _
    · refine ⟨hq, ?_⟩
      rw [hl]; exact hw.contiguous
    · obtain ⟨k, hk⟩ := hw.flags
      refine ⟨k + 1, ?_⟩
      simp only [List.map_cons, hk, hm, List.replicate_succ, List.cons_append]
    · have e : s + n + (m.message.drop n).length = s + m.message.length := by
        rw [List.length_drop]; omega
      rw [← e]; exact hr

theorem run_sent (ops : List SendOp) : ∀ (c : SendChan) (S L : Nat), SendInv c.win S L →
    (∀ p ∈ c.pending, PendingOk p) →
    ∃ left, Sent S (c.pending.map residual ++ queued ops) (c.run ops).2 left ∧
      ∀ c', (c.run ops).1 = some c' → left.length = c'.pending.length := by
  induction ops with
  | nil =>
    intro c S L h hp
    refine ⟨_, .nothing _ _, ?_⟩
    intro c' hc
    simp only [SendChan.run, Option.some.injEq] at hc
    subst hc
    simp [queued]
  | cons op ops ih =>
    intro c S L h hp
    have late : ∃ left, Sent S (c.pending.map residual ++ queued (.lateRound :: ops))
        (c.run (.lateRound :: ops)).2 left ∧
        ∀ c', (c.run (.lateRound :: ops)).1 = some c' → left.length = c'.pending.length := by
      unfold SendChan.run
      simp only [SendChan.step, SendChan.emit, queued]
      split
      · exact ⟨_, .nothing _ _, by simp⟩
      · next c' fo heq =>
        simp only
        split at heq
        · injection heq with heq
          injection heq with e1 e2
          subst e1; subst e2
          simp only [Option.toList, List.nil_append]
          exact ih c S L h hp
        · next p ps hps =>
          split at heq
          · simp at heq
          · next f cpl w p' hr =>
            injection heq with heq
            injection heq with e1 e2
            subst e1; subst e2
            obtain ⟨g1, g2, g3, g4, g5, g6, g7, g8, g9, g10⟩ := sendRound_sent h p f cpl w p' hr
            have hpo : PendingOk p := hp p (by rw [hps]; exact List.mem_cons_self)
            have hlen : p.messageSize = (residual p).message.length := hpo
            have hseq : f.seqno = S % 4294967296 := by rw [g4]; exact h.seq
            have hpay : f.payload = (residual p).message.take f.size.toNat := by
              have := congrArg Frame.payload g9; exact this
            have hplen : f.payload.length = f.size.toNat := by
              rw [hpay, List.length_take]; omega
            have hfo : FrameOf (residual p) f := by
              refine ⟨?_, ?_, ?_, ?_, ?_, ?_, ?_⟩
              · exact congrArg Frame.type g9
              · exact congrArg Frame.channel g9
              · exact congrArg Frame.msgno g9
              · exact congrArg Frame.ansno g9
              · rw [hplen]; omega
              · rw [hplen]; omega
              · by_cases h0 : f.size = 0
                · right
                  refine ⟨(g8 h0).2, ?_⟩
                  have := (g8 h0).1
                  exact List.length_eq_zero_iff.mp (by omega)
                · left
                  intro he
                  rw [he] at hplen
                  simp at hplen
                  omega
            have hmore : f.more = (!cpl || p.msg.fixedMore) := congrArg Frame.more g9
            simp only [Option.toList, List.singleton_append, hps, List.map_cons, List.cons_append]
            cases cpl with
            | true =>
              have hcs : f.size = p.messageSize := by simpa using g7.symm
              obtain ⟨left, h1, h2⟩ := ih ⟨w, ps⟩ _ L g5 (by
                intro q hq; exact hp q (by rw [hps]; exact List.mem_cons_of_mem _ hq))
              refine ⟨left, ?_, h2⟩
              simp only [if_true]
              show Sent S _ ([f] ++ (SendChan.run ⟨w, ps⟩ ops).2) left
              refine .whole ⟨?_, ?_, ?_, ?_⟩ ?_
              · intro g hg; simp at hg; rw [hg]; exact hfo
              · simp only [List.map_cons, List.map_nil, List.flatten_cons, List.flatten_nil,
                  List.append_nil, hpay]
                apply List.take_of_length_le
                omega
              · exact ⟨hseq, trivial⟩
              · exact ⟨0, by simp [hmore, residual]⟩
              · have e2 : (residual p).message.length = f.size.toNat := by omega
                rw [e2]; exact h1
            | false =>
              have hcs : f.size ≠ p.messageSize := by simpa using g7.symm
              simp only [Bool.false_eq_true, if_false] at g10 ⊢
              have hres : residual p' =
                  { residual p with message := (residual p).message.drop f.size.toNat } := by
                rw [g10]; simp [residual]
              obtain ⟨left, h1, h2⟩ := ih ⟨w, p' :: ps⟩ _ L g5 (by
                intro q hq
                rcases List.mem_cons.mp hq with e | e
                · rw [e]
                  show p'.messageSize = _
                  rw [hres]
                  simp only [List.length_drop]
                  rw [g10]
                  simp only
                  omega
                · exact hp q (by rw [hps]; exact List.mem_cons_of_mem _ e))
              simp only [List.map_cons, List.cons_append, hres] at h1
              obtain ⟨left', h3, h4⟩ := sent_cons (f := f) (n := f.size.toNat) hfo hpay (by omega)
                (by simp [hmore]) hseq h1
              exact ⟨left', h3, fun c' hc => by rw [h4]; exact h2 c' hc⟩
    unfold SendChan.run
    cases op with
    | queue m =>
      simp only [SendChan.step, Option.toList, List.nil_append, queued]
      obtain ⟨left, h1, h2⟩ := ih (c.queue m) S L h (by
        intro p hpm
        simp only [SendChan.queue, List.mem_append, List.mem_singleton] at hpm
        rcases hpm with h | h
        · exact hp p h
        · subst h; simp [PendingOk, residual])
      refine ⟨left, ?_, h2⟩
      simpa [SendChan.queue, residual] using h1
    | ownWindow n =>
      simp only [SendChan.step, Option.toList, List.nil_append, queued]
      exact ih { c with win := { c.win with windowSize := n } } S L (ownWindow_inv h n) hp
    | seq a win =>
      simp only [SendChan.step, queued]
      cases hg : c.win.grant (u32 a) (u32 win) with
      | none =>
        simp only [Option.map_none]
        exact ⟨_, .nothing _ _, by simp⟩
      | some w' =>
        simp only [Option.map_some, Option.toList, List.nil_append]
        exact ih { c with win := w' } S _ (grant_inv h a win w' hg).1 hp
    | lateRound => unfold SendChan.run at late; exact late
    | round =>
      by_cases hst : c.win.stalled = true
      · simp only [SendChan.step, SendChan.round, hst, if_true, Option.toList, List.nil_append, queued]
        exact ih c S L h hp
      · simp only [SendChan.step, SendChan.round, hst, if_false, queued]
        unfold SendChan.run at late
        exact late

end Verif.Proof
