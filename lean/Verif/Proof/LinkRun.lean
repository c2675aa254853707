import Verif.Proof.Link
/-! Two endpoints on a byte stream: histories. -/
namespace Verif.Proof
open Verif.Model Verif.Spec

/-- Kind and content. -/
def lkKind (x : FType × Int × List Byte) : FType × List Byte := (x.1, x.2.2)

def lkFits : LinkOp → Prop
  | .send c | .reply _ c => c ≠ [] ∧ c.length < 2147483647
  | .setWindow n => n < 2147483640
  | _ => True

def lkSends : LinkOp → Nat
  | .send _ => 1
  | _ => 0

/-- The number of interruptions after a step. -/
def lkCount (n : Nat) (l : Link) : LinkOp → Nat
  | .read k => interruptions n l.a.rd (l.ba.take k)
  | _ => n

/-- What decreases with each step of the library. -/
def lkMeasure (l : Link) (fs gs : List Frame) : Int :=
  10000 * ((l.a.snd.pending.map (·.messageSize)).sum + (l.b.snd.pending.map (·.messageSize)).sum) +
    100 * ((lkData fs).length + (lkData gs).length) + (l.ab.length + l.ba.length)

theorem lk_measure_nonneg {ch l na nb fs gs opsA opsB NA NB} (h : LinkInv ch l na nb fs gs opsA opsB NA NB) : 0 ≤ lkMeasure l fs gs := by
  obtain ⟨_, _, _, _, _, _, h1, _⟩ := h.flowA
  obtain ⟨_, _, _, _, _, _, h2, _⟩ := h.flowB
  have a1 := pending_sum_nonneg l.a.snd.pending (fun q hq => (h1.pend q hq).2.2)
  have a2 := pending_sum_nonneg l.b.snd.pending (fun q hq => (h2.pend q hq).2.2)
  unfold lkMeasure
  omega

theorem lk_measure_swap (l : Link) (fs gs) : lkMeasure l.swap gs fs = lkMeasure l fs gs := by
  unfold lkMeasure Link.swap; dsimp only; omega

theorem lk_step_b (ch : Int) (l : Link) (op : LinkOp) : (l.stepA ch op).b = l.b := by
  unfold Link.stepA
  split
  · rfl
  · cases op with
    | read k => simp only; split <;> rfl
    | _ => rfl

theorem lk_interruptions_nil (n rd) : interruptions n rd [] = n := by unfold interruptions; simp

/-- One step of `a`. -/
theorem lk_stepA {ch : Nat} (hch : ch < 2147483648) {l na nb fs gs opsA opsB NA NB} {op : LinkOp}
    (h : LinkInv ch l na nb fs gs (lkQueued op ++ opsA) (lkWindows op ++ opsB) NA NB) (hfit : lkFits op)
    (hs : lkMsgs l.a.sent + lkSends op ≤ 2147483648)
    (hr : ∀ k, op = .read k → interruptions na l.a.rd (l.ba.take k) ≤ 25 ∧
      ((∀ n ∈ (l.stepA ch op).a.acks, n < 4294967294) ∨ NB < 4294967294)) :
    ∃ fs' gs', LinkInv ch (l.stepA ch op) (lkCount na l op) nb fs' gs' opsA opsB NA NB ∧
      (l.stepA ch op).a.sent.map lkKind = l.a.sent.map lkKind ++ asksNow l.a op ∧
      lkMsgs (l.stepA ch op).a.sent = lkMsgs l.a.sent + lkSends op ∧
      (ofLibrary op = true → l.stepA ch op ≠ l → lkMeasure (l.stepA ch op) fs' gs' < lkMeasure l fs gs) := by
  cases op with
  | send c =>
    obtain ⟨h1, h2⟩ := lk_send hch h hfit.1 hfit.2 hs
    refine ⟨fs, gs, h1, ?_, ?_, by intro x; cases x⟩
    · rw [h2, List.map_append]; rfl
    · rw [h2, lk_msgs_append, lk_msgs_one, if_pos rfl]; rfl
  | reply err c =>
    obtain ⟨h1, h2⟩ := lk_reply hch h hfit.1 hfit.2
    refine ⟨fs, gs, h1, ?_, ?_, by intro x; cases x⟩
    · unfold Link.stepA
      rw [if_neg (by simp [h.selfA.shut])]
      show (l.a.reply ch err c).sent.map lkKind = _
      unfold Endpoint.reply asksNow
      cases l.a.chan.inc.pending with
      | nil => simp
      | cons m ms => simp [lkKind]
    · rcases h2 with h2 | ⟨t, m, h2, h3⟩
      · rw [h2]; rfl
      · rw [h3, lk_msgs_append, lk_msgs_one, if_neg h2]; rfl
  | setWindow n =>
    refine ⟨fs, gs, lk_setWindow hch h hfit, ?_, ?_, by intro x; cases x⟩
    · unfold Link.stepA; rw [if_neg (by simp [h.selfA.shut])]; simp [asksNow]
    · unfold Link.stepA; rw [if_neg (by simp [h.selfA.shut])]; rfl
  | round =>
    rcases lk_round hch h with ⟨h1, _⟩ | ⟨f, header, h1, h2, h3, h4, h5, h6, h7, h8, h9, h10, h11, h12, h13⟩
    · rw [h1]
      exact ⟨fs, gs, h, by simp [asksNow], rfl, fun _ x => absurd rfl x⟩
    · refine ⟨fs ++ [f], gs, h1, by rw [h11]; simp [asksNow], by rw [h11]; rfl, fun _ _ => ?_⟩
      unfold lkMeasure
      rw [h2, h3, h10, lk_data_snoc, if_neg h4]
      unfold bodyOf
      rw [if_neg h4]
      have e1 : (lit "END").length = 3 := rfl
      have e2 : crlf.length = 2 := rfl
      simp only [List.length_append, e1, e2, List.length_cons, List.length_nil]
      omega
  | read k =>
    obtain ⟨r1, r2⟩ := hr k rfl
    by_cases hk : l.ba.take k = []
    · have e : l.stepA ch (.read k) = l := by
        unfold Link.stepA; rw [if_neg (by simp [h.selfA.shut])]; simp only [if_pos hk]
      rw [e]
      refine ⟨fs, gs, ?_, by simp [asksNow], rfl, fun _ x => absurd rfl x⟩
      show LinkInv ch l (interruptions na l.a.rd (l.ba.take k)) nb fs gs opsA opsB NA NB
      rw [hk, lk_interruptions_nil]
      exact h
    · obtain ⟨fs', gs', h1, h2, h3, h4, h5, h6, h7⟩ := lk_read hch h hk r1 r2
      refine ⟨fs', gs', h1, by rw [h3]; simp [asksNow], by rw [h3]; rfl, fun _ _ => ?_⟩
      unfold lkMeasure
      rw [h2, h4, h6]
      omega

theorem lk_acks_stepA (ch : Int) (l : Link) (op : LinkOp) : ∀ n ∈ l.a.acks, n ∈ (l.stepA ch op).a.acks := by
  intro n hn
  unfold Link.stepA
  split
  · exact hn
  · cases op with
    | send c =>
      simp only
      unfold Endpoint.send
      split <;> exact hn
    | reply err c =>
      simp only
      unfold Endpoint.reply
      split <;> exact hn
    | setWindow n => exact hn
    | round =>
      simp only
      unfold Endpoint.round
      split
      · exact hn
      · exact hn
      · split <;> exact hn
    | read k =>
      simp only
      split
      · exact hn
      · unfold Endpoint.read
        split
        · unfold Endpoint.handle
          split
          · split <;> exact hn
          · simp only
            split
            · exact List.mem_append_left _ hn
            · exact hn
        · exact hn
        · exact hn

theorem lk_acks_step (ch : Int) (l : Link) (s : Bool) (op : LinkOp) (n : Nat) (hn : n ∈ l.a.acks ++ l.b.acks) :
    n ∈ (l.step ch s op).a.acks ++ (l.step ch s op).b.acks := by
  unfold Link.step
  simp only [List.mem_append] at hn ⊢
  cases s with
  | true =>
    simp only [if_true]
    rw [lk_step_b]
    exact hn.imp (lk_acks_stepA ch l op n) id
  | false =>
    simp only [Bool.false_eq_true, if_false]
    have hb : (l.swap.stepA ch op).swap.a = l.a := lk_step_b ch l.swap op
    rw [hb]
    exact hn.imp id (lk_acks_stepA ch l.swap op n)

theorem lk_acks_run (ch : Int) : ∀ (ops : List (Bool × LinkOp)) (l : Link) (n : Nat), n ∈ l.a.acks ++ l.b.acks →
    n ∈ (l.run ch ops).a.acks ++ (l.run ch ops).b.acks
  | [], _, _, h => h
  | (s, op) :: ops, l, n, h => lk_acks_run ch ops (l.step ch s op) n (lk_acks_step ch l s op n h)

theorem lk_fit_cons {s op ops} (h : contentsFit ((s, op) :: ops)) : lkFits op ∧ contentsFit ops := by
  cases op with
  | send c => exact ⟨⟨h.1, h.2.1⟩, h.2.2⟩
  | reply e c => exact ⟨⟨h.1, h.2.1⟩, h.2.2⟩
  | setWindow n => exact h
  | round => exact ⟨trivial, h⟩
  | read k => exact ⟨trivial, h⟩

theorem lk_direction_own (s : Bool) (op ops) : direction s ((s, op) :: ops) = lkQueued op ++ direction s ops := by
  cases op <;> simp [direction, lkQueued]

theorem lk_direction_other (s t : Bool) (h : t ≠ s) (op ops) : direction t ((s, op) :: ops) = lkWindows op ++ direction t ops := by
  have h' : s ≠ t := fun e => h e.symm
  cases op <;> simp [direction, lkWindows, h']

theorem lk_asked_own (s : Bool) (op ops) : (askedBy s ((s, op) :: ops)).length = lkSends op + (askedBy s ops).length := by
  cases op <;> simp [askedBy, lkSends]
  omega

theorem lk_asked_other (s t : Bool) (h : t ≠ s) (op ops) : askedBy t ((s, op) :: ops) = askedBy t ops := by
  have h' : s ≠ t := fun e => h e.symm
  cases op <;> simp [askedBy, h']

/-- The interruptions of both readers after a history. -/
def lkCounts (ch : Int) (l : Link) (na nb : Nat) : List (Bool × LinkOp) → Nat × Nat
  | [] => (na, nb)
  | (s, op) :: ops => lkCounts ch (l.step ch s op) (if s then lkCount na l op else na) (if s then nb else lkCount nb l.swap op) ops

theorem lk_patient_cons {ch l na nb s op ops} (h : patient ch l na nb ((s, op) :: ops) = true) :
    (∀ k, op = .read k → (if s then interruptions na l.a.rd (l.ba.take k) else interruptions nb l.b.rd (l.ab.take k)) ≤ 25) ∧
    patient ch (l.step ch s op) (if s then lkCount na l op else na) (if s then nb else lkCount nb l.swap op) ops = true := by
  cases s <;> cases op <;> simp only [patient, Bool.and_eq_true, decide_eq_true_eq] at h <;>
    simp only [lkCount, Bool.false_eq_true, if_false, if_true, ite_self]
  all_goals first
    | exact ⟨(by intro k e; cases e), h⟩
    | (refine ⟨?_, h.2⟩; intro k e; injection e with e; subst e; exact h.1)

theorem lk_patient_append {ch} : ∀ (ops more : List (Bool × LinkOp)) (l : Link) (na nb : Nat),
    patient ch l na nb (ops ++ more) =
      (patient ch l na nb ops && patient ch (l.run ch ops) (lkCounts ch l na nb ops).1 (lkCounts ch l na nb ops).2 more)
  | [], more, l, na, nb => by simp [patient, Link.run, lkCounts]
  | (s, op) :: ops, more, l, na, nb => by
    have ih := fun na nb => lk_patient_append (ch := ch) ops more (l.step ch s op) na nb
    cases s <;> cases op <;> simp [patient, Link.run, lkCounts, lkCount, ih, Bool.and_assoc, Link.swap]

theorem lk_run_append (ch : Int) : ∀ (ops more : List (Bool × LinkOp)) (l : Link), l.run ch (ops ++ more) = (l.run ch ops).run ch more
  | [], _, _ => rfl
  | (s, op) :: ops, more, l => lk_run_append ch ops more (l.step ch s op)

/-- One step of one of the two. -/
theorem lk_step {ch : Nat} (hch : ch < 2147483648) {l na nb fs gs NA NB} {s : Bool} {op : LinkOp} {ops : List (Bool × LinkOp)}
    (h : LinkInv ch l na nb fs gs (direction true ((s, op) :: ops)) (direction false ((s, op) :: ops)) NA NB)
    (hfit : lkFits op)
    (hsA : lkMsgs l.a.sent + (askedBy true ((s, op) :: ops)).length ≤ 2147483648)
    (hsB : lkMsgs l.b.sent + (askedBy false ((s, op) :: ops)).length ≤ 2147483648)
    (hp : ∀ k, op = .read k → (if s then interruptions na l.a.rd (l.ba.take k) else interruptions nb l.b.rd (l.ab.take k)) ≤ 25)
    (hack : acksReadable (l.step ch s op) ∨ (NA < 4294967294 ∧ NB < 4294967294)) :
    ∃ fs' gs', LinkInv ch (l.step ch s op) (if s then lkCount na l op else na) (if s then nb else lkCount nb l.swap op) fs' gs'
        (direction true ops) (direction false ops) NA NB ∧
      (l.step ch s op).a.sent.map lkKind = l.a.sent.map lkKind ++ (if s = true then asksNow l.a op else []) ∧
      (l.step ch s op).b.sent.map lkKind = l.b.sent.map lkKind ++ (if s = false then asksNow l.b op else []) ∧
      lkMsgs (l.step ch s op).a.sent + (askedBy true ops).length ≤ 2147483648 ∧
      lkMsgs (l.step ch s op).b.sent + (askedBy false ops).length ≤ 2147483648 ∧
      (ofLibrary op = true → l.step ch s op ≠ l → lkMeasure (l.step ch s op) fs' gs' < lkMeasure l fs gs) := by
  cases s with
  | true =>
    rw [lk_direction_own, lk_direction_other true false (by decide)] at h
    rw [lk_asked_own] at hsA
    rw [lk_asked_other true false (by decide)] at hsB
    have e : l.step ch true op = l.stepA ch op := by unfold Link.step; rw [if_pos rfl]
    have hb := lk_step_b ch l op
    rw [e] at hack ⊢
    obtain ⟨fs', gs', h1, h2, h3, h4⟩ := lk_stepA hch h hfit (by omega) (by
      intro k ek
      refine ⟨by simpa using hp k ek, ?_⟩
      rcases hack with hack | hack
      · exact .inl (fun n hn => hack n (List.mem_append_left _ hn))
      · exact .inr hack.2)
    refine ⟨fs', gs', h1, by rw [h2]; simp, by rw [hb]; simp, by omega, by rw [hb]; exact hsB, h4⟩
  | false =>
    rw [lk_direction_own, lk_direction_other false true (by decide)] at h
    rw [lk_asked_own] at hsB
    rw [lk_asked_other false true (by decide)] at hsA
    have e : l.step ch false op = (l.swap.stepA ch op).swap := by unfold Link.step; rw [if_neg (by decide)]
    have hb : (l.swap.stepA ch op).swap.a = l.a := lk_step_b ch l.swap op
    rw [e] at hack ⊢
    obtain ⟨fs', gs', h1, h2, h3, h4⟩ := lk_stepA hch h.swap hfit (by show lkMsgs l.b.sent + _ ≤ _; omega) (by
      intro k ek
      refine ⟨by have := hp k ek; rw [if_neg (by decide)] at this; exact this, ?_⟩
      rcases hack with hack | hack
      · exact .inl (fun n hn => hack n (List.mem_append_right _ hn))
      · exact .inr hack.1)
    refine ⟨gs', fs', h1.swap, by rw [hb]; simp, ?_, by rw [hb]; exact hsA, ?_, ?_⟩
    · show (l.swap.stepA ch op).a.sent.map lkKind = _
      rw [h2]; rfl
    · show lkMsgs (l.swap.stepA ch op).a.sent + _ ≤ _
      rw [h3]; show lkMsgs l.b.sent + _ + _ ≤ _; omega
    · intro x y
      have := h4 x (fun z => y (by rw [z]; rfl))
      rw [lk_measure_swap l fs gs] at this
      rw [lk_measure_swap (l.swap.stepA ch op) fs' gs']
      exact this

/-- A history. -/
theorem lk_run {ch : Nat} (hch : ch < 2147483648) : ∀ (ops : List (Bool × LinkOp)) {l : Link} {na nb : Nat} {fs gs : List Frame} {NA NB : Nat},
    LinkInv ch l na nb fs gs (direction true ops) (direction false ops) NA NB → contentsFit ops →
    lkMsgs l.a.sent + (askedBy true ops).length ≤ 2147483648 → lkMsgs l.b.sent + (askedBy false ops).length ≤ 2147483648 →
    patient ch l na nb ops = true → (acksReadable (l.run ch ops) ∨ (NA < 4294967294 ∧ NB < 4294967294)) →
    (l.run ch ops).a.sent.map lkKind = l.a.sent.map lkKind ++ asksToSend ch true l ops ∧
    (l.run ch ops).b.sent.map lkKind = l.b.sent.map lkKind ++ asksToSend ch false l ops ∧
    ∃ fs' gs', LinkInv ch (l.run ch ops) (lkCounts ch l na nb ops).1 (lkCounts ch l na nb ops).2 fs' gs' [] [] NA NB ∧
      lkMsgs (l.run ch ops).a.sent ≤ 2147483648 ∧ lkMsgs (l.run ch ops).b.sent ≤ 2147483648 ∧
      (allMove ch l ops → lkMeasure (l.run ch ops) fs' gs' + ops.length ≤ lkMeasure l fs gs)
  | [], l, na, nb, fs, gs, NA, NB, h, _, h1, h2, _, _ =>
    ⟨by simp [Link.run, asksToSend], by simp [Link.run, asksToSend], fs, gs, h, h1, h2, fun _ => by simp [Link.run]⟩
  | (s, op) :: ops, l, na, nb, fs, gs, NA, NB, h, hfit, h1, h2, hp, hack => by
    obtain ⟨f1, f2⟩ := lk_fit_cons hfit
    obtain ⟨p1, p2⟩ := lk_patient_cons hp
    obtain ⟨fs', gs', i1, i2, i3, i4, i5, i6⟩ := lk_step hch h f1 h1 h2 p1
      (hack.imp (fun x n hn => x n (lk_acks_run ch ops _ n hn)) id)
    obtain ⟨r1, r2, fs2, gs2, r3, r4, r5, r6⟩ := lk_run hch ops i1 f2 i4 i5 p2 hack
    refine ⟨?_, ?_, fs2, gs2, r3, r4, r5, ?_⟩
    · show (((l.step ch s op).run ch ops).a.sent.map lkKind) = _
      rw [r1, i2, List.append_assoc]; cases s <;> rfl
    · show (((l.step ch s op).run ch ops).b.sent.map lkKind) = _
      rw [r2, i3, List.append_assoc]; cases s <;> rfl
    · intro hm
      have a := i6 hm.1 hm.2.1
      have b := r6 hm.2.2
      simp only [List.length_cons]
      show lkMeasure ((l.step ch s op).run ch ops) fs2 gs2 + _ ≤ _
      omega

theorem lk_octets (side : Bool) : ∀ ops, lkOctets (direction side ops) = octetsAsked side ops
  | [] => rfl
  | (s, op) :: ops => by
    have ih := lk_octets side ops
    unfold lkOctets at ih ⊢
    by_cases hs : s = side
    · cases op <;> simp [direction, octetsAsked, hs, ih, peersOctets]
    · cases op <;> simp [direction, octetsAsked, hs, ih, peersOctets]

theorem LinkInv.init (ch : Nat) (opsA opsB : List PeersOp) (hA : GrowEarly 0 4096 opsA) (hB : GrowEarly 0 4096 opsB) :
    LinkInv ch .init 0 0 [] [] opsA opsB (lkOctets opsA) (lkOctets opsB) := by
  have hs : Self Endpoint.init := ⟨rfl, rfl, rfl, rfl, Nat.le_refl _, by decide⟩
  have hd : Side ch Endpoint.init Endpoint.init [] [] [] := by
    refine ⟨rfl, rfl, lk_fragments_nil _ _ _, ?_, trivial, rfl, Nat.le_refl _, rfl, rfl, Nat.le_refl _, rfl, rfl, rfl, by decide, ?_⟩
    · intro x hx; cases hx
    · intro x hx; cases hx
  exact ⟨hs, hs, ⟨rfl, rfl, rfl⟩, ⟨rfl, rfl, rfl⟩, (by intro f hf; cases hf), (by intro f hf; cases hf),
    ⟨_, _, _, _, _, _, PeersInv.init ch, hA, by omega⟩, ⟨_, _, _, _, _, _, PeersInv.init ch, hB, by omega⟩, ⟨[], [], hd⟩, ⟨[], [], hd⟩⟩

/-! ### Rest -/

/-- Reading everything there is never ends inside of a header line. -/
theorem lk_full_read {n st bytes fs} (h : Progress n st bytes fs) (hb : bytes ≠ []) : interruptions n st bytes = 0 := by
  unfold interruptions
  rw [if_neg hb]
  cases fs with
  | nil => exact absurd h.2.2 hb
  | cons f fs =>
    obtain ⟨hl, header, rest, hh, hw, hp⟩ := h
    have hL := (hl f List.mem_cons_self).1
    obtain ⟨h0, hshape, _, _⟩ := (headerOf_line f hL header hh).shape
    rcases hp with ⟨got, left, rfl, hgl, hne, hbytes, hgn⟩ | ⟨rfl, ht, got, left, rfl, hgl, hne, hbytes⟩
    · rw [if_neg]
      rintro ⟨_, hlf⟩
      apply hlf
      rw [hbytes]
      apply List.mem_append_left
      have e : left = left.dropLast ++ [left.getLast hne] := (List.dropLast_concat_getLast hne).symm
      have e2 : (got ++ left).getLast? = some LF := by rw [hgl, hshape]; simp [crlf]
      rw [e, ← List.append_assoc, List.getLast?_concat] at e2
      injection e2 with e2
      rw [e, e2]; simp
    · rw [if_neg]
      rintro ⟨h1, _⟩
      cases h1

theorem lk_stepA_read_moves {ch : Nat} (hch : ch < 2147483648) {l na nb fs gs opsA opsB NA NB}
    (h : LinkInv ch l na nb fs gs opsA opsB NA NB) (hba : l.ba ≠ [])
    (hack : (∀ n ∈ (l.stepA ch (.read l.ba.length)).a.acks, n < 4294967294) ∨ NB < 4294967294) :
    l.stepA ch (.read l.ba.length) ≠ l := by
  have hi := lk_full_read h.rdA hba
  obtain ⟨fs', gs', h1, h2, h3, h4, h5, h6, h7⟩ := lk_read (k := l.ba.length) hch h (by rw [List.take_length]; exact hba)
    (by rw [List.take_length, hi]; omega) hack
  intro e
  rw [e] at h5
  omega

/-- With nothing on its way, the sender may send. -/
theorem lk_not_stalled {ch : Nat} {s r : SendChan} {w S E C c0 total last} (h : PeersInv ch ⟨s, w, [], []⟩ S E C c0 total last) :
    s.win.stalled = false := by
  have h1 : E = S := h.data
  have h2 : c0 = C ∧ s.win.remoteWindow = w.windowSize := h.seqs
  have h3 := h.half
  have h4 := h.rc
  have h5 := h.snd.seq
  have h6 := h.rcv.ce
  have h7 := h.rcv.wlt
  have h8 := h.rcv.wpos
  simp only at h3 h4 h5 h7 h8
  unfold SendWin.stalled
  rw [h5, h4, h2.2]
  have : S % 4294967296 ≠ u32 (((c0 % 4294967296 : Nat) : Int) + w.windowSize) := by
    unfold u32; omega
  simpa using this

/-- Nobody can do anything: everything was delivered. -/
theorem lk_rest {ch : Nat} (hch : ch < 2147483648) {l na nb fs gs opsA opsB NA NB}
    (h : LinkInv ch l na nb fs gs opsA opsB NA NB) (hr : atRest ch l)
    (hack : acksReadable l ∨ (NA < 4294967294 ∧ NB < 4294967294)) :
    l.b.got.map seenAs = l.a.sent ∧ l.a.got.map seenAs = l.b.sent := by
  have key : ∀ {l : Link} {na nb fs gs opsA opsB NA NB}, LinkInv ch l na nb fs gs opsA opsB NA NB →
      (∀ op, ofLibrary op = true → l.stepA ch op = l) → ((∀ n ∈ l.a.acks, n < 4294967294) ∨ NB < 4294967294) → l.ba = [] := by
    intro l na nb fs gs opsA opsB NA NB h hr hack
    by_cases hb : l.ba = []
    · exact hb
    · have hm := lk_stepA_read_moves hch h hb (by rw [hr _ rfl]; exact hack)
      exact absurd (hr _ rfl) hm
  have hrA : ∀ op, ofLibrary op = true → l.stepA ch op = l := fun op ho => by
    have := hr true op ho; unfold Link.step at this; rwa [if_pos rfl] at this
  have hrB : ∀ op, ofLibrary op = true → l.swap.stepA ch op = l.swap := fun op ho => by
    have := hr false op ho; unfold Link.step at this; rw [if_neg (by decide)] at this
    exact congrArg Link.swap this
  have hba : l.ba = [] := key h hrA (hack.imp (fun x n hn => x n (List.mem_append_left _ hn)) (·.2))
  have hab : l.ab = [] := key h.swap hrB (hack.imp (fun x n hn => x n (List.mem_append_right _ hn)) (·.1))
  have hgs : gs = [] := by have := h.rdA; rw [hba] at this; exact this.empty
  have hfs : fs = [] := by have := h.rdB; rw [hab] at this; exact this.empty
  subst hgs hfs
  have key2 : ∀ {l : Link} {na nb opsA opsB NA NB}, LinkInv ch l na nb [] [] opsA opsB NA NB →
      (∀ op, ofLibrary op = true → l.stepA ch op = l) → l.b.got.map seenAs = l.a.sent := by
    intro l na nb opsA opsB NA NB h hr
    obtain ⟨S, E, C, c0, total, last, h1, _⟩ := h.flowA
    have hst := lk_not_stalled (r := l.a.snd) h1
    have hp : l.a.snd.pending = [] := by
      rcases lk_round hch h with ⟨_, h2 | h2⟩ | ⟨f, header, _, h2, _, _, _, _, _, _, h9, _⟩
      · rw [hst] at h2; cases h2
      · exact h2
      · rw [hr .round rfl] at h2
        have := congrArg List.length h2
        simp only [List.length_append] at this
        have := List.length_pos_iff.mpr h9
        omega
    obtain ⟨rest, acc, sA⟩ := h.sideA
    have hc := sA.carries
    rw [hp] at hc
    have := lk_carries_done hc
    rw [sA.split, this, List.append_nil]
  exact ⟨key2 h hrA, key2 h.swap hrB⟩

/-- No patient step does anything: rest. -/
theorem lk_quiet {ch : Nat} (hch : ch < 2147483648) {l na nb fs gs opsA opsB NA NB} (hN : NA < 4294967294 ∧ NB < 4294967294)
    (h : LinkInv ch l na nb fs gs opsA opsB NA NB)
    (hall : ∀ s op, ofLibrary op = true →
        (∀ k, op = .read k → (if s then interruptions na l.a.rd (l.ba.take k) else interruptions nb l.b.rd (l.ab.take k)) ≤ 25) →
        l.step ch s op = l) : atRest ch l := by
  have hba : l.ba = [] := by
    by_cases hb : l.ba = []
    · exact hb
    · exfalso
      refine lk_stepA_read_moves hch h hb (.inr hN.2) ?_
      have := hall true (.read l.ba.length) rfl (by
        intro k e; injection e with e; subst e; rw [if_pos rfl, List.take_length, lk_full_read h.rdA hb]; omega)
      unfold Link.step at this; rwa [if_pos rfl] at this
  have hab : l.ab = [] := by
    by_cases hb : l.ab = []
    · exact hb
    · exfalso
      refine lk_stepA_read_moves hch h.swap hb (.inr hN.1) ?_
      have := hall false (.read l.ab.length) rfl (by
        intro k e; injection e with e; subst e; rw [if_neg (by decide), List.take_length, lk_full_read h.rdB hb]; omega)
      unfold Link.step at this; rw [if_neg (by decide)] at this
      exact congrArg Link.swap this
  have hno : ∀ (l : Link) k, l.ba = [] → l.stepA ch (.read k) = l := by
    intro l k hb
    unfold Link.stepA
    split
    · rfl
    · simp [hb]
  intro s op ho
  cases op with
  | round => exact hall s .round rfl (by intro k e; cases e)
  | read k =>
    unfold Link.step
    cases s with
    | true => rw [if_pos rfl]; exact hno l k hba
    | false => rw [if_neg (by decide), hno l.swap k hab]; rfl
  | _ => cases ho

/-- There is always a way to rest. -/
theorem lk_reach_rest {ch : Nat} (hch : ch < 2147483648) {NA NB : Nat} (hN : NA < 4294967294 ∧ NB < 4294967294) :
    ∀ (n : Nat) {l : Link} {na nb : Nat} {fs gs : List Frame}, LinkInv ch l na nb fs gs [] [] NA NB → lkMsgs l.a.sent ≤ 2147483648 →
      lkMsgs l.b.sent ≤ 2147483648 → lkMeasure l fs gs < n →
      ∃ more, allMove ch l more ∧ patient ch l na nb more = true ∧ atRest ch (l.run ch more) ∧
        (∀ x ∈ more, ofLibrary x.2 = true) := by
  intro n
  induction n with
  | zero =>
    intro l na nb fs gs h h1 h2 hm
    have := lk_measure_nonneg h
    omega
  | succ n ih =>
    intro l na nb fs gs h h1 h2 hm
    by_cases hall : ∀ s op, ofLibrary op = true →
        (∀ k, op = .read k → (if s then interruptions na l.a.rd (l.ba.take k) else interruptions nb l.b.rd (l.ab.take k)) ≤ 25) →
        l.step ch s op = l
    · exact ⟨[], trivial, rfl, lk_quiet hch hN h hall, by intro x hx; cases hx⟩
    · simp only [Classical.not_forall] at hall
      obtain ⟨s, op, ho, hp, hx⟩ := hall
      have hd : ∀ t, direction t [(s, op)] = [] := by intro t; cases op <;> first | rfl | cases ho
      have ha : ∀ t, askedBy t [(s, op)] = [] := by intro t; cases op <;> first | rfl | cases ho
      obtain ⟨fs', gs', i1, _, _, i4, i5, i6⟩ := lk_step (ops := []) (s := s) (op := op) hch (by rw [hd, hd]; exact h)
        (by cases op <;> first | trivial | cases ho) (by rw [ha]; exact h1) (by rw [ha]; exact h2) hp (.inr hN)
      have hlt := i6 ho hx
      obtain ⟨more, m1, m2, m3, m4⟩ := ih i1 i4 i5 (by omega)
      refine ⟨(s, op) :: more, ⟨ho, hx, m1⟩, ?_, m3, ?_⟩
      · cases s <;> cases op <;>
          first
          | (cases ho; done)
          | exact m2
          | (simp only [patient, Bool.and_eq_true, decide_eq_true_eq]; exact ⟨by have := hp _ rfl; simpa using this, m2⟩)
      · intro x hx
        rcases List.mem_cons.mp hx with hx | hx
        · subst hx; exact ho
        · exact m4 x hx

end Verif.Proof
