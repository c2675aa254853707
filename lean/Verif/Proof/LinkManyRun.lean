import Verif.Proof.LinkMany
/-! Two endpoints with several channels: histories. -/
namespace Verif.Proof
open Verif.Model Verif.Spec

theorem mk_step_b (chs) (m : ManyLink) (op : ManyOp) : (m.stepA chs op).b = m.b := by
  unfold ManyLink.stepA
  split
  · rfl
  · cases op with
    | _ => simp only; split <;> rfl

theorem mk_acks_put (e : ManyEnd) (c d : Nat) (x : Endpoint) (h : ∀ n ∈ (e.chans c).acks, n ∈ x.acks) :
    ∀ n ∈ (e.chans d).acks, n ∈ ((e.put c x).chans d).acks := by
  intro n hn
  by_cases hd : d = c
  · subst hd; rw [mk_put_self]; exact h n hn
  · rw [mk_put_other _ _ _ _ hd]; exact hn

theorem mk_acks_round (e : Endpoint) : e.round.1.acks = e.acks := by
  unfold Endpoint.round
  split
  · rfl
  · rfl
  · split <;> rfl

theorem mk_acks_stepA (chs) (m : ManyLink) (op : ManyOp) (d : Nat) : ∀ n ∈ (m.a.chans d).acks, n ∈ ((m.stepA chs op).a.chans d).acks := by
  intro n hn
  unfold ManyLink.stepA
  split
  · exact hn
  · cases op with
    | send c x =>
      simp only
      split
      · refine mk_acks_put _ _ _ _ ?_ n hn
        intro n hn; unfold Endpoint.send; split <;> exact hn
      · exact hn
    | reply c err x =>
      simp only
      split
      · refine mk_acks_put _ _ _ _ ?_ n hn
        intro n hn; unfold Endpoint.reply; split <;> exact hn
      · exact hn
    | setWindow c x =>
      simp only
      split
      · exact mk_acks_put m.a c d { m.a.chans c with chan := { (m.a.chans c).chan with win := (m.a.chans c).chan.win.setWindow x } } (fun n hn => hn) n hn
      · exact hn
    | round c =>
      simp only
      split
      · refine mk_acks_put m.a c d { (Endpoint.round { m.a.chans c with buf := m.a.buf }).1 with buf := (m.a.chans c).buf } ?_ n hn
        intro n hn
        show n ∈ (Endpoint.round { m.a.chans c with buf := m.a.buf }).1.acks
        rw [mk_acks_round]; exact hn
      · exact hn
    | read k =>
      simp only
      split
      · exact hn
      · unfold ManyEnd.read
        split
        · rename_i f rd rest _
          refine mk_acks_put m.a f.channel.toNat d ((m.a.chans f.channel.toNat).handle f.channel f).1 ?_ n hn
          intro n hn
          unfold Endpoint.handle
          split
          · split <;> exact hn
          · simp only
            split
            · exact List.mem_append_left _ hn
            · exact hn
        · exact hn
        · exact hn

theorem mk_acks_step (chs) (m : ManyLink) (s : Bool) (op : ManyOp) (c n : Nat) (hn : n ∈ (m.a.chans c).acks ++ (m.b.chans c).acks) :
    n ∈ ((m.step chs s op).a.chans c).acks ++ ((m.step chs s op).b.chans c).acks := by
  unfold ManyLink.step
  simp only [List.mem_append] at hn ⊢
  cases s with
  | true =>
    simp only [if_true]
    rw [mk_step_b]
    exact hn.imp (mk_acks_stepA chs m op c n) id
  | false =>
    simp only [Bool.false_eq_true, if_false]
    have hb : (m.swap.stepA chs op).swap.a = m.a := mk_step_b chs m.swap op
    rw [hb]
    exact hn.imp id (mk_acks_stepA chs m.swap op c n)

theorem mk_acks_run (chs) : ∀ (ops : List (Bool × ManyOp)) (m : ManyLink) (c n : Nat), n ∈ (m.a.chans c).acks ++ (m.b.chans c).acks →
    n ∈ ((m.run chs ops).a.chans c).acks ++ ((m.run chs ops).b.chans c).acks
  | [], _, _, _, h => h
  | (s, op) :: ops, m, c, n, h => mk_acks_run chs ops (m.step chs s op) c n (mk_acks_step chs m s op c n h)

/-- The interruptions of both readers after a history. -/
def mkCounts (chs : List Nat) (m : ManyLink) (na nb : Nat) : List (Bool × ManyOp) → Nat × Nat
  | [] => (na, nb)
  | (s, op) :: ops => mkCounts chs (m.step chs s op) (if s then mkCount na m op else na) (if s then nb else mkCount nb m.swap op) ops

theorem mk_patient_cons {chs m na nb s op ops} (h : manyPatient chs m na nb ((s, op) :: ops) = true) :
    (∀ k, op = .read k → (if s then interruptions na m.a.rd (m.ba.take k) else interruptions nb m.b.rd (m.ab.take k)) ≤ 25) ∧
    manyPatient chs (m.step chs s op) (if s then mkCount na m op else na) (if s then nb else mkCount nb m.swap op) ops = true := by
  cases s <;> cases op <;> simp only [manyPatient, Bool.and_eq_true, decide_eq_true_eq] at h <;>
    simp only [mkCount, Bool.false_eq_true, if_false, if_true, ite_self]
  all_goals first
    | exact ⟨(by intro k e; cases e), h⟩
    | (refine ⟨?_, h.2⟩; intro k e; injection e with e; subst e; exact h.1)

theorem mk_patient_append {chs} : ∀ (ops more : List (Bool × ManyOp)) (m : ManyLink) (na nb : Nat),
    manyPatient chs m na nb (ops ++ more) =
      (manyPatient chs m na nb ops && manyPatient chs (m.run chs ops) (mkCounts chs m na nb ops).1 (mkCounts chs m na nb ops).2 more)
  | [], more, m, na, nb => by simp [manyPatient, ManyLink.run, mkCounts]
  | (s, op) :: ops, more, m, na, nb => by
    have ih := fun na nb => mk_patient_append (chs := chs) ops more (m.step chs s op) na nb
    cases s <;> cases op <;> simp [manyPatient, ManyLink.run, mkCounts, mkCount, ih, Bool.and_assoc, ManyLink.swap]

theorem mk_run_append (chs) : ∀ (ops more : List (Bool × ManyOp)) (m : ManyLink), m.run chs (ops ++ more) = (m.run chs ops).run chs more
  | [], _, _ => rfl
  | (s, op) :: ops, more, m => mk_run_append chs ops more (m.step chs s op)

theorem mk_direction_own (s : Bool) (c : Nat) (op ops) :
    direction s (onChannel c ((s, op) :: ops)) = mkQueued c op ++ direction s (onChannel c ops) := by
  cases op with
  | read k => simp [onChannel, mkQueued]
  | _ d => by_cases hd : d = c <;> simp [onChannel, mkQueued, direction, hd]

theorem mk_direction_other (s t : Bool) (h : t ≠ s) (c : Nat) (op ops) :
    direction t (onChannel c ((s, op) :: ops)) = mkWindows c op ++ direction t (onChannel c ops) := by
  have h' : s ≠ t := fun e => h e.symm
  cases op with
  | read k => simp [onChannel, mkWindows]
  | _ d => by_cases hd : d = c <;> simp [onChannel, mkWindows, direction, hd, h']

theorem mk_asked_own (s : Bool) (c : Nat) (op ops) :
    (askedBy s (onChannel c ((s, op) :: ops))).length = mkSends c op + (askedBy s (onChannel c ops)).length := by
  cases op with
  | read k => simp [onChannel, mkSends]
  | send d x => by_cases hd : d = c <;> simp [onChannel, mkSends, askedBy, hd]; omega
  | _ d => by_cases hd : d = c <;> simp [onChannel, mkSends, askedBy, hd]

theorem mk_asked_other (s t : Bool) (h : t ≠ s) (c : Nat) (op ops) :
    askedBy t (onChannel c ((s, op) :: ops)) = askedBy t (onChannel c ops) := by
  have h' : s ≠ t := fun e => h e.symm
  cases op with
  | read k => simp [onChannel]
  | _ d => by_cases hd : d = c <;> simp [onChannel, askedBy, hd, h']

/-- Contents and windows of the channels that exist. -/
def mkFit (chs : List Nat) (ops : List (Bool × ManyOp)) : Prop := ∀ c ∈ chs, contentsFit (onChannel c ops)

/-- One step of `a` on a channel that does not exist. -/
theorem mk_stepA_none (chs) (m : ManyLink) (op : ManyOp) (c : Nat) (hc : c ∉ chs)
    (h : (∃ x, op = .send c x) ∨ (∃ e x, op = .reply c e x) ∨ ∃ n, op = .setWindow c n) : m.stepA chs op = m := by
  unfold ManyLink.stepA
  split
  · rfl
  · rcases h with ⟨x, rfl⟩ | ⟨e, x, rfl⟩ | ⟨n, rfl⟩ <;> simp only [if_neg hc]

theorem mk_fit_tail {chs s op ops} (h : mkFit chs ((s, op) :: ops)) : mkFit chs ops := by
  intro c hc
  have := h c hc
  cases op with
  | read k => exact this
  | send d x =>
    by_cases hd : d = c
    · simp only [onChannel, if_pos hd, contentsFit] at this; exact this.2.2
    · simpa only [onChannel, if_neg hd] using this
  | reply d e x =>
    by_cases hd : d = c
    · simp only [onChannel, if_pos hd, contentsFit] at this; exact this.2.2
    · simpa only [onChannel, if_neg hd] using this
  | setWindow d n =>
    by_cases hd : d = c
    · simp only [onChannel, if_pos hd, contentsFit] at this; exact this.2
    · simpa only [onChannel, if_neg hd] using this
  | round d =>
    by_cases hd : d = c
    · simp only [onChannel, if_pos hd, contentsFit] at this; exact this
    · simpa only [onChannel, if_neg hd] using this

/-- Either the step fits or its channel does not exist. -/
theorem mk_fit_head {chs s op ops} (h : mkFit chs ((s, op) :: ops)) : mkFits op ∨
    ∃ c, c ∉ chs ∧ ((∃ x, op = .send c x) ∨ (∃ e x, op = .reply c e x) ∨ ∃ n, op = .setWindow c n) := by
  cases op with
  | read k => exact .inl trivial
  | round k => exact .inl trivial
  | send d x =>
    by_cases hd : d ∈ chs
    · have := h d hd
      simp only [onChannel, if_true, contentsFit] at this
      exact .inl ⟨this.1, this.2.1⟩
    · exact .inr ⟨d, hd, .inl ⟨x, rfl⟩⟩
  | reply d e x =>
    by_cases hd : d ∈ chs
    · have := h d hd
      simp only [onChannel, if_true, contentsFit] at this
      exact .inl ⟨this.1, this.2.1⟩
    · exact .inr ⟨d, hd, .inr (.inl ⟨e, x, rfl⟩)⟩
  | setWindow d n =>
    by_cases hd : d ∈ chs
    · have := h d hd
      simp only [onChannel, if_true, contentsFit] at this
      exact .inl this.1
    · exact .inr ⟨d, hd, .inr (.inr ⟨n, rfl⟩)⟩

/-- One step of `a`, on a channel that exists or not. -/
theorem mk_stepA' {chs : List Nat} (hchs : ∀ c ∈ chs, c < 2147483648) {m na nb FS GS opsA opsB NA NB} {op : ManyOp}
    (h : ManyInv chs m na nb FS GS (fun c => mkQueued c op ++ opsA c) (fun c => mkWindows c op ++ opsB c) NA NB)
    (hfit : mkFits op ∨ ∃ c, c ∉ chs ∧ ((∃ x, op = .send c x) ∨ (∃ e x, op = .reply c e x) ∨ ∃ n, op = .setWindow c n))
    (hs : ∀ c ∈ chs, lkMsgs (m.a.chans c).sent + mkSends c op ≤ 2147483648)
    (hr : ∀ k, op = .read k → interruptions na m.a.rd (m.ba.take k) ≤ 25 ∧
      ∀ c ∈ chs, (∀ n ∈ ((m.stepA chs op).a.chans c).acks, n < 4294967294) ∨ NB c < 4294967294) :
    ∃ FS' GS', ManyInv chs (m.stepA chs op) (mkCount na m op) nb FS' GS' opsA opsB NA NB ∧
      (∀ c ∈ chs, ((m.stepA chs op).a.chans c).sent.map lkKind = (m.a.chans c).sent.map lkKind ++ manyAsksNow m.a c op ∧
        lkMsgs ((m.stepA chs op).a.chans c).sent = lkMsgs (m.a.chans c).sent + mkSends c op) ∧
      (manyOfLibrary op = true → m.stepA chs op ≠ m → mkMeasure chs (m.stepA chs op) FS' GS' < mkMeasure chs m FS GS) := by
  rcases hfit with hfit | ⟨c, hc, hop⟩
  · exact mk_stepA hchs h hfit hs hr
  · rw [mk_stepA_none chs m op c hc hop]
    have hne : ∀ d ∈ chs, c ≠ d := fun d hd e => hc (e ▸ hd)
    refine ⟨FS, GS, ⟨h.upA, h.upB, h.bufA, h.bufB, ?_, h.rdB, h.chF, h.chG, ?_⟩, ?_, fun _ x => absurd rfl x⟩
    · have e : mkCount na m op = na := by rcases hop with ⟨x, rfl⟩ | ⟨e, x, rfl⟩ | ⟨n, rfl⟩ <;> rfl
      rw [e]; exact h.rdA
    · intro d hd
      have := h.each d hd
      have hdc := hne d hd
      rcases hop with ⟨x, rfl⟩ | ⟨e, x, rfl⟩ | ⟨n, rfl⟩ <;> simpa [Alone, mkQueued, mkWindows, hdc] using this
    · intro d hd
      have hdc := hne d hd
      rcases hop with ⟨x, rfl⟩ | ⟨e, x, rfl⟩ | ⟨n, rfl⟩ <;> simp [manyAsksNow, mkSends, hdc]

/-- One step of one of the two. -/
theorem mk_step {chs : List Nat} (hchs : ∀ c ∈ chs, c < 2147483648) {m na nb FS GS NA NB} {s : Bool} {op : ManyOp} {ops : List (Bool × ManyOp)}
    (h : ManyInv chs m na nb FS GS (fun c => direction true (onChannel c ((s, op) :: ops))) (fun c => direction false (onChannel c ((s, op) :: ops))) NA NB)
    (hfit : mkFit chs ((s, op) :: ops))
    (hs : ∀ c ∈ chs, lkMsgs (m.a.chans c).sent + (askedBy true (onChannel c ((s, op) :: ops))).length ≤ 2147483648 ∧
      lkMsgs (m.b.chans c).sent + (askedBy false (onChannel c ((s, op) :: ops))).length ≤ 2147483648)
    (hp : ∀ k, op = .read k → (if s then interruptions na m.a.rd (m.ba.take k) else interruptions nb m.b.rd (m.ab.take k)) ≤ 25)
    (hack : ∀ c ∈ chs, manyAcksReadable (m.step chs s op) c ∨ (NA c < 4294967294 ∧ NB c < 4294967294)) :
    ∃ FS' GS', ManyInv chs (m.step chs s op) (if s then mkCount na m op else na) (if s then nb else mkCount nb m.swap op) FS' GS'
        (fun c => direction true (onChannel c ops)) (fun c => direction false (onChannel c ops)) NA NB ∧
      (∀ c ∈ chs,
        ((m.step chs s op).a.chans c).sent.map lkKind = (m.a.chans c).sent.map lkKind ++ (if s = true then manyAsksNow m.a c op else []) ∧
        ((m.step chs s op).b.chans c).sent.map lkKind = (m.b.chans c).sent.map lkKind ++ (if s = false then manyAsksNow m.b c op else []) ∧
        lkMsgs ((m.step chs s op).a.chans c).sent + (askedBy true (onChannel c ops)).length ≤ 2147483648 ∧
        lkMsgs ((m.step chs s op).b.chans c).sent + (askedBy false (onChannel c ops)).length ≤ 2147483648) ∧
      (manyOfLibrary op = true → m.step chs s op ≠ m → mkMeasure chs (m.step chs s op) FS' GS' < mkMeasure chs m FS GS) := by
  cases s with
  | true =>
    simp only [mk_direction_own, mk_direction_other true false (by decide)] at h
    simp only [mk_asked_own, mk_asked_other true false (by decide)] at hs
    have e : m.step chs true op = m.stepA chs op := by unfold ManyLink.step; rw [if_pos rfl]
    have hb := mk_step_b chs m op
    rw [e] at hack ⊢
    obtain ⟨FS', GS', h1, h2, h4⟩ := mk_stepA' hchs h (mk_fit_head hfit) (fun c hc => by have := (hs c hc).1; omega) (by
      intro k ek
      refine ⟨by simpa using hp k ek, fun c hc => ?_⟩
      rcases hack c hc with hack | hack
      · exact .inl (fun n hn => hack n (List.mem_append_left _ hn))
      · exact .inr hack.2)
    refine ⟨FS', GS', h1, fun c hc => ?_, h4⟩
    have h2c := h2 c hc
    have hsc := hs c hc
    exact ⟨by rw [h2c.1]; simp, by rw [hb]; simp, by omega, by rw [hb]; exact hsc.2⟩
  | false =>
    simp only [mk_direction_own, mk_direction_other false true (by decide)] at h
    simp only [mk_asked_own, mk_asked_other false true (by decide)] at hs
    have e : m.step chs false op = (m.swap.stepA chs op).swap := by unfold ManyLink.step; rw [if_neg (by decide)]
    have hb : (m.swap.stepA chs op).swap.a = m.a := mk_step_b chs m.swap op
    rw [e] at hack ⊢
    obtain ⟨FS', GS', h1, h2, h4⟩ := mk_stepA' hchs h.swap (mk_fit_head hfit)
      (fun c hc => by have := (hs c hc).2; show lkMsgs (m.b.chans c).sent + _ ≤ _; omega) (by
      intro k ek
      refine ⟨by have := hp k ek; rw [if_neg (by decide)] at this; exact this, fun c hc => ?_⟩
      rcases hack c hc with hack | hack
      · exact .inl (fun n hn => hack n (List.mem_append_right _ hn))
      · exact .inr hack.1)
    refine ⟨GS', FS', h1.swap, fun c hc => ?_, ?_⟩
    · have h2c : ((m.swap.stepA chs op).a.chans c).sent.map lkKind = (m.b.chans c).sent.map lkKind ++ manyAsksNow m.b c op ∧
        lkMsgs ((m.swap.stepA chs op).a.chans c).sent = lkMsgs (m.b.chans c).sent + mkSends c op := h2 c hc
      have hsc := hs c hc
      refine ⟨by rw [hb]; simp, ?_, by rw [hb]; exact hsc.1, ?_⟩
      · show ((m.swap.stepA chs op).a.chans c).sent.map lkKind = _
        rw [h2c.1]; rfl
      · show lkMsgs ((m.swap.stepA chs op).a.chans c).sent + _ ≤ _
        omega
    · intro x y
      have := h4 x (fun z => y (by rw [z]; rfl))
      rw [mk_measure_swap chs m FS GS] at this
      rw [mk_measure_swap chs (m.swap.stepA chs op) FS' GS']
      exact this

/-- A history. -/
theorem mk_run {chs : List Nat} (hchs : ∀ c ∈ chs, c < 2147483648) : ∀ (ops : List (Bool × ManyOp)) {m : ManyLink} {na nb : Nat}
    {FS GS : List Frame} {NA NB : Nat → Nat},
    ManyInv chs m na nb FS GS (fun c => direction true (onChannel c ops)) (fun c => direction false (onChannel c ops)) NA NB →
    mkFit chs ops →
    (∀ c ∈ chs, lkMsgs (m.a.chans c).sent + (askedBy true (onChannel c ops)).length ≤ 2147483648 ∧
      lkMsgs (m.b.chans c).sent + (askedBy false (onChannel c ops)).length ≤ 2147483648) →
    manyPatient chs m na nb ops = true →
    (∀ c ∈ chs, manyAcksReadable (m.run chs ops) c ∨ (NA c < 4294967294 ∧ NB c < 4294967294)) →
    (∀ c ∈ chs, ((m.run chs ops).a.chans c).sent.map lkKind = (m.a.chans c).sent.map lkKind ++ manyAsks chs c true m ops ∧
      ((m.run chs ops).b.chans c).sent.map lkKind = (m.b.chans c).sent.map lkKind ++ manyAsks chs c false m ops) ∧
    ∃ FS' GS', ManyInv chs (m.run chs ops) (mkCounts chs m na nb ops).1 (mkCounts chs m na nb ops).2 FS' GS' (fun _ => []) (fun _ => []) NA NB ∧
      (∀ c ∈ chs, lkMsgs ((m.run chs ops).a.chans c).sent ≤ 2147483648 ∧ lkMsgs ((m.run chs ops).b.chans c).sent ≤ 2147483648) ∧
      (manyAllMove chs m ops → mkMeasure chs (m.run chs ops) FS' GS' + ops.length ≤ mkMeasure chs m FS GS)
  | [], m, na, nb, FS, GS, NA, NB, h, _, h1, _, _ =>
    ⟨fun c hc => by simp [ManyLink.run, manyAsks], FS, GS, h, h1, fun _ => by simp [ManyLink.run]⟩
  | (s, op) :: ops, m, na, nb, FS, GS, NA, NB, h, hfit, h1, hp, hack => by
    obtain ⟨p1, p2⟩ := mk_patient_cons hp
    obtain ⟨FS', GS', i1, i2, i6⟩ := mk_step hchs h hfit h1 p1
      (fun c hc => (hack c hc).imp (fun x n hn => x n (mk_acks_run chs ops _ c n hn)) id)
    obtain ⟨r1, FS2, GS2, r3, r4, r6⟩ := mk_run hchs ops i1 (mk_fit_tail hfit) (fun c hc => (i2 c hc).2.2) p2 hack
    refine ⟨fun c hc => ?_, FS2, GS2, r3, r4, ?_⟩
    · constructor
      · show ((((m.step chs s op).run chs ops).a.chans c).sent.map lkKind) = _
        rw [(r1 c hc).1, (i2 c hc).1, List.append_assoc]; cases s <;> rfl
      · show ((((m.step chs s op).run chs ops).b.chans c).sent.map lkKind) = _
        rw [(r1 c hc).2, (i2 c hc).2.1, List.append_assoc]; cases s <;> rfl
    · intro hm
      have a := i6 hm.1 hm.2.1
      have b := r6 hm.2.2
      simp only [List.length_cons]
      show mkMeasure chs ((m.step chs s op).run chs ops) FS2 GS2 + _ ≤ _
      omega

theorem ManyInv.init (chs : List Nat) (opsA opsB : Nat → List PeersOp) (hA : ∀ c ∈ chs, GrowEarly 0 4096 (opsA c))
    (hB : ∀ c ∈ chs, GrowEarly 0 4096 (opsB c)) :
    ManyInv chs .init 0 0 [] [] opsA opsB (fun c => lkOctets (opsA c)) (fun c => lkOctets (opsB c)) :=
  ⟨rfl, rfl, Nat.le_refl _, Nat.le_refl _, ⟨rfl, rfl, rfl⟩, ⟨rfl, rfl, rfl⟩, (by intro f hf; cases hf), (by intro f hf; cases hf),
    fun c hc => ⟨[], [], LinkInv.init c _ _ (hA c hc) (hB c hc), rfl, rfl⟩⟩

/-! ### Rest -/

/-- No patient step does anything: rest, and everything was delivered. -/
theorem mk_quiet {chs : List Nat} (hchs : ∀ c ∈ chs, c < 2147483648) {m na nb FS GS opsA opsB NA NB}
    (h : ManyInv chs m na nb FS GS opsA opsB NA NB)
    (hack : ∀ c ∈ chs, manyAcksReadable m c ∨ (NA c < 4294967294 ∧ NB c < 4294967294))
    (hall : ∀ s op, manyOfLibrary op = true →
        (∀ k, op = .read k → (if s then interruptions na m.a.rd (m.ba.take k) else interruptions nb m.b.rd (m.ab.take k)) ≤ 25) →
        m.step chs s op = m) :
    manyAtRest chs m ∧ ∀ c ∈ chs, (m.b.chans c).got.map seenAs = (m.a.chans c).sent ∧ (m.a.chans c).got.map seenAs = (m.b.chans c).sent := by
  have key : ∀ {m : ManyLink} {na nb FS GS opsA opsB NA NB}, ManyInv chs m na nb FS GS opsA opsB NA NB →
      (∀ k, interruptions na m.a.rd (m.ba.take k) ≤ 25 → m.stepA chs (.read k) = m) →
      (∀ c ∈ chs, (∀ n ∈ (m.a.chans c).acks, n < 4294967294) ∨ NB c < 4294967294) → m.ba = [] := by
    intro m na nb FS GS opsA opsB NA NB h hr hack
    by_cases hb : m.ba = []
    · exact hb
    · exfalso
      have hi : interruptions na m.a.rd (m.ba.take m.ba.length) ≤ 25 := by rw [List.take_length, lk_full_read h.rdA hb]; omega
      have e := hr m.ba.length hi
      obtain ⟨_, _, _, _, _, h4, _⟩ := mk_read (k := m.ba.length) hchs h (by rw [List.take_length]; exact hb) hi (by rw [e]; exact hack)
      rw [e] at h4
      omega
  have hA : ∀ op, manyOfLibrary op = true → (∀ k, op = .read k → interruptions na m.a.rd (m.ba.take k) ≤ 25) → m.stepA chs op = m := by
    intro op ho hk
    have := hall true op ho (by simpa using hk)
    unfold ManyLink.step at this; rwa [if_pos rfl] at this
  have hB : ∀ op, manyOfLibrary op = true → (∀ k, op = .read k → interruptions nb m.b.rd (m.ab.take k) ≤ 25) → m.swap.stepA chs op = m.swap := by
    intro op ho hk
    have := hall false op ho (by simpa using hk)
    unfold ManyLink.step at this; rw [if_neg (by decide)] at this
    exact congrArg ManyLink.swap this
  have hba : m.ba = [] := key h (fun k hk => hA _ rfl (by intro j e; injection e with e; subst e; exact hk))
    (fun c hc => (hack c hc).imp (fun x n hn => x n (List.mem_append_left _ hn)) (·.2))
  have hab : m.ab = [] := key h.swap (fun k hk => hB _ rfl (by intro j e; injection e with e; subst e; exact hk))
    (fun c hc => (hack c hc).imp (fun x n hn => x n (List.mem_append_right _ hn)) (·.1))
  have hno : ∀ (l : ManyLink) k, l.ba = [] → l.stepA chs (.read k) = l := by
    intro l k hb
    unfold ManyLink.stepA
    split
    · rfl
    · simp [hb]
  refine ⟨?_, ?_⟩
  · intro s op ho
    cases op with
    | round c => exact hall s (.round c) rfl (by intro k e; cases e)
    | read k =>
      unfold ManyLink.step
      cases s with
      | true => rw [if_pos rfl]; exact hno m k hba
      | false => rw [if_neg (by decide), hno m.swap k hab]; rfl
    | _ => cases ho
  have hgs : GS = [] := by have := h.rdA; rw [hba] at this; exact this.empty
  have hfs : FS = [] := by have := h.rdB; rw [hab] at this; exact this.empty
  subst hgs hfs
  have key2 : ∀ {m : ManyLink} {na nb opsA opsB NA NB}, ManyInv chs m na nb [] [] opsA opsB NA NB →
      (∀ c, m.stepA chs (.round c) = m) → ∀ c ∈ chs, (m.b.chans c).got.map seenAs = (m.a.chans c).sent := by
    intro m na nb opsA opsB NA NB h hr c hc
    obtain ⟨ab, ba, h1, h2, h3⟩ := h.each c hc
    have hi : LinkInv c ⟨m.a.chans c, m.b.chans c, ab, ba⟩ 0 0 [] [] (opsA c) (opsB c) (NA c) (NB c) := h1
    obtain ⟨S, E, C, c0, total, last, g1, _⟩ := hi.flowA
    have hst := lk_not_stalled (r := (m.a.chans c).snd) g1
    have hp : (m.a.chans c).snd.pending = [] := by
      have h1b := hi.setBuf m.a.buf h.bufA
      have hsh : (m.a.chans c).chan.shut = false := hi.selfA.shut
      have e : Link.stepA c ⟨{ m.a.chans c with buf := m.a.buf }, m.b.chans c, ab, ba⟩ .round =
          ⟨(Endpoint.round { m.a.chans c with buf := m.a.buf }).1, m.b.chans c,
            ab ++ (Endpoint.round { m.a.chans c with buf := m.a.buf }).2, ba⟩ := by
        unfold Link.stepA; rw [if_neg (by simp [hsh])]
      have ht := lk_round_header (hchs c hc) h1b
      rw [show Link.stepA c { (⟨m.a.chans c, m.b.chans c, ab, ba⟩ : Link) with a := { m.a.chans c with buf := m.a.buf } } .round = _ from e] at ht
      have hrc := hr c
      have hstep : m.stepA chs (.round c) = { m with a := (m.a.round c).1, ab := m.ab ++ (m.a.round c).2 } := by
        unfold ManyLink.stepA; rw [if_neg (by simp [h.upA])]; simp only [if_pos hc]
      rw [hstep] at hrc
      have hout : (Endpoint.round { m.a.chans c with buf := m.a.buf }).2 = [] :=
        List.append_right_eq_self.mp (congrArg ManyLink.ab hrc)
      rcases ht with ⟨_, h2 | h2⟩ | ⟨f, header, _, _, h2, _, _, _, _, _, _, h9, _⟩
      · have h2 : (m.a.chans c).snd.win.stalled = true := h2
        have hst : (m.a.chans c).snd.win.stalled = false := hst
        rw [hst] at h2; cases h2
      · exact h2
      · simp only [hout] at h2
        have := congrArg List.length h2
        simp only [List.length_append, List.length_nil] at this
        have := List.length_pos_iff.mpr h9
        omega
    obtain ⟨rest, acc, sA⟩ := hi.sideA
    have hcar := sA.carries
    simp only [hp] at hcar
    have := lk_carries_done hcar
    have hsp := sA.split
    rw [this, List.append_nil] at hsp
    exact hsp.symm
  intro c hc
  exact ⟨key2 h (fun c => hA _ rfl (by intro k e; cases e)) c hc, key2 h.swap (fun c => hB _ rfl (by intro k e; cases e)) c hc⟩

/-- There is always a way to rest. -/
theorem mk_reach_rest {chs : List Nat} (hchs : ∀ c ∈ chs, c < 2147483648) {NA NB : Nat → Nat}
    (hN : ∀ c ∈ chs, NA c < 4294967294 ∧ NB c < 4294967294) :
    ∀ (n : Nat) {m : ManyLink} {na nb : Nat} {FS GS : List Frame}, ManyInv chs m na nb FS GS (fun _ => []) (fun _ => []) NA NB →
      (∀ c ∈ chs, lkMsgs (m.a.chans c).sent ≤ 2147483648 ∧ lkMsgs (m.b.chans c).sent ≤ 2147483648) → mkMeasure chs m FS GS < n →
      ∃ more, manyAllMove chs m more ∧ manyPatient chs m na nb more = true ∧ manyAtRest chs (m.run chs more) ∧
        (∀ x ∈ more, manyOfLibrary x.2 = true) := by
  intro n
  induction n with
  | zero =>
    intro m na nb FS GS h h1 hm
    have := mk_measure_nonneg h
    omega
  | succ n ih =>
    intro m na nb FS GS h h1 hm
    by_cases hall : ∀ s op, manyOfLibrary op = true →
        (∀ k, op = .read k → (if s then interruptions na m.a.rd (m.ba.take k) else interruptions nb m.b.rd (m.ab.take k)) ≤ 25) →
        m.step chs s op = m
    · exact ⟨[], trivial, rfl, (mk_quiet hchs h (fun c hc => .inr (hN c hc)) hall).1, by intro x hx; cases hx⟩
    · simp only [Classical.not_forall] at hall
      obtain ⟨s, op, ho, hp, hx⟩ := hall
      have hd : ∀ t c, direction t (onChannel c [(s, op)]) = [] := by
        intro t c
        cases op with
        | read k => rfl
        | round d => by_cases hd : d = c <;> simp [onChannel, direction, hd]
        | _ => cases ho
      have ha : ∀ t c, askedBy t (onChannel c [(s, op)]) = [] := by
        intro t c
        cases op with
        | read k => rfl
        | round d => by_cases hd : d = c <;> simp [onChannel, askedBy, hd]
        | _ => cases ho
      have hf : mkFit chs [(s, op)] := by
        intro c _
        cases op with
        | read k => trivial
        | round d => by_cases hd : d = c <;> simp [onChannel, contentsFit, hd]
        | _ => cases ho
      obtain ⟨FS', GS', i1, i2, i6⟩ := mk_step (ops := []) (s := s) (op := op) hchs (by simp only [hd]; exact h)
        hf (fun c hc => by rw [ha, ha]; exact h1 c hc) hp (fun c hc => .inr (hN c hc))
      have hlt := i6 ho hx
      obtain ⟨more, m1, m2, m3, m4⟩ := ih i1 (fun c hc => (i2 c hc).2.2) (by omega)
      refine ⟨(s, op) :: more, ⟨ho, hx, m1⟩, ?_, m3, ?_⟩
      · cases s <;> cases op <;>
          first
          | (cases ho; done)
          | exact m2
          | (simp only [manyPatient, Bool.and_eq_true, decide_eq_true_eq]; exact ⟨by have := hp _ rfl; simpa using this, m2⟩)
      · intro x hx
        rcases List.mem_cons.mp hx with hx | hx
        · subst hx; exact ho
        · exact m4 x hx

end Verif.Proof
