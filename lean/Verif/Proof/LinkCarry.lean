import Verif.Spec.Link
import Verif.Proof.Segments
import Verif.Proof.Reader
/-! Messages on their way from one endpoint to the other. -/
namespace Verif.Proof
open Verif.Model Verif.Spec

/-- The messages not completely sent and the queue of the sender; `acc` is what has been sent of the first. -/
def Queued (ch : Int) : List (FType × Int × List Byte) → List Byte → List Pending → Prop
  | [], acc, [] => acc = []
  | (t, m, c) :: cs, acc, p :: ps => p.msg = ⟨t, ch, m, 0, false, c⟩ ∧ p.step = acc.length ∧
      c = acc ++ c.drop acc.length ∧ acc.length < c.length ∧ p.messageSize = (c.length : Int) - acc.length ∧
      Queued ch cs [] ps
  | _, _, _ => False

/-- The messages not completely received, the frames on their way and the queue of the sender; `acc` is what has been
received of the first message. -/
def Carries (ch : Int) : List (FType × Int × List Byte) → List Byte → List Frame → List Pending → Prop
  | rest, acc, [], ps => Queued ch rest acc ps
  | (t, m, c) :: rest, acc, f :: fs, ps => f.type = t ∧ f.channel = ch ∧ f.msgno = m ∧ f.ansno = 0 ∧
      f.size = f.payload.length ∧ f.payload ≠ [] ∧
      (if f.more then Carries ch ((t, m, c) :: rest) (acc ++ f.payload) fs ps
       else c = acc ++ f.payload ∧ Carries ch rest [] fs ps)
  | [], _, _ :: _, _ => False

theorem lk_queued_snoc (ch : Int) (t : FType) (m : Int) (c : List Byte) (hc : c ≠ []) :
    ∀ (rest : List (FType × Int × List Byte)) (acc : List Byte) (ps : List Pending), Queued ch rest acc ps →
    Queued ch (rest ++ [(t, m, c)]) acc (ps ++ [⟨⟨t, ch, m, 0, false, c⟩, 0, c.length⟩])
  | [], acc, [], h => by
    have h : acc = [] := h
    subst h
    refine ⟨rfl, rfl, by simp, ?_, by simp, rfl⟩
    simpa using List.length_pos_iff.mpr hc
  | [], _, _ :: _, h => h.elim
  | _ :: _, _, [], h => by simp [Queued] at h
  | (t', m', c') :: rest, acc, p :: ps, h => by
    obtain ⟨h1, h2, h3, h4, h5, h6⟩ := h
    exact ⟨h1, h2, h3, h4, h5, lk_queued_snoc ch t m c hc rest [] ps h6⟩

/-- A message is queued. -/
theorem lk_carries_queue (ch : Int) (t : FType) (m : Int) (c : List Byte) (hc : c ≠ []) (ps : List Pending) :
    ∀ (fs : List Frame) (rest : List (FType × Int × List Byte)) (acc : List Byte), Carries ch rest acc fs ps →
    Carries ch (rest ++ [(t, m, c)]) acc fs (ps ++ [⟨⟨t, ch, m, 0, false, c⟩, 0, c.length⟩])
  | [], rest, acc, h => by
    have h : Queued ch rest acc ps := by cases rest <;> exact h
    have := lk_queued_snoc ch t m c hc rest acc ps h
    cases rest <;> exact this
  | f :: fs, [], acc, h => h.elim
  | f :: fs, (t', m', c') :: rest, acc, h => by
    obtain ⟨h1, h2, h3, h4, h5, h6, h7⟩ := h
    refine ⟨h1, h2, h3, h4, h5, h6, ?_⟩
    by_cases hm : f.more = true
    · rw [if_pos hm] at h7 ⊢
      exact lk_carries_queue ch t m c hc ps fs _ _ h7
    · rw [if_neg hm] at h7 ⊢
      exact ⟨h7.1, lk_carries_queue ch t m c hc ps fs _ _ h7.2⟩

theorem lk_carries_nil {ch rest acc ps} : Carries ch rest acc [] ps ↔ Queued ch rest acc ps := by
  cases rest <;> exact Iff.rfl

/-- What a frame has to be to be the next one of the queue. -/
structure NextFrame (ch : Int) (p : Pending) (ps : List Pending) (f : Frame) (ps' : List Pending) : Prop where
  type : f.type = p.msg.type
  channel : f.channel = p.msg.channel
  msgno : f.msgno = p.msg.msgno
  ansno : f.ansno = 0
  pos : 0 < f.size
  le : f.size ≤ p.messageSize
  payload : f.payload = (p.msg.message.drop p.step).take f.size.toNat
  more : f.more = !decide (f.size = p.messageSize)
  queue : ps' = if f.size = p.messageSize then ps
    else { p with step := p.step + f.size.toNat, messageSize := p.messageSize - f.size } :: ps

theorem lk_queued_emit {ch : Int} {p ps f ps'} (hn : NextFrame ch p ps f ps') :
    ∀ (rest : List (FType × Int × List Byte)) (acc : List Byte), Queued ch rest acc (p :: ps) →
    Carries ch rest acc [f] ps'
  | [], _, h => h.elim
  | (t, m, c) :: rest, acc, h => by
    obtain ⟨h1, h2, h3, h4, h5, h6⟩ := h
    have hpay : f.payload = (c.drop acc.length).take f.size.toNat := by rw [hn.payload, h1, h2]
    have hpos := hn.pos
    have hle := hn.le
    have hlen : f.payload.length = f.size.toNat := by
      rw [hpay, List.length_take, List.length_drop]; omega
    refine ⟨by rw [hn.type, h1], by rw [hn.channel, h1], by rw [hn.msgno, h1], hn.ansno, by omega, ?_, ?_⟩
    · intro e; rw [e] at hlen; simp at hlen; omega
    · by_cases hc : f.size = p.messageSize
      · have hm : f.more = false := by rw [hn.more, decide_eq_true hc]; rfl
        have hq : ps' = ps := by rw [hn.queue, if_pos hc]
        rw [hm, hq]
        simp only [Bool.false_eq_true, if_false]
        refine ⟨?_, lk_carries_nil.mpr h6⟩
        rw [hpay, List.take_of_length_le (by rw [List.length_drop]; omega)]
        exact h3
      · have hm : f.more = true := by rw [hn.more, decide_eq_false hc]; rfl
        have hq := hn.queue
        rw [if_neg hc] at hq
        rw [hm, hq]
        simp only [if_true]
        refine ⟨h1, ?_, ?_, ?_, ?_, h6⟩
        · rw [List.length_append, hlen, h2]
        · rw [List.length_append, hlen, ← List.drop_drop, List.append_assoc, hpay, List.take_append_drop]
          exact h3
        · rw [List.length_append, hlen]; omega
        · show p.messageSize - f.size = _
          rw [List.length_append, hlen]; omega

/-- A frame is sent. -/
theorem lk_carries_emit {ch : Int} {p ps f ps'} (hn : NextFrame ch p ps f ps') :
    ∀ (fs : List Frame) (rest : List (FType × Int × List Byte)) (acc : List Byte), Carries ch rest acc fs (p :: ps) →
    Carries ch rest acc (fs ++ [f]) ps'
  | [], rest, acc, h => lk_queued_emit hn rest acc (lk_carries_nil.mp h)
  | g :: fs, [], acc, h => h.elim
  | g :: fs, (t, m, c) :: rest, acc, h => by
    obtain ⟨h1, h2, h3, h4, h5, h6, h7⟩ := h
    refine ⟨h1, h2, h3, h4, h5, h6, ?_⟩
    by_cases hm : g.more = true
    · rw [if_pos hm] at h7 ⊢
      exact lk_carries_emit hn fs _ _ h7
    · rw [if_neg hm] at h7 ⊢
      exact ⟨h7.1, lk_carries_emit hn fs _ _ h7.2⟩

/-- What is received of a message is a proper beginning of it. -/
theorem lk_carries_prefix {ch : Int} {ps : List Pending} : ∀ (fs : List Frame) (t : FType) (m : Int) (c : List Byte)
    (rest : List (FType × Int × List Byte)) (acc : List Byte), Carries ch ((t, m, c) :: rest) acc fs ps →
    ∃ more, c = acc ++ more ∧ more ≠ []
  | [], t, m, c, rest, acc, h => by
    cases ps with
    | nil => exact (lk_carries_nil.mp h).elim
    | cons p ps =>
      obtain ⟨_, _, h3, h4, _⟩ := lk_carries_nil.mp h
      exact ⟨_, h3, fun e => by rw [← List.length_eq_zero_iff, List.length_drop] at e; omega⟩
  | f :: fs, t, m, c, rest, acc, h => by
    obtain ⟨_, _, _, _, _, h6, h7⟩ := h
    by_cases hm : f.more = true
    · rw [if_pos hm] at h7
      obtain ⟨more, e, _⟩ := lk_carries_prefix fs t m c rest _ h7
      exact ⟨f.payload ++ more, by rw [e, List.append_assoc], by simp [h6]⟩
    · rw [if_neg hm] at h7
      exact ⟨f.payload, h7.1, h6⟩

/-- The queue of the sender when everything has been received. -/
theorem lk_carries_done {ch rest acc} (h : Carries ch rest acc [] []) : rest = [] := by
  cases rest with
  | nil => rfl
  | cons a rest => exact (lk_carries_nil.mp h : False).elim

/-- The fragments of a message stored by the receiver. -/
structure Fragments (ch : Int) (rest : List (FType × Int × List Byte)) (acc : List Byte) (prev : List Frame)
    (expected : Nat) : Prop where
  join : prev.flatMap (·.payload) = acc
  none : acc = [] → prev = []
  all : ∀ g ∈ prev, ∃ c rest', rest = (g.type, g.msgno, c) :: rest' ∧ g.channel = ch ∧ g.ansno = 0 ∧ g.more = true
  last : ∀ g, prev.getLast? = some g → u32 (g.seqno + g.size) = expected

theorem lk_fragments_nil (ch : Int) (rest : List (FType × Int × List Byte)) (expected : Nat) :
    Fragments ch rest [] [] expected :=
  ⟨rfl, fun _ => rfl, (fun g hg => by simp at hg), (fun g hg => by simp at hg)⟩

/-- A message is queued: the fragments are still those of the first message. -/
theorem Fragments.queue {ch rest acc prev expected} (h : Fragments ch rest acc prev expected)
    (x : FType × Int × List Byte) : Fragments ch (rest ++ [x]) acc prev expected := by
  refine ⟨h.join, h.none, ?_, h.last⟩
  intro g hg
  obtain ⟨c, r, e, h2⟩ := h.all g hg
  exact ⟨c, r ++ [x], by rw [e]; rfl, h2⟩

/-- What the reader thread does with a data frame, the number checks being passed. -/
theorem lk_process {c : Chan} {f : Frame} {w : RecvWin} {seq : Option (Nat × Int)} (hs : c.shut = false)
    (hflag : c.completeFlag = true) (hl1 : c.channelLimit = 0) (hl2 : c.connLimit = 0)
    (hr : c.win.receive f.seqno f.size = some (w, seq)) (inc' : Incoming) (out' : OutChan)
    (ht : f.type = .msg ∨ f.type = .rpy ∨ f.type = .err)
    (hmsg : f.type = .msg → c.inc.check f.more f.msgno = some inc' ∧ out' = c.out)
    (hrpy : f.type ≠ .msg → inc' = c.inc ∧ (∃ os, c.out.outstanding = f.msgno :: os ∧
      out' = if f.more then c.out else { c.out with outstanding := os }))
    (hj : f.more = true → ∀ p, c.previous.getLast? = some p → p.toV.joinable f.toV = true)
    (hprev : ∀ p ∈ c.previous, p.type = f.type ∧ p.msgno = f.msgno)
    (hlen : (c.previous.flatMap (·.payload) ++ f.payload).length < 2147483647) :
    (c.win.update f.seqno f.size).2 = seq ∧
    ∃ o c', c.process f = (o, c') ∧ c'.win = w ∧ c'.inc = inc' ∧ c'.out = out' ∧ c'.shut = false ∧
      c'.completeFlag = true ∧ c'.channelLimit = 0 ∧ c'.connLimit = 0 ∧
      (f.more = true → o = .kept ∧ c'.previous = c.previous ++ [f]) ∧
      (f.more = false → c'.previous = [] ∧ ∃ d, o = .delivered d ∧ d.more = false ∧
        seenAs d = (f.type, f.msgno, c.previous.flatMap (·.payload) ++ f.payload) ∧
        (d.body = mimeBody wireTail d.content ∨ d.body = mimeBody builtTail d.content)) := by
  unfold RecvWin.receive at hr
  have hchk : c.win.check f.seqno f.size = true := by
    cases h : c.win.check f.seqno f.size with
    | true => rfl
    | false => rw [h] at hr; simp at hr
  rw [if_pos hchk] at hr
  simp only at hr
  have hexp : (c.win.update f.seqno f.size).1.expected = f.seqno := by
    by_cases h : (c.win.update f.seqno f.size).1.expected = f.seqno
    · exact h
    · rw [if_neg h] at hr; simp at hr
  rw [if_pos hexp] at hr
  simp only [Option.some.injEq, Prod.mk.injEq] at hr
  obtain ⟨hw, hseq⟩ := hr
  refine ⟨hseq, ?_⟩
  have hnul : f.type ≠ .nul := by rcases ht with h | h | h <;> rw [h] <;> decide
  -- the number check
  obtain ⟨c1, hc1, hcn⟩ : ∃ c1 : Chan, c1 = { c with win := (c.win.update f.seqno f.size).1, inc := inc' } ∧
      ({ c with win := (c.win.update f.seqno f.size).1 } : Chan).checkNumber f = some c1 := by
    refine ⟨_, rfl, ?_⟩
    unfold Chan.checkNumber
    rcases ht with h | h | h
    · simp only [h, (hmsg h).1, Option.map_some]
    all_goals
      obtain ⟨e1, os, e2, _⟩ := hrpy (by rw [h]; decide)
      simp only [h, OutChan.expectedReply, e2, List.headD_cons, if_true, e1]
  have hproc : c.process f = (c1.updateStatus f).assemble f := by
    unfold Chan.process
    rw [if_neg (by simp [hs]), if_neg (by simp [hchk])]
    simp only [hcn]
    rw [if_neg (by rw [hc1]; simp [hexp]), if_neg (by simp [hnul])]
  -- the status update
  have hst : c1.updateStatus f = { c1 with win := w, out := out' } := by
    unfold Chan.updateStatus
    simp only
    rcases ht with h | h | h
    · rw [if_neg (by simp [h]), (hmsg h).2, hc1, ← hw]
    all_goals
      obtain ⟨e1, os, e2, e3⟩ := hrpy (by rw [h]; decide)
      cases hm : f.more with
      | true =>
        rw [if_neg (by simp [h])]
        rw [e3, hm, hc1, ← hw]
        simp
      | false =>
        rw [if_pos (by simp [h])]
        rw [e3, hm, hc1, ← hw]
        simp [OutChan.removeFirst, e2, hs]
  rw [hproc, hst]
  have hfl : ∀ (c2 : Chan), c2.channelLimit = 0 → c2.connLimit = 0 → ¬ c2.frameLimit > 0 := by
    intro c2 h1 h2
    unfold Chan.frameLimit
    rw [h1, h2]; decide
  have hstore : ∀ (c2 : Chan), c2.channelLimit = 0 → c2.connLimit = 0 → c2.shut = false → (c2.store f).shut = false := by
    intro c2 h1 h2 h3
    unfold Chan.store
    simp only [h3, Bool.false_or]
    apply decide_eq_false
    rintro ⟨h4, _⟩
    exact hfl c2 h1 h2 h4
  unfold Chan.assemble
  cases hm : f.more with
  | true =>
    rw [if_pos rfl]
    have key : ∀ x : Chan, x = { c1 with win := w, out := out' } →
        ∃ o c', (Outcome.kept, x.store f) = (o, c') ∧ c'.win = w ∧ c'.inc = inc' ∧ c'.out = out' ∧ c'.shut = false ∧
          c'.completeFlag = true ∧ c'.channelLimit = 0 ∧ c'.connLimit = 0 ∧
          (true = true → o = .kept ∧ c'.previous = c.previous ++ [f]) ∧
          (true = false → c'.previous = [] ∧ ∃ d, o = .delivered d ∧ d.more = false ∧
            seenAs d = (f.type, f.msgno, c.previous.flatMap (·.payload) ++ f.payload) ∧
            (d.body = mimeBody wireTail d.content ∨ d.body = mimeBody builtTail d.content)) := by
      intro x hx
      refine ⟨_, _, rfl, ?_, ?_, ?_, hstore x ?_ ?_ ?_, ?_, ?_, ?_, fun _ => ⟨rfl, ?_⟩, by simp⟩ <;>
        (subst hx; subst hc1; simp [Chan.store, hs, hflag, hl1, hl2])
    cases hp : c.previous.getLast? with
    | none =>
      have hp1 : c1.previous.getLast? = none := by rw [hc1]; exact hp
      simp only [hp1]
      rw [if_pos (by rw [hc1]; exact hflag)]
      simpa using key _ rfl
    | some p =>
      have hp1 : c1.previous.getLast? = some p := by rw [hc1]; exact hp
      simp only [hp1]
      rw [if_pos (hj hm p hp)]
      simpa using key _ rfl
  | false =>
    rw [if_neg (by decide)]
    have hpv : c1.previous = c.previous := by rw [hc1]
    by_cases hp : c.previous = []
    · rw [if_neg (by simp [hpv, hp])]
      refine ⟨_, _, rfl, rfl, by rw [hc1], rfl, by rw [hc1]; exact hs, by rw [hc1]; exact hflag, by rw [hc1]; exact hl1,
        by rw [hc1]; exact hl2, by simp, fun _ => ⟨by show c1.previous = []; rw [hpv, hp], _, rfl, hm, ?_, ?_⟩⟩
      · simp [seenAs, hp]
      · left
        simp only
        rw [if_pos (Or.inl ⟨by simp [hm], by rw [hc1]; exact hflag⟩)]
    · rw [if_pos (by simp [hpv, hp])]
      obtain ⟨g, gs, hg⟩ : ∃ g gs, c.previous = g :: gs := by
        cases h : c.previous with
        | nil => exact absurd h hp
        | cons g gs => exact ⟨g, gs, rfl⟩
      have hjo : ∀ l : List Frame, (∀ p ∈ l, p.type ≠ .nul) → l.flatMap joinOctets = l.flatMap (·.payload) := by
        intro l
        induction l with
        | nil => intro _; rfl
        | cons x l ih =>
          intro h
          simp only [List.flatMap_cons]
          rw [ih (fun p hp => h p (List.mem_cons_of_mem _ hp))]
          have : joinOctets x = x.payload := by unfold joinOctets; rw [if_neg (h x List.mem_cons_self)]
          rw [this]
      have hcont : (c.previous ++ [f]).flatMap joinOctets = c.previous.flatMap (·.payload) ++ f.payload := by
        rw [hjo _ ?_]
        · simp [List.flatMap_append]
        · intro p hp
          rcases List.mem_append.mp hp with h | h
          · rw [(hprev p h).1]; exact hnul
          · rw [List.mem_singleton.mp h]; exact hnul
      have hpg := hprev g (by rw [hg]; exact List.mem_cons_self)
      have hsp : (({ c1 with win := w, out := out' } : Chan).store f).previous = g :: (gs ++ [f]) := by
        show c1.previous ++ [f] = _
        rw [hpv, hg]; rfl
      have hdel : (({ c1 with win := w, out := out' } : Chan).store f).deliverStored f.type = .delivered
          { type := g.type, channel := g.channel, msgno := g.msgno, ansno := g.ansno, seqno := g.seqno, more := false
            content := c.previous.flatMap (·.payload) ++ f.payload
            body := mimeBody builtTail (c.previous.flatMap (·.payload) ++ f.payload) } := by
        unfold Chan.deliverStored
        rw [hsp]
        have e : g :: (gs ++ [f]) = c.previous ++ [f] := by rw [hg]; rfl
        simp only [e, hcont]
        rw [if_neg (by omega)]
        have hcf : (({ c1 with win := w, out := out' } : Chan).store f).completeFlag = true := by
          show c1.completeFlag = true; rw [hc1]; exact hflag
        simp only [hcf, and_true, ne_eq, hnul, not_false_eq_true, if_true]
      refine ⟨_, _, rfl, rfl, by show c1.inc = _; rw [hc1], rfl, hstore _ (by show c1.channelLimit = 0; rw [hc1]; exact hl1) (by show c1.connLimit = 0; rw [hc1]; exact hl2) (by show c1.shut = false; rw [hc1]; exact hs),
        by show c1.completeFlag = true; rw [hc1]; exact hflag, by show c1.channelLimit = 0; rw [hc1]; exact hl1,
        by show c1.connLimit = 0; rw [hc1]; exact hl2, by simp, fun _ => ⟨rfl, _, hdel, rfl, ?_, Or.inr rfl⟩⟩
      simp [seenAs, hpg.1, hpg.2]

end Verif.Proof
