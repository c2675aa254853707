import Verif.Proof.LinkCarry
/-! One direction of the channel: messages from one endpoint to the other. -/
namespace Verif.Proof
open Verif.Model Verif.Spec

/-- The numbers from `r` to `q - 1`. -/
def lkRange (r q : Nat) : List Int := (List.range' r (q - r)).map Int.ofNat

theorem lk_range_snoc (r q : Nat) (h : r ≤ q) : lkRange r (q + 1) = lkRange r q ++ [(q : Int)] := by
  unfold lkRange
  rw [show q + 1 - r = (q - r) + 1 by omega, List.range'_1_concat, List.map_append]
  simp only [List.map_cons, List.map_nil, List.append_cancel_left_eq, List.cons.injEq, and_true]
  show Int.ofNat (r + (q - r)) = _
  rw [show r + (q - r) = q by omega]; rfl

theorem lk_range_cons (r q : Nat) (h : r < q) : lkRange r q = (r : Int) :: lkRange (r + 1) q := by
  unfold lkRange
  rw [show q - r = (q - (r + 1)) + 1 by omega, List.range'_succ]
  rfl

theorem lk_range_mem (r q k : Nat) (h : q ≤ k) : (k : Int) ∉ lkRange r q := by
  unfold lkRange
  intro hm
  obtain ⟨x, hx, e⟩ := List.mem_map.mp hm
  rw [List.mem_range'_1] at hx
  have : (x : Int) = k := e
  omega

theorem lk_range_self (r : Nat) : lkRange r r = [] := by simp [lkRange]

def lkMsgs (l : List (FType × Int × List Byte)) : Nat := l.countP (fun x => decide (x.1 = .msg))
def lkRpys (l : List (FType × Int × List Byte)) : Nat := l.countP (fun x => !decide (x.1 = .msg))

theorem lk_msgs_append (a b) : lkMsgs (a ++ b) = lkMsgs a + lkMsgs b := List.countP_append
theorem lk_rpys_append (a b) : lkRpys (a ++ b) = lkRpys a + lkRpys b := List.countP_append
theorem lk_msgs_one (t m c) : lkMsgs [(t, m, c)] = if t = .msg then 1 else 0 := by
  cases t <;> rfl
theorem lk_rpys_one (t m c) : lkRpys [(t, m, c)] = if t = .msg then 0 else 1 := by
  cases t <;> rfl

theorem lk_inOrder_append : ∀ (a b : List (FType × Int × List Byte)) (i j : Nat),
    numbersInOrder i j (a ++ b) ↔ numbersInOrder i j a ∧ numbersInOrder (i + lkMsgs a) (j + lkRpys a) b
  | [], b, i, j => by simp [numbersInOrder, lkMsgs, lkRpys]
  | (t, m, c) :: a, b, i, j => by
    have e1 : lkMsgs ((t, m, c) :: a) = lkMsgs [(t, m, c)] + lkMsgs a := lk_msgs_append [(t, m, c)] a
    have e2 : lkRpys ((t, m, c) :: a) = lkRpys [(t, m, c)] + lkRpys a := lk_rpys_append [(t, m, c)] a
    rw [lk_msgs_one] at e1
    rw [lk_rpys_one] at e2
    simp only [List.cons_append, numbersInOrder, lk_inOrder_append a b, e1, e2]
    constructor
    · rintro (⟨h1, h2, h3, h4⟩ | ⟨h1, h2, h3, h4⟩)
      · subst h1
        exact ⟨.inl ⟨rfl, h2, h3⟩, by simpa [Nat.add_assoc] using h4⟩
      · refine ⟨.inr ⟨h1, h2, h3⟩, ?_⟩
        have hne : t ≠ .msg := by rcases h1 with h1 | h1 <;> rw [h1] <;> decide
        simpa [hne, Nat.add_assoc] using h4
    · rintro ⟨⟨h1, h2, h3⟩ | ⟨h1, h2, h3⟩, h4⟩
      · subst h1
        exact .inl ⟨rfl, h2, h3, by simpa [Nat.add_assoc] using h4⟩
      · refine .inr ⟨h1, h2, h3, ?_⟩
        have hne : t ≠ .msg := by rcases h1 with h1 | h1 <;> rw [h1] <;> decide
        simpa [hne, Nat.add_assoc] using h4

/-- The number of the message being received, if it is a MSG. -/
def lkBegun : List (FType × Int × List Byte) → List Byte → Option Int
  | (.msg, m, _) :: _, _ :: _ => some m
  | _, _ => none

def lkBegunCount (rest : List (FType × Int × List Byte)) (acc : List Byte) : Nat := (lkBegun rest acc).toList.length

theorem lk_begun_nil (rest) : lkBegun rest [] = none := by
  unfold lkBegun; split <;> simp_all

theorem lk_begun_msg (m c rest) (acc : List Byte) (h : acc ≠ []) : lkBegun ((.msg, m, c) :: rest) acc = some m := by
  cases acc with
  | nil => exact absurd rfl h
  | cons a acc => rfl

theorem lk_begun_rpy (t : FType) (m c rest) (acc : List Byte) (h : t ≠ .msg) : lkBegun ((t, m, c) :: rest) acc = none := by
  cases t <;> first | exact absurd rfl h | (cases acc <;> rfl)

/-- With nothing but a message added at the end, the one being received is the same. -/
theorem lk_begun_queue (rest x) (acc : List Byte) (h : rest = [] → acc = []) : lkBegun (rest ++ [x]) acc = lkBegun rest acc := by
  cases rest with
  | nil => rw [h rfl, lk_begun_nil, lk_begun_nil]
  | cons a rest =>
    obtain ⟨t, m, c⟩ := a
    cases acc with
    | nil => rw [lk_begun_nil, lk_begun_nil]
    | cons b acc => cases t <;> rfl

theorem lk_begunCount_le (rest acc) : lkBegunCount rest acc ≤ lkMsgs rest := by
  unfold lkBegunCount
  cases rest with
  | nil => cases acc <;> simp [lkBegun]
  | cons a rest =>
    obtain ⟨t, m, c⟩ := a
    by_cases ht : t = .msg
    · subst ht
      have e1 : lkMsgs ((.msg, m, c) :: rest) = 1 + lkMsgs rest := lk_msgs_append [(.msg, m, c)] rest
      cases acc with
      | nil => simp [lk_begun_nil]
      | cons b acc => simp [lkBegun, e1]
    · simp [lk_begun_rpy t m c rest acc ht]

/-- Messages from `s` to `r`: `rest` have not been received, `acc` has been received of the first of them. -/
structure Side (ch : Int) (s r : Endpoint) (data : List Frame) (rest : List (FType × Int × List Byte))
    (acc : List Byte) : Prop where
  split : s.sent = r.got.map seenAs ++ rest
  carries : Carries ch rest acc data s.snd.pending
  frags : Fragments ch rest acc r.chan.previous r.chan.win.expected
  fits : ∀ x ∈ s.sent, x.2.2.length < 2147483647
  order : numbersInOrder 0 0 s.sent
  pending : r.chan.inc.pending = lkRange (lkRpys r.sent) (lkMsgs (r.got.map seenAs) + lkBegunCount rest acc)
  answered : lkRpys r.sent ≤ lkMsgs (r.got.map seenAs) + lkBegunCount rest acc
  fragment : r.chan.inc.fragment = (lkBegun rest acc).getD (-1)
  outstanding : s.chan.out.outstanding = lkRange (lkRpys (s.got.map seenAs)) (lkMsgs s.sent)
  repliesLe : lkRpys (s.got.map seenAs) ≤ lkMsgs s.sent
  proposed : s.chan.out.nextProposed = (lkMsgs s.sent : Int) - 1
  fixed : s.chan.out.lastFixedMore = -1
  limit : s.chan.out.limit = 0
  small : lkMsgs s.sent ≤ 2147483648
  whole : ∀ d ∈ r.got, d.more = false ∧
    (d.body = mimeBody wireTail d.content ∨ d.body = mimeBody builtTail d.content)

theorem lk_carries_acc {ch rest acc data ps} (h : Carries ch rest acc data ps) : rest = [] → acc = [] := by
  rintro rfl
  cases data with
  | nil =>
    have h := lk_carries_nil.mp h
    cases ps with
    | nil => exact h
    | cons p ps => exact h.elim
  | cons f fs => exact h.elim

/-- Numbers of the messages sent and of the replies are below 2^31. -/
theorem Side.msgno {ch s r data rest acc} (h : Side ch s r data rest acc) {s' data'} {rest' acc'} (h2 : Side ch r s' data' rest' acc')
    (hs : s' = s) (t m c) (hm : (t, m, c) ∈ s.sent) : 0 ≤ m ∧ m < 2147483648 ∧ (t = .msg ∨ t = .rpy ∨ t = .err) := by
  subst hs
  obtain ⟨l1, l2, e⟩ := List.append_of_mem hm
  have ho := h.order
  rw [e, lk_inOrder_append] at ho
  have e1 : lkMsgs s'.sent = lkMsgs l1 + (lkMsgs [(t, m, c)] + lkMsgs l2) := by
    rw [e, lk_msgs_append, ← lk_msgs_append [(t, m, c)] l2]; rfl
  have e2 : lkRpys s'.sent = lkRpys l1 + (lkRpys [(t, m, c)] + lkRpys l2) := by
    rw [e, lk_rpys_append, ← lk_rpys_append [(t, m, c)] l2]; rfl
  rw [lk_msgs_one] at e1
  rw [lk_rpys_one] at e2
  have hsm := h.small
  have hsm2 := h2.small
  have han := h2.answered
  have hb := lk_begunCount_le rest' acc'
  have hsp : lkMsgs r.sent = lkMsgs (s'.got.map seenAs) + lkMsgs rest' := by rw [h2.split, lk_msgs_append]
  rcases ho.2 with ⟨rfl, h3, _⟩ | ⟨h4, h3, _⟩
  · simp only [if_true] at e1
    exact ⟨by omega, by omega, .inl rfl⟩
  · have hne : t ≠ .msg := by rcases h4 with h4 | h4 <;> rw [h4] <;> decide
    rw [if_neg hne] at e2
    exact ⟨by omega, by omega, .inr h4⟩

/-- What the reader thread of `r` needs to know of a frame of `s`, and what it does. -/
theorem lk_side_read {ch : Int} {s r : Endpoint} {f : Frame} {data data2 : List Frame} {rest rest2 acc acc2}
    (h : Side ch s r (f :: data) rest acc) (h2 : Side ch r s data2 rest2 acc2)
    {w : RecvWin} {seq : Option (Nat × Int)} (hs : r.chan.shut = false)
    (hflag : r.chan.completeFlag = true) (hl1 : r.chan.channelLimit = 0) (hl2 : r.chan.connLimit = 0)
    (hr : r.chan.win.receive f.seqno f.size = some (w, seq))
    (hw : w.expected = u32 (f.seqno + f.size)) :
    (r.chan.win.update f.seqno f.size).2 = seq ∧
    ∃ o c', r.chan.process f = (o, c') ∧ c'.win = w ∧ c'.shut = false ∧
      c'.completeFlag = true ∧ c'.channelLimit = 0 ∧ c'.connLimit = 0 ∧
      ∀ (r' : Endpoint), r'.chan = c' → r'.sent = r.sent → r'.snd.pending = r.snd.pending →
        (r'.got = match o with
          | .delivered d => r.got ++ [d]
          | _ => r.got) →
        ∃ rest' acc', Side ch s r' data rest' acc' ∧ Side ch r' s data2 rest2 acc2 := by
  have hcar := h.carries
  cases rest with
  | nil => exact hcar.elim
  | cons x rest =>
  obtain ⟨t, m, c⟩ := x
  obtain ⟨h3, h4, h5, h6, h7, h8, h9⟩ := id hcar
  have hsent : (t, m, c) ∈ s.sent := by rw [h.split]; simp
  obtain ⟨m0, m1, ht⟩ := h.msgno h2 rfl t m c hsent
  obtain ⟨more, hc1, hc2⟩ := lk_carries_prefix _ t m c rest acc hcar
  have hclen : c.length < 2147483647 := h.fits _ hsent
  -- the number of the message
  have ho := h.order
  rw [h.split, lk_inOrder_append] at ho
  have ho2 := ho.2
  simp only [Nat.zero_add] at ho2
  -- the counters of the two lists of messages
  have hans := h2.answered
  have hb2 := lk_begunCount_le rest2 acc2
  have hsp2 : lkMsgs r.sent = lkMsgs (s.got.map seenAs) + lkMsgs rest2 := by rw [h2.split, lk_msgs_append]
  have hrs : lkRpys s.sent = lkRpys (r.got.map seenAs) + (lkRpys [(t, m, c)] + lkRpys rest) := by
    rw [h.split, lk_rpys_append, ← lk_rpys_append [(t, m, c)] rest]; rfl
  rw [lk_rpys_one] at hrs
  -- lengths
  have hfl : (acc ++ f.payload).length < 2147483647 := by
    by_cases hm : f.more = true
    · rw [if_pos hm] at h9
      obtain ⟨more', e, _⟩ := lk_carries_prefix _ t m c rest _ h9
      have := congrArg List.length e
      simp only [List.length_append] at this ⊢
      omega
    · rw [if_neg hm] at h9
      rw [← h9.1]; exact hclen
  -- the numbers afterwards
  have hnum : ∃ inc' out', (f.type = .msg → r.chan.inc.check f.more f.msgno = some inc' ∧ out' = r.chan.out) ∧
      (f.type ≠ .msg → inc' = r.chan.inc ∧ (∃ os, r.chan.out.outstanding = f.msgno :: os ∧
        out' = if f.more then r.chan.out else { r.chan.out with outstanding := os })) ∧
      (t = .msg → inc'.pending = lkRange (lkRpys r.sent) (lkMsgs (r.got.map seenAs) + 1) ∧
        inc'.fragment = (if f.more then m else -1)) ∧
      (t ≠ .msg → f.more = false → out'.outstanding = lkRange (lkRpys (r.got.map seenAs) + 1) (lkMsgs r.sent) ∧
        lkRpys (r.got.map seenAs) + 1 ≤ lkMsgs r.sent) ∧
      out'.nextProposed = r.chan.out.nextProposed ∧ out'.lastFixedMore = -1 ∧ out'.limit = 0 := by
    rcases ho2 with ⟨et, em, _⟩ | ⟨et, em, _⟩
    · subst et
      have hp := h.pending
      have hfr := h.fragment
      have han := h.answered
      by_cases ha : acc = []
      · subst ha
        rw [lk_begun_nil] at hfr
        simp only [lkBegunCount, lk_begun_nil, Option.toList, List.length_nil, Nat.add_zero] at hp han
        simp only [Option.getD_none] at hfr
        have hnm : m ∉ r.chan.inc.pending := by rw [hp, em]; exact lk_range_mem _ _ _ (Nat.le_refl _)
        refine ⟨⟨r.chan.inc.pending ++ [m], if f.more then m else -1⟩, r.chan.out, fun _ => ⟨?_, rfl⟩, fun hx => absurd h3 hx,
          fun _ => ⟨?_, rfl⟩, fun hx => absurd rfl hx, rfl, h2.fixed, h2.limit⟩
        · unfold Incoming.check
          rw [h5, if_neg (by simp [hfr])]
          cases f.more with
          | true => simp [hfr, hnm]
          | false =>
            simp only [Bool.false_eq_true, if_false]
            rw [if_neg (by simp [hfr]), if_neg hnm]
            simp [hfr]
        · show r.chan.inc.pending ++ [m] = _
          rw [hp, em, lk_range_snoc _ _ han]
      · rw [lk_begun_msg m c rest acc ha] at hfr
        simp only [lkBegunCount, lk_begun_msg m c rest acc ha, Option.toList, List.length_singleton] at hp han
        simp only [Option.getD_some] at hfr
        refine ⟨⟨r.chan.inc.pending, if f.more then m else -1⟩, r.chan.out, fun _ => ⟨?_, rfl⟩, fun hx => absurd h3 hx,
          fun _ => ⟨hp, rfl⟩, fun hx => absurd rfl hx, rfl, h2.fixed, h2.limit⟩
        unfold Incoming.check
        rw [h5, if_neg (by simp [hfr])]
        have hne : r.chan.inc.fragment ≠ -1 := by rw [hfr]; omega
        cases f.more with
        | true =>
          simp only [if_true]
          rw [if_neg hne, ← hfr]
        | false =>
          simp only [Bool.false_eq_true, if_false]
          rw [if_pos hne]
    · have hne : t ≠ .msg := by rcases et with et | et <;> rw [et] <;> decide
      rw [if_neg hne] at hrs
      have hlt : lkRpys (r.got.map seenAs) < lkMsgs r.sent := by omega
      have hou := h2.outstanding
      rw [lk_range_cons _ _ hlt, ← em] at hou
      refine ⟨r.chan.inc, _, fun hx => absurd (h3 ▸ hx) hne, fun _ => ⟨rfl, _, by rw [h5]; exact hou, rfl⟩, fun hx => absurd hx hne,
        fun _ hm => ⟨by rw [hm]; rfl, hlt⟩, ?_, ?_, ?_⟩
      · cases f.more <;> rfl
      · cases f.more <;> exact h2.fixed
      · cases f.more <;> exact h2.limit
  obtain ⟨inc', out', n1, n2, n3, n4, n5, n6, n7⟩ := hnum
  have hjoin := h.frags.join
  have hjn : f.more = true → ∀ p, r.chan.previous.getLast? = some p → p.toV.joinable f.toV = true := by
    intro hm p hp
    have hpm : p ∈ r.chan.previous := List.mem_of_getLast? hp
    obtain ⟨c', r', e, e2, e3, e4⟩ := h.frags.all p hpm
    simp only [List.cons.injEq, Prod.mk.injEq] at e
    have hex := h.frags.last p hp
    have hsq : f.seqno = r.chan.win.expected := receive_seqno hr
    unfold VFrame.joinable Frame.toV
    simp only
    have e6 : p.type = f.type := by rw [h3, e.1.1]
    have e7 : p.msgno = f.msgno := by rw [h5, e.1.2.1]
    have e8 : u32 ((p.seqno : Int) + p.size + ((0 : Nat) : Int)) = f.seqno := by
      rw [hsq, ← hex]; simp
    simp [e6, e7, e4, e2, h4, e3, h6, e8] <;> simpa using e8
  have hpv : ∀ p ∈ r.chan.previous, p.type = f.type ∧ p.msgno = f.msgno := by
    intro p hp
    obtain ⟨c', r', e, _⟩ := h.frags.all p hp
    simp only [List.cons.injEq, Prod.mk.injEq] at e
    exact ⟨by rw [h3, e.1.1], by rw [h5, e.1.2.1]⟩
  obtain ⟨q1, o, c', q2, q3, q4, q5, q6, q7, q8, q9, q10, q11⟩ := lk_process hs hflag hl1 hl2 hr inc' out'
    (by rw [h3]; exact ht) n1 n2 hjn hpv (by rw [hjoin]; exact hfl)
  refine ⟨q1, o, c', q2, q3, q6, q7, q8, q9, ?_⟩
  intro r' e1 e2 e3 e4
  by_cases hm : f.more = true
  · obtain ⟨k1, k2⟩ := q10 hm
    rw [k1] at e4
    have e4 : r'.got = r.got := e4
    rw [if_pos hm] at h9
    have hane : acc ++ f.payload ≠ [] := by simp [h8]
    refine ⟨(t, m, c) :: rest, acc ++ f.payload, ?_, ?_⟩
    · refine ⟨by rw [e4]; exact h.split, h9, ?_, h.fits, h.order, ?_, ?_, ?_, h.outstanding, h.repliesLe, h.proposed, h.fixed, h.limit,
        h.small, by rw [e4]; exact h.whole⟩
      · rw [e1, k2, q3, hw]
        refine ⟨by rw [List.flatMap_append, hjoin]; simp, fun hx => absurd hx hane, ?_, ?_⟩
        · intro g hg
          rcases List.mem_append.mp hg with hg | hg
          · exact h.frags.all g hg
          · rw [List.mem_singleton.mp hg, h3, h5]
            exact ⟨c, rest, rfl, h4, h6, hm⟩
        · intro g hg
          simp only [List.getLast?_append, List.getLast?_singleton, Option.some_or, Option.some.injEq] at hg
          rw [hg]
      · rw [e1, e2, e4, q4]
        by_cases et : t = .msg
        · subst et
          simp only [lkBegunCount, lk_begun_msg m c rest _ hane, Option.toList, List.length_singleton]
          exact (n3 rfl).1
        · have hb := lk_begun_rpy t m c rest acc et
          have hp := h.pending
          simp only [lkBegunCount, hb] at hp
          simp only [lkBegunCount, lk_begun_rpy t m c rest _ et]
          rw [(n2 (by rw [h3]; exact et)).1]
          exact hp
      · rw [e2, e4]
        have := h.answered
        by_cases et : t = .msg
        · subst et
          have hle : lkBegunCount ((.msg, m, c) :: rest) acc ≤ 1 := by
            unfold lkBegunCount; cases lkBegun ((.msg, m, c) :: rest) acc <;> simp
          simp only [lkBegunCount, lk_begun_msg m c rest _ hane, Option.toList, List.length_singleton]
          omega
        · simp only [lkBegunCount, lk_begun_rpy t m c rest _ et] at this ⊢
          exact this
      · rw [e1, q4]
        by_cases et : t = .msg
        · subst et
          rw [(n3 rfl).2, lk_begun_msg m c rest _ hane, if_pos hm]; rfl
        · rw [(n2 (by rw [h3]; exact et)).1, lk_begun_rpy t m c rest _ et]
          have := h.fragment
          rw [lk_begun_rpy t m c rest _ et] at this
          exact this
    · have hout : out'.outstanding = r.chan.out.outstanding := by
        by_cases et : t = .msg
        · rw [(n1 (by rw [h3]; exact et)).2]
        · obtain ⟨_, os, _, x⟩ := n2 (by rw [h3]; exact et)
          rw [x, if_pos hm]
      refine ⟨by rw [e2]; exact h2.split, by rw [e3]; exact h2.carries, h2.frags, by rw [e2]; exact h2.fits, by rw [e2]; exact h2.order, h2.pending,
        h2.answered, h2.fragment, ?_, ?_, ?_, ?_, ?_, by rw [e2]; exact h2.small, h2.whole⟩
      · rw [e1, e2, e4, q5, hout]; exact h2.outstanding
      · rw [e2, e4]; exact h2.repliesLe
      · rw [e1, e2, q5, n5]; exact h2.proposed
      · rw [e1, q5]; exact n6
      · rw [e1, q5]; exact n7
  · have hm' : f.more = false := by simpa using hm
    obtain ⟨k1, d, k2, k3, k4, k5⟩ := q11 hm'
    rw [k2] at e4
    have e4 : r'.got = r.got ++ [d] := e4
    rw [if_neg hm] at h9
    have k4 : seenAs d = (t, m, c) := by rw [k4, h3, h5, hjoin, ← h9.1]
    have hgot : r'.got.map seenAs = r.got.map seenAs ++ [(t, m, c)] := by rw [e4, List.map_append, List.map_cons, k4]; rfl
    refine ⟨rest, [], ?_, ?_⟩
    · refine ⟨by rw [hgot, h.split]; simp, h9.2, by rw [e1, k1]; exact lk_fragments_nil _ _ _, h.fits, h.order, ?_, ?_, ?_, h.outstanding,
        h.repliesLe, h.proposed, h.fixed, h.limit, h.small, ?_⟩
      · rw [e1, e2, hgot, q4, lk_msgs_append, lk_msgs_one]
        simp only [lkBegunCount, lk_begun_nil, Option.toList, List.length_nil, Nat.add_zero]
        by_cases et : t = .msg
        · rw [if_pos et]; exact (n3 et).1
        · have hp := h.pending
          simp only [lkBegunCount, lk_begun_rpy t m c rest _ et, Option.toList, List.length_nil] at hp
          rw [if_neg et, (n2 (by rw [h3]; exact et)).1]
          exact hp
      · rw [e2, hgot, lk_msgs_append, lk_msgs_one]
        have := h.answered
        by_cases et : t = .msg
        · have hle : lkBegunCount ((t, m, c) :: rest) acc ≤ 1 := by
            unfold lkBegunCount; cases lkBegun ((t, m, c) :: rest) acc <;> simp
          rw [if_pos et]
          omega
        · simp only [lkBegunCount, lk_begun_rpy t m c rest _ et, Option.toList, List.length_nil] at this
          omega
      · rw [e1, q4, lk_begun_nil]
        by_cases et : t = .msg
        · rw [(n3 et).2, if_neg hm]; rfl
        · rw [(n2 (by rw [h3]; exact et)).1]
          have := h.fragment
          rw [lk_begun_rpy t m c rest _ et] at this
          exact this
      · intro x hx
        rw [e4] at hx
        rcases List.mem_append.mp hx with hx | hx
        · exact h.whole x hx
        · rw [List.mem_singleton.mp hx]; exact ⟨k3, k5⟩
    · refine ⟨by rw [e2]; exact h2.split, by rw [e3]; exact h2.carries, h2.frags, by rw [e2]; exact h2.fits, by rw [e2]; exact h2.order, h2.pending,
        h2.answered, h2.fragment, ?_, ?_, ?_, ?_, ?_, by rw [e2]; exact h2.small, h2.whole⟩
      · rw [e1, e2, hgot, q5, lk_rpys_append, lk_rpys_one]
        by_cases et : t = .msg
        · rw [if_pos et, (n1 (by rw [h3]; exact et)).2]; exact h2.outstanding
        · rw [if_neg et]; exact (n4 et hm').1
      · rw [e2, hgot, lk_rpys_append, lk_rpys_one]
        by_cases et : t = .msg
        · rw [if_pos et]; exact h2.repliesLe
        · rw [if_neg et]; exact (n4 et hm').2
      · rw [e1, e2, q5, n5]; exact h2.proposed
      · rw [e1, q5]; exact n6
      · rw [e1, q5]; exact n7

end Verif.Proof
