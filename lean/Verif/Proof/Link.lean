import Verif.Proof.LinkSide
import Verif.Proof.LinkRead
import Verif.Proof.Peers
import Verif.Proof.SendBuffer
/-! Two endpoints on a byte stream: the invariant. -/
namespace Verif.Proof
open Verif.Model Verif.Spec

/-- The data frames in flight. -/
def lkData (fs : List Frame) : List Frame := fs.filter (fun f => !decide (f.type = .seq))

/-- The SEQ lines in flight. -/
def lkLines (fs : List Frame) : List (List Byte) :=
  (fs.filter (fun f => decide (f.type = .seq))).map (fun f => (headerOf f).getD [])

theorem lk_data_snoc (fs : List Frame) (f : Frame) :
    lkData (fs ++ [f]) = lkData fs ++ (if f.type = .seq then [] else [f]) := by
  unfold lkData; rw [List.filter_append]; by_cases h : f.type = .seq <;> simp [h]

theorem lk_lines_snoc (fs : List Frame) (f : Frame) :
    lkLines (fs ++ [f]) = lkLines fs ++ (if f.type = .seq then [(headerOf f).getD []] else []) := by
  unfold lkLines; rw [List.filter_append, List.map_append]; by_cases h : f.type = .seq <;> simp [h]

theorem lk_data_cons (f : Frame) (fs : List Frame) :
    lkData (f :: fs) = (if f.type = .seq then [] else [f]) ++ lkData fs := by
  unfold lkData; by_cases h : f.type = .seq <;> simp [h]

theorem lk_lines_cons (f : Frame) (fs : List Frame) :
    lkLines (f :: fs) = (if f.type = .seq then [(headerOf f).getD []] else []) ++ lkLines fs := by
  unfold lkLines; by_cases h : f.type = .seq <;> simp [h]

/-- What does not change at an endpoint. -/
structure Self (e : Endpoint) : Prop where
  shut : e.chan.shut = false
  flag : e.chan.completeFlag = true
  l1 : e.chan.channelLimit = 0
  l2 : e.chan.connLimit = 0
  buf : initialBufferSize ≤ e.buf
  win : e.chan.win.desired < 2147483640

/-- Octets queued by operations. -/
def lkOctets (ops : List PeersOp) : Nat := (ops.map peersOctets).sum

/-- Flow control of the data from `s` to `r`; `later` is what the applications are still going to do, and `N` octets
are at least the whole data. -/
def FlowOk (ch : Nat) (s r : Endpoint) (fs gs : List Frame) (later : List PeersOp) (N : Nat) : Prop :=
  ∃ S E C c0 total last, PeersInv ch ⟨s.snd, r.chan.win, lkData fs, lkLines gs⟩ S E C c0 total last ∧ GrowEarly total last later ∧
    total + lkOctets later ≤ N

structure LinkInv (ch : Nat) (l : Link) (na nb : Nat) (fs gs : List Frame) (opsA opsB : List PeersOp) (NA NB : Nat) : Prop where
  selfA : Self l.a
  selfB : Self l.b
  rdA : Progress na l.a.rd l.ba gs
  rdB : Progress nb l.b.rd l.ab fs
  chF : ∀ f ∈ fs, f.channel = ch
  chG : ∀ f ∈ gs, f.channel = ch
  flowA : FlowOk ch l.a l.b fs gs opsA NA
  flowB : FlowOk ch l.b l.a gs fs opsB NB
  sideA : ∃ rest acc, Side ch l.a l.b (lkData fs) rest acc
  sideB : ∃ rest acc, Side ch l.b l.a (lkData gs) rest acc

theorem LinkInv.swap {ch l na nb fs gs opsA opsB NA NB} (h : LinkInv ch l na nb fs gs opsA opsB NA NB) :
    LinkInv ch l.swap nb na gs fs opsB opsA NB NA :=
  ⟨h.selfB, h.selfA, h.rdB, h.rdA, h.chG, h.chF, h.flowB, h.flowA, h.sideB, h.sideA⟩

/-- What a step of one side means for flow control: contents queued and windows configured. -/
def lkQueued : LinkOp → List PeersOp
  | .send c | .reply _ c => [.queue ⟨.msg, 0, 0, 0, false, c⟩]
  | _ => []

def lkWindows : LinkOp → List PeersOp
  | .setWindow n => [.setWindow n]
  | _ => []

/-- More octets may be announced than are queued. -/
theorem lk_flow_total {ch p S E C c0 total last} (h : PeersInv ch p S E C c0 total last) (k : Nat) :
    PeersInv ch p S E C c0 (total + k) last :=
  ⟨h.snd, h.rc, h.rwpos, h.own, h.pend, h.rcv, h.data, h.seqs, h.half, h.des, h.grow, h.early, by have := h.tot; omega⟩

/-- The window of the sender itself only limits the size of its frames. -/
theorem lk_flow_own {ch : Nat} {c : SendChan} {r d q S E C c0 total last} (h : PeersInv ch ⟨c, r, d, q⟩ S E C c0 total last)
    (n : Int) (hn : 0 < n) :
    PeersInv ch ⟨{ c with win := { c.win with windowSize := n } }, r, d, q⟩ S E C c0 total last :=
  ⟨ownWindow_inv h.snd n, h.rc, h.rwpos, hn, h.pend, h.rcv, h.data, h.seqs, h.half, h.des, h.grow, h.early, h.tot⟩

theorem lk_flow_queue {ch : Nat} (hch : ch < 2147483648) {s s' r : Endpoint} {fs gs later N} {c : List Byte}
    (h : FlowOk ch s r fs gs (.queue ⟨.msg, 0, 0, 0, false, c⟩ :: later) N) (hc : c ≠ []) (m : OutMsg) (hm : m.message = c)
    (hs : s'.snd = s.snd.queue m) : FlowOk ch s' r fs gs later N := by
  obtain ⟨S, E, C, c0, total, last, h1, h2, hN⟩ := h
  have h2 : GrowEarly total last (.queue m :: later) := by
    show GrowEarly (total + m.message.length) last later
    rw [hm]; exact h2
  obtain ⟨p', e, S', E', C', c0', t', l', h3, h4, ht⟩ := peers_step ch hch (.queue m) later _ _ _ _ _ _ _ h1
    (by intro m' e; injection e with e; subst e; right; rw [hm]; exact hc) h2 (by intro e; cases e)
  simp only [Peers.step, Option.some.injEq] at e
  subst e
  refine ⟨S', E', C', c0', t', l', ?_, h4, ?_⟩
  · rw [hs]; exact h3
  · simp only [lkOctets, List.map_cons, List.sum_cons, peersOctets, hm] at hN ht ⊢
    omega

/-- Only the fields named matter. -/
theorem FlowOk.congr {ch s r s' r' fs gs fs' gs' later N} (h : FlowOk ch s r fs gs later N) (e1 : s'.snd = s.snd)
    (e2 : r'.chan.win = r.chan.win) (e3 : lkData fs' = lkData fs) (e4 : lkLines gs' = lkLines gs) :
    FlowOk ch s' r' fs' gs' later N := by
  unfold FlowOk; rw [e1, e2, e3, e4]; exact h

/-- `vortex_channel_send_msg`. -/
theorem lk_send {ch : Nat} (hch : ch < 2147483648) {l na nb fs gs opsA opsB NA NB} {c : List Byte}
    (h : LinkInv ch l na nb fs gs (lkQueued (.send c) ++ opsA) opsB NA NB) (hc : c ≠ []) (hlen : c.length < 2147483647)
    (hsm : lkMsgs l.a.sent + 1 ≤ 2147483648) :
    LinkInv ch (l.stepA ch (.send c)) na nb fs gs opsA opsB NA NB ∧
    (l.stepA ch (.send c)).a.sent = l.a.sent ++ [(.msg, (lkMsgs l.a.sent : Int), c)] := by
  obtain ⟨rest, acc, sA⟩ := h.sideA
  obtain ⟨rest2, acc2, sB⟩ := h.sideB
  have hsend : l.a.chan.out.sendMsg false = (.sent (lkMsgs l.a.sent),
      { l.a.chan.out with nextProposed := lkMsgs l.a.sent, outstanding := l.a.chan.out.outstanding ++ [(lkMsgs l.a.sent : Int)] }) := by
    unfold OutChan.sendMsg
    rw [if_neg (by simp [sA.limit]), if_neg (by simp [sA.fixed])]
    have e : i32 (l.a.chan.out.nextProposed + 1) = lkMsgs l.a.sent := by
      rw [sA.proposed, i32_small _ (by omega) (by omega)]; omega
    simp only [OutChan.nextMsgNo, e]
    rw [if_neg (by omega)]
    simp
  have hstep : l.stepA ch (.send c) = { l with a := l.a.send ch c } := by
    unfold Link.stepA; rw [if_neg (by simp [h.selfA.shut])]
  have hsnd : l.a.send ch c = { l.a with
      chan := { l.a.chan with out := { l.a.chan.out with nextProposed := lkMsgs l.a.sent, outstanding := l.a.chan.out.outstanding ++ [(lkMsgs l.a.sent : Int)] } }
      snd := l.a.snd.queue ⟨.msg, ch, lkMsgs l.a.sent, 0, false, c⟩
      sent := l.a.sent ++ [(.msg, (lkMsgs l.a.sent : Int), c)] } := by
    unfold Endpoint.send; simp only [hsend]
  rw [hstep, hsnd]
  have hms : lkMsgs (l.a.sent ++ [(.msg, (lkMsgs l.a.sent : Int), c)]) = lkMsgs l.a.sent + 1 := by
    rw [lk_msgs_append, lk_msgs_one, if_pos rfl]
  have hrs : lkRpys (l.a.sent ++ [(.msg, (lkMsgs l.a.sent : Int), c)]) = lkRpys l.a.sent := by
    rw [lk_rpys_append, lk_rpys_one, if_pos rfl]; rfl
  have hb := lk_begun_queue rest (.msg, (lkMsgs l.a.sent : Int), c) acc (lk_carries_acc sA.carries)
  refine ⟨⟨⟨h.selfA.shut, h.selfA.flag, h.selfA.l1, h.selfA.l2, h.selfA.buf, h.selfA.win⟩, h.selfB, h.rdA, h.rdB, h.chF, h.chG, ?_,
    h.flowB.congr rfl rfl rfl rfl, ⟨rest ++ [(.msg, (lkMsgs l.a.sent : Int), c)], acc, ?_⟩, ⟨rest2, acc2, ?_⟩⟩, rfl⟩
  · exact lk_flow_queue hch h.flowA hc _ rfl rfl
  · refine ⟨by rw [sA.split, List.append_assoc], lk_carries_queue ch .msg _ c hc _ _ _ _ sA.carries, sA.frags.queue _, ?_, ?_, ?_, ?_, ?_, ?_,
      ?_, ?_, sA.fixed, sA.limit, by rw [hms]; exact hsm, sA.whole⟩
    · intro x hx
      rcases List.mem_append.mp hx with hx | hx
      · exact sA.fits x hx
      · rw [List.mem_singleton.mp hx]; exact hlen
    · rw [lk_inOrder_append]
      exact ⟨sA.order, .inl ⟨rfl, by simp, trivial⟩⟩
    · unfold lkBegunCount; rw [hb]; exact sA.pending
    · unfold lkBegunCount; rw [hb]; exact sA.answered
    · rw [hb]; exact sA.fragment
    · show l.a.chan.out.outstanding ++ [(lkMsgs l.a.sent : Int)] = lkRange (lkRpys (l.a.got.map seenAs)) (lkMsgs (l.a.sent ++ _))
      rw [hms, lk_range_snoc _ _ sA.repliesLe, sA.outstanding]
    · rw [hms]; exact Nat.le_succ_of_le sA.repliesLe
    · show (lkMsgs l.a.sent : Int) = (lkMsgs (l.a.sent ++ _) : Int) - 1
      rw [hms]; omega
  · refine ⟨sB.split, sB.carries, sB.frags, sB.fits, sB.order, ?_, ?_, sB.fragment, sB.outstanding, sB.repliesLe, sB.proposed, sB.fixed, sB.limit,
      sB.small, sB.whole⟩
    · show l.a.chan.inc.pending = lkRange (lkRpys (l.a.sent ++ _)) _
      rw [hrs]; exact sB.pending
    · rw [hrs]; exact sB.answered

/-- `vortex_channel_send_rpy` and `vortex_channel_send_err`. -/
theorem lk_reply {ch : Nat} (hch : ch < 2147483648) {l na nb fs gs opsA opsB NA NB} {err : Bool} {c : List Byte}
    (h : LinkInv ch l na nb fs gs (lkQueued (.reply err c) ++ opsA) opsB NA NB) (hc : c ≠ []) (hlen : c.length < 2147483647) :
    LinkInv ch (l.stepA ch (.reply err c)) na nb fs gs opsA opsB NA NB ∧
    ((l.stepA ch (.reply err c)).a.sent = l.a.sent ∨
      ∃ t m, t ≠ .msg ∧ (l.stepA ch (.reply err c)).a.sent = l.a.sent ++ [(t, m, c)]) := by
  obtain ⟨rest, acc, sA⟩ := h.sideA
  obtain ⟨rest2, acc2, sB⟩ := h.sideB
  have hstep : l.stepA ch (.reply err c) = { l with a := l.a.reply ch err c } := by
    unfold Link.stepA; rw [if_neg (by simp [h.selfA.shut])]
  rw [hstep]
  cases hp : l.a.chan.inc.pending with
  | nil =>
    have e : l.a.reply ch err c = l.a := by unfold Endpoint.reply; rw [hp]
    rw [e]
    refine ⟨⟨h.selfA, h.selfB, h.rdA, h.rdB, h.chF, h.chG, ?_, h.flowB, ⟨rest, acc, sA⟩, ⟨rest2, acc2, sB⟩⟩, .inl rfl⟩
    obtain ⟨S, E, C, c0, total, last, h1, h2, hN⟩ := h.flowA
    refine ⟨S, E, C, c0, total + c.length, last, lk_flow_total h1 _, h2, ?_⟩
    simp only [lkQueued, lkOctets, List.singleton_append, List.map_cons, List.sum_cons, peersOctets] at hN ⊢
    omega
  | cons m ms =>
    have hpen := sB.pending
    have hans := sB.answered
    have hlt : lkRpys l.a.sent < lkMsgs (l.a.got.map seenAs) + lkBegunCount rest2 acc2 := by
      rcases Nat.lt_or_ge (lkRpys l.a.sent) (lkMsgs (l.a.got.map seenAs) + lkBegunCount rest2 acc2) with h1 | h1
      · exact h1
      · rw [Nat.le_antisymm hans h1, lk_range_self, hp] at hpen; simp at hpen
    rw [lk_range_cons _ _ hlt, hp] at hpen
    simp only [List.cons.injEq] at hpen
    obtain ⟨hm, hms⟩ := hpen
    have hte : (if err then FType.err else FType.rpy) = .rpy ∨ (if err then FType.err else FType.rpy) = .err := by
      cases err <;> simp
    have e : l.a.reply ch err c = { l.a with
        chan := { l.a.chan with inc := { l.a.chan.inc with pending := ms } }
        snd := l.a.snd.queue ⟨if err then .err else .rpy, ch, m, 0, false, c⟩
        sent := l.a.sent ++ [(if err then .err else .rpy, m, c)] } := by
      unfold Endpoint.reply
      rw [hp]
      simp only [Incoming.removeFirst, hp, List.headD_cons, if_true, List.drop_succ_cons, List.drop_zero]
    rw [e]
    generalize (if err then FType.err else FType.rpy) = t at *
    have hne : t ≠ .msg := by rcases hte with h1 | h1 <;> rw [h1] <;> decide
    have hmsg : lkMsgs (l.a.sent ++ [(t, m, c)]) = lkMsgs l.a.sent := by
      rw [lk_msgs_append, lk_msgs_one, if_neg hne]; rfl
    have hrs : lkRpys (l.a.sent ++ [(t, m, c)]) = lkRpys l.a.sent + 1 := by
      rw [lk_rpys_append, lk_rpys_one, if_neg hne]
    have hb := lk_begun_queue rest (t, m, c) acc (lk_carries_acc sA.carries)
    refine ⟨⟨⟨h.selfA.shut, h.selfA.flag, h.selfA.l1, h.selfA.l2, h.selfA.buf, h.selfA.win⟩, h.selfB, h.rdA, h.rdB, h.chF, h.chG, ?_,
      h.flowB.congr rfl rfl rfl rfl, ⟨rest ++ [(t, m, c)], acc, ?_⟩, ⟨rest2, acc2, ?_⟩⟩, .inr ⟨t, m, hne, rfl⟩⟩
    · exact lk_flow_queue hch h.flowA hc _ rfl rfl
    · refine ⟨by rw [sA.split, List.append_assoc], lk_carries_queue ch t m c hc _ _ _ _ sA.carries, sA.frags.queue _, ?_, ?_, ?_, ?_, ?_, ?_,
        ?_, ?_, sA.fixed, sA.limit, by rw [hmsg]; exact sA.small, sA.whole⟩
      · intro x hx
        rcases List.mem_append.mp hx with hx | hx
        · exact sA.fits x hx
        · rw [List.mem_singleton.mp hx]; exact hlen
      · rw [lk_inOrder_append]
        exact ⟨sA.order, .inr ⟨hte, by simp [hm], trivial⟩⟩
      · unfold lkBegunCount; rw [hb]; exact sA.pending
      · unfold lkBegunCount; rw [hb]; exact sA.answered
      · rw [hb]; exact sA.fragment
      · show l.a.chan.out.outstanding = lkRange _ (lkMsgs (l.a.sent ++ _))
        rw [hmsg]; exact sA.outstanding
      · rw [hmsg]; exact sA.repliesLe
      · show l.a.chan.out.nextProposed = (lkMsgs (l.a.sent ++ _) : Int) - 1
        rw [hmsg]; exact sA.proposed
    · refine ⟨sB.split, sB.carries, sB.frags, sB.fits, sB.order, ?_, ?_, sB.fragment, sB.outstanding, sB.repliesLe, sB.proposed, sB.fixed,
        sB.limit, sB.small, sB.whole⟩
      · show ms = lkRange (lkRpys (l.a.sent ++ _)) _
        rw [hrs]; exact hms
      · rw [hrs]; exact hlt

/-- `vortex_channel_set_window_size`. -/
theorem lk_setWindow {ch : Nat} (hch : ch < 2147483648) {l na nb fs gs opsA opsB NA NB} {n : Int}
    (h : LinkInv ch l na nb fs gs opsA (lkWindows (.setWindow n) ++ opsB) NA NB) (hn : n < 2147483640) :
    LinkInv ch (l.stepA ch (.setWindow n)) na nb fs gs opsA opsB NA NB := by
  obtain ⟨rest2, acc2, sB⟩ := h.sideB
  have hstep : l.stepA ch (.setWindow n) = { l with a := { l.a with chan := { l.a.chan with win := l.a.chan.win.setWindow n } } } := by
    unfold Link.stepA; rw [if_neg (by simp [h.selfA.shut])]
  rw [hstep]
  have hexp : (l.a.chan.win.setWindow n).expected = l.a.chan.win.expected := by
    unfold RecvWin.setWindow; split <;> rfl
  refine ⟨⟨h.selfA.shut, h.selfA.flag, h.selfA.l1, h.selfA.l2, h.selfA.buf, ?_⟩, h.selfB, h.rdA, h.rdB, h.chF, h.chG,
    h.flowA.congr rfl rfl rfl rfl, ?_, ?_, ⟨rest2, acc2, ?_⟩⟩
  · show (l.a.chan.win.setWindow n).desired < _
    unfold RecvWin.setWindow
    split
    · exact hn
    · exact h.selfA.win
  · obtain ⟨S, E, C, c0, total, last, h1, h2, hN⟩ := h.flowB
    obtain ⟨p', e, S', E', C', c0', t', l', h3, h4, hto⟩ := peers_step ch hch (.setWindow n) opsB _ _ _ _ _ _ _ h1
      (by intro m' e; cases e) h2 (by intro e; cases e)
    simp only [Peers.step, Option.some.injEq] at e
    subst e
    refine ⟨S', E', C', c0', t', l', h3, h4, ?_⟩
    simp only [lkWindows, lkOctets, List.singleton_append, List.map_cons, List.sum_cons, peersOctets] at hN hto ⊢
    omega
  · obtain ⟨rest, acc, sA⟩ := h.sideA
    exact ⟨rest, acc, sA.split, sA.carries, sA.frags, sA.fits, sA.order, sA.pending, sA.answered, sA.fragment, sA.outstanding, sA.repliesLe,
      sA.proposed, sA.fixed, sA.limit, sA.small, sA.whole⟩
  · refine ⟨sB.split, sB.carries, ?_, sB.fits, sB.order, sB.pending, sB.answered, sB.fragment, sB.outstanding, sB.repliesLe, sB.proposed, sB.fixed,
      sB.limit, sB.small, sB.whole⟩
    show Fragments _ _ _ l.a.chan.previous (l.a.chan.win.setWindow n).expected
    rw [hexp]; exact sB.frags

/-- The octets of a data frame. -/
theorem lk_packet {f : Frame} (ht : f.type ≠ .seq) (hsz : f.size = f.payload.length) (buf : Nat) (hb : initialBufferSize ≤ buf) :
    ∃ header buf', headerOf f = some header ∧ initialBufferSize ≤ buf' ∧ header.length ≤ 62 ∧
      buildPacket f.type f.channel f.msgno f.more f.seqno f.ansno f.payload buf = (buf', .built (header ++ bodyOf f)) := by
  obtain ⟨hd, e, hl⟩ := buildHeader_length f.type f.channel f.msgno f.more f.seqno f.size (if f.type = .ans then f.ansno else -1)
  have hc := check_ge f.payload.length buf
  have hh : headerOf f = some hd := by unfold headerOf; rw [if_neg ht]; exact e
  have ha : announcedSize (f.payload.length : Int) none none = f.size := by
    unfold announcedSize; simp [hsz]
  refine ⟨hd, (if f.payload.length > 0 then checkAndIncreaseBuffer f.payload.length buf else buf), hh, ?_, hl, ?_⟩
  · split
    · omega
    · exact hb
  · unfold buildPacket
    dsimp only
    unfold initialBufferSize at hb
    have hbs : hd.length + f.payload.length + 5 < (if f.payload.length > 0 then checkAndIncreaseBuffer f.payload.length buf else buf) := by
      split <;> omega
    generalize (if f.payload.length > 0 then checkAndIncreaseBuffer f.payload.length buf else buf) = bs at hbs ⊢
    unfold buildFrame bodyOf
    simp only [ha, e]
    rw [if_neg (by omega), if_neg ht]
    simp

/-- What the sequencer thread does. -/
theorem lk_round_header {ch : Nat} (hch : ch < 2147483648) {l na nb fs gs opsA opsB NA NB}
    (h : LinkInv ch l na nb fs gs opsA opsB NA NB) :
    (l.stepA ch .round = l ∧ (l.a.snd.win.stalled = true ∨ l.a.snd.pending = [])) ∨
    ∃ f header, headerOf f = some header ∧ LinkInv ch (l.stepA ch .round) na nb (fs ++ [f]) gs opsA opsB NA NB ∧
      (l.stepA ch .round).ab = l.ab ++ (header ++ bodyOf f) ∧ (l.stepA ch .round).ba = l.ba ∧ f.type ≠ .seq ∧ header.length ≤ 62 ∧
      0 < f.size ∧ f.size ≤ 4096 ∧ f.size = f.payload.length ∧ header ≠ [] ∧
      (l.stepA ch .round).b = l.b ∧ (l.stepA ch .round).a.sent = l.a.sent ∧ (l.stepA ch .round).a.acks = l.a.acks ∧
      ((l.stepA ch .round).a.snd.pending.map (·.messageSize)).sum + f.size = (l.a.snd.pending.map (·.messageSize)).sum := by
  obtain ⟨rest, acc, sA⟩ := h.sideA
  obtain ⟨rest2, acc2, sB⟩ := h.sideB
  have hstep : l.stepA ch .round = { l with a := l.a.round.1, ab := l.ab ++ l.a.round.2 } := by
    unfold Link.stepA; rw [if_neg (by simp [h.selfA.shut])]
  by_cases hst : l.a.snd.win.stalled = true
  · left
    refine ⟨?_, .inl hst⟩
    have : l.a.round = (l.a, []) := by unfold Endpoint.round SendChan.round; simp [hst]
    rw [hstep, this]; simp
  have hst : l.a.snd.win.stalled = false := by simpa using hst
  cases hp : l.a.snd.pending with
  | nil =>
    left
    refine ⟨?_, .inr rfl⟩
    have : l.a.round = (l.a, []) := by unfold Endpoint.round SendChan.round SendChan.emit; simp [hst, hp]
    rw [hstep, this]; simp
  | cons p ps =>
    right
    obtain ⟨S, E, C, c0, total, last, h1, h2, hN⟩ := h.flowA
    obtain ⟨f, cpl, w, p', hsr⟩ := sendRound_ok h1 hst p ps hp
    obtain ⟨g1, g2, g3, g4, g5, g6, g7, g8, g9, g10⟩ := sendRound_sent h1.snd p f cpl w p' hsr
    -- the first message of the queue
    have hq : ∃ t m c, p.msg = ⟨t, ch, m, 0, false, c⟩ ∧ (t, m, c) ∈ l.a.sent ∧ (p.step : Int) + p.messageSize = c.length := by
      have hcar := sA.carries
      rw [hp] at hcar
      have : ∀ (data : List Frame) (rest : List (FType × Int × List Byte)) (acc : List Byte), Carries ch rest acc data (p :: ps) →
          ∃ t m c, p.msg = ⟨t, ch, m, 0, false, c⟩ ∧ (t, m, c) ∈ rest ∧ (p.step : Int) + p.messageSize = c.length := by
        intro data
        induction data with
        | nil =>
          intro rest acc hx
          have hx := lk_carries_nil.mp hx
          cases rest with
          | nil => exact hx.elim
          | cons y rest =>
            obtain ⟨t, m, c⟩ := y
            obtain ⟨x1, x2, x3, x4, x5, x6⟩ := hx
            exact ⟨t, m, c, x1, List.mem_cons_self, by rw [x2]; omega⟩
        | cons g data ih =>
          intro rest acc hx
          cases rest with
          | nil => exact hx.elim
          | cons y rest =>
            obtain ⟨t, m, c⟩ := y
            obtain ⟨_, _, _, _, _, _, hx⟩ := hx
            by_cases hm : g.more = true
            · rw [if_pos hm] at hx
              exact ih _ _ hx
            · rw [if_neg hm] at hx
              obtain ⟨t', m', c', y1, y2, y3⟩ := ih _ _ hx.2
              exact ⟨t', m', c', y1, List.mem_cons_of_mem _ y2, y3⟩
      obtain ⟨t, m, c, y1, y2, y3⟩ := this _ _ _ hcar
      exact ⟨t, m, c, y1, by rw [sA.split]; exact List.mem_append_right _ y2, y3⟩
    obtain ⟨t, m, c, hpm, hmem, hps⟩ := hq
    obtain ⟨m0, m1, ht⟩ := sA.msgno sB rfl t m c hmem
    have hft : f.type = t := by rw [g9]; show p.msg.type = t; rw [hpm]
    have hfc : f.channel = ch := by rw [g9]; show p.msg.channel = _; rw [hpm]
    have hfm : f.msgno = m := by rw [g9]; show p.msg.msgno = m; rw [hpm]
    have hfa : f.ansno = 0 := by
      rw [g9]; show (if p.msg.type = .ans then p.msg.ansno else 0) = 0; rw [hpm]; simp
    have hfp : f.payload = (p.msg.message.drop p.step).take f.size.toNat := by
      have := congrArg Frame.payload g9; exact this
    have hfmo : f.more = !decide (f.size = p.messageSize) := by
      have := congrArg Frame.more g9
      rw [this, ← g7]
      show (!cpl || p.msg.fixedMore) = _
      rw [hpm]; simp
    have hnseq : f.type ≠ .seq := by rw [hft]; rcases ht with x | x | x <;> rw [x] <;> decide
    have hpos : 0 < f.size := by
      rcases Int.lt_or_le 0 f.size with x | x
      · exact x
      · have := g8 (by omega)
        rw [hpm] at this
        rcases ht with y | y | y <;> rw [y] at this <;> simp at this
    have hsz : f.size = f.payload.length := by
      rw [hfp, hpm, List.length_take, List.length_drop]
      show f.size = ((min f.size.toNat (c.length - p.step) : Nat) : Int)
      omega
    obtain ⟨header, buf', k1, k2, k3, k4⟩ := lk_packet hnseq hsz l.a.buf h.selfA.buf
    have hround : l.a.snd.round = some (⟨w, if cpl then ps else p' :: ps⟩, some f) := by
      unfold SendChan.round SendChan.emit
      rw [if_neg (by simp [hst])]
      simp only [hp, hsr]
    have hR : l.a.round = ({ l.a with snd := ⟨w, if cpl then ps else p' :: ps⟩, buf := buf' }, header ++ bodyOf f) := by
      unfold Endpoint.round
      simp only [hround, k4]
    rw [hstep, hR]
    have hseq : f.seqno < 4294967296 := by rw [g4, h1.snd.seq]; exact Nat.mod_lt _ (by decide)
    have hlegal : Legal f := by
      refine ⟨by rw [hfc]; omega, hseq, ⟨g1, by omega⟩, fun _ => ⟨by rw [hfm]; exact m0, by rw [hfm]; exact m1, hsz⟩, ?_, fun _ => hfa,
        fun x => absurd x hnseq⟩
      intro x
      rw [hft] at x
      rcases ht with y | y | y <;> rw [y] at x <;> cases x
    have hnext : NextFrame ch p ps f (if cpl then ps else p' :: ps) := by
      refine ⟨by rw [hft, hpm], by rw [hfc, hpm], by rw [hfm, hpm], hfa, hpos, g3, hfp, hfmo, ?_⟩
      by_cases hcp : f.size = p.messageSize
      · rw [g7, decide_eq_true hcp, if_pos hcp]; rfl
      · rw [g10, g7, decide_eq_false hcp, if_neg hcp]; rfl
    have hdata : lkData (fs ++ [f]) = lkData fs ++ [f] := by rw [lk_data_snoc, if_neg hnseq]
    have hlines : lkLines (fs ++ [f]) = lkLines fs := by rw [lk_lines_snoc, if_neg hnseq, List.append_nil]
    refine ⟨f, header, k1, ⟨⟨h.selfA.shut, h.selfA.flag, h.selfA.l1, h.selfA.l2, k2, h.selfA.win⟩, h.selfB, h.rdA,
      h.rdB.snoc f ⟨hlegal, fun x => absurd x hnseq⟩ header k1, ?_, h.chG, ?_, h.flowB.congr rfl rfl rfl hlines, ⟨rest, acc, ?_⟩, ⟨rest2, acc2, ?_⟩⟩,
      rfl, rfl, hnseq, k3, hpos, g2, hsz, ?_, rfl, rfl, rfl, ?_⟩
    · intro x hx
      rcases List.mem_append.mp hx with hx | hx
      · exact h.chF x hx
      · rw [List.mem_singleton.mp hx]; exact hfc
    · obtain ⟨P, e, S', E', C', c0', t', l', h3, h4, hto⟩ := peers_step ch hch .round opsA _ _ _ _ _ _ _ h1
        (by intro m' e; cases e) h2 (by intro e; cases e)
      simp only [Peers.step, hround, Option.some.injEq] at e
      subst e
      refine ⟨S', E', C', c0', t', l', ?_, h4, by rw [hto]; exact hN⟩
      rw [hdata]; exact h3
    · have hcar := sA.carries
      rw [hp] at hcar
      refine ⟨sA.split, ?_, sA.frags, sA.fits, sA.order, sA.pending, sA.answered, sA.fragment, sA.outstanding, sA.repliesLe, sA.proposed, sA.fixed,
        sA.limit, sA.small, sA.whole⟩
      rw [hdata]
      exact lk_carries_emit hnext _ _ _ hcar
    · exact ⟨sB.split, sB.carries, sB.frags, sB.fits, sB.order, sB.pending, sB.answered, sB.fragment, sB.outstanding, sB.repliesLe, sB.proposed,
        sB.fixed, sB.limit, sB.small, sB.whole⟩
    · obtain ⟨h0, e, _⟩ := (headerOf_line f hlegal header k1).shape
      rw [e]; simp
    · show ((if cpl then ps else p' :: ps).map (·.messageSize)).sum + f.size = ((p :: ps).map (·.messageSize)).sum
      by_cases hcp : f.size = p.messageSize
      · rw [g7, decide_eq_true hcp]
        simp only [if_true, List.map_cons, List.sum_cons]; omega
      · rw [g10, g7, decide_eq_false hcp]
        simp only [Bool.false_eq_true, if_false, List.map_cons, List.sum_cons]; omega

theorem lk_round {ch : Nat} (hch : ch < 2147483648) {l na nb fs gs opsA opsB NA NB}
    (h : LinkInv ch l na nb fs gs opsA opsB NA NB) :
    (l.stepA ch .round = l ∧ (l.a.snd.win.stalled = true ∨ l.a.snd.pending = [])) ∨
    ∃ f header, LinkInv ch (l.stepA ch .round) na nb (fs ++ [f]) gs opsA opsB NA NB ∧
      (l.stepA ch .round).ab = l.ab ++ (header ++ bodyOf f) ∧ (l.stepA ch .round).ba = l.ba ∧ f.type ≠ .seq ∧ header.length ≤ 62 ∧
      0 < f.size ∧ f.size ≤ 4096 ∧ f.size = f.payload.length ∧ header ≠ [] ∧
      (l.stepA ch .round).b = l.b ∧ (l.stepA ch .round).a.sent = l.a.sent ∧ (l.stepA ch .round).a.acks = l.a.acks ∧
      ((l.stepA ch .round).a.snd.pending.map (·.messageSize)).sum + f.size = (l.a.snd.pending.map (·.messageSize)).sum := by
  rcases lk_round_header hch h with h1 | ⟨f, header, _, h1⟩
  · exact .inl h1
  · exact .inr ⟨f, header, h1⟩

/-- A SEQ line is read as it was written. -/
theorem lk_parseSeq {f : Frame} (hf : Legal f ∧ SeqOk f) (ht : f.type = .seq) :
    parseSeq ((headerOf f).getD []) = some (f.seqno, f.size) := by
  obtain ⟨line, e1, e2⟩ := parseSeq_built f.channel.toNat (by have := hf.1.channel; omega) f.seqno (hf.2 ht) f.size hf.1.size.1
    (by have := hf.1.size.2; omega)
  have : ((f.channel.toNat : Nat) : Int) = f.channel := by have := hf.1.channel; omega
  rw [this] at e1
  unfold headerOf
  rw [if_pos ht, e1]
  exact e2

/-- The first data frame in flight is accepted. -/
theorem lk_peers_receive {ch p S E C c0 total last} (h : PeersInv ch p S E C c0 total last) {f fs} (hd : p.data = f :: fs) :
    ∃ w seq, p.rcv.receive f.seqno f.size = some (w, seq) ∧ p.rcv.check f.seqno f.size = true ∧ w.expected = u32 (f.seqno + f.size) ∧
      (∀ a n, seq = some (a, n) → n = p.rcv.desired ∧ 0 < n ∧ a < 4294967296 ∧ a ≤ total) ∧ 0 < w.windowSize ∧ w.desired = p.rcv.desired := by
  have hfl := h.data
  rw [hd] at hfl
  obtain ⟨f1, f2, f3, f4⟩ := hfl
  have hfle := f4.le
  have hrc := receive_cases h.rcv f.size f2 (by omega)
  have hck := check_iff h.rcv f.size f2 (by omega)
  obtain ⟨r1, r2, r3, r4, r5, r6, r7, r8, r9⟩ := h.rcv
  have hlim := (Grants.le h.seqs).2
  have hsl := h.snd.le
  have hrwp := h.rwpos
  have c1 : (E : Int) - C + f.size ≤ p.rcv.seqWindow := by omega
  rw [← f1, if_pos c1] at hrc
  rw [← f1] at hck
  have hadv : (p.rcv.advance f.size).expected = u32 (f.seqno + f.size) := by
    show u32 ((p.rcv.expected : Int) + u32 f.size) = _
    rw [r2, ← f1, u32_cast f.size]
    exact u32_congr _ _ (by omega)
  have hexp : u32 ((E : Int) + f.size) = u32 (f.seqno + f.size) := by
    rw [f1]; exact u32_congr _ _ (by omega)
  by_cases c2 : (C : Int) + p.rcv.seqWindow - E - f.size > p.rcv.seqWindow / 2
  · rw [if_pos c2] at hrc
    exact ⟨_, _, hrc, hck.mpr c1, hadv, (by intro a n e; cases e), r4, rfl⟩
  · rw [if_neg c2] at hrc
    split at hrc
    · exact ⟨_, _, hrc, hck.mpr c1, hadv, (by intro a n e; cases e), r4, rfl⟩
    · refine ⟨_, _, hrc, hck.mpr c1, hexp, ?_, r6, rfl⟩
      intro a n e
      simp only [Option.some.injEq, Prod.mk.injEq] at e
      obtain ⟨e1, e2⟩ := e
      have hsum := pending_sum_nonneg p.snd.pending (fun q hq => (h.pend q hq).2.2)
      have htot := h.tot
      exact ⟨e2.symm, by omega, by rw [← e1]; unfold u32; omega, by rw [← e1]; unfold u32; omega⟩

/-- A SEQ line is short. -/
theorem lk_seq_length {f : Frame} (hf : Legal f) (header : List Byte) (h : headerOf f = some header) : header.length ≤ 62 :=
  (headerOf_line f hf header h).short

/-- What the reader thread does with a frame. -/
theorem lk_handle {ch : Nat} (hch : ch < 2147483648) {l na nb fs g gs' opsA opsB NA NB} {n' : Nat} {st' : ReadState} {ba' : List Byte}
    (h : LinkInv ch l na nb fs (g :: gs') opsA opsB NA NB) (hp : Progress n' st' ba' gs')
    (hack : (∀ n ∈ (({ l.a with rd := st' } : Endpoint).handle ch g).1.acks, n < 4294967294) ∨ NB < 4294967294) :
    ∃ A out fs', ({ l.a with rd := st' } : Endpoint).handle ch g = (A, out) ∧
      LinkInv ch ⟨A, l.b, l.ab ++ out, ba'⟩ n' nb fs' gs' opsA opsB NA NB ∧
      A.sent = l.a.sent ∧ A.snd.pending = l.a.snd.pending ∧ A.rd = st' ∧ lkData fs' = lkData fs ∧
      ((out = [] ∧ fs' = fs) ∨ (g.type ≠ .seq ∧ ∃ q, fs' = fs ++ [q] ∧ (Legal q ∧ SeqOk q) ∧ headerOf q = some out ∧ bodyOf q = [] ∧
        q.channel = ch ∧ q.type = .seq ∧ out.length ≤ 62)) := by
  obtain ⟨rest, acc, sA⟩ := h.sideA
  obtain ⟨rest2, acc2, sB⟩ := h.sideB
  have hgl := h.rdA.legal g List.mem_cons_self
  obtain ⟨S, E, C, c0, total, last, f1, f2, fN⟩ := h.flowB
  have hchG : ∀ f ∈ gs', f.channel = ch := fun f hf => h.chG f (List.mem_cons_of_mem _ hf)
  by_cases ht : g.type = .seq
  · have hdg : lkData (g :: gs') = lkData gs' := by rw [lk_data_cons, if_pos ht]; rfl
    have hlg : lkLines (g :: gs') = (headerOf g).getD [] :: lkLines gs' := by rw [lk_lines_cons, if_pos ht]; rfl
    obtain ⟨S2, E2, C2, c2, total2, last2, g1, g2, gN⟩ := h.flowA
    obtain ⟨P, e, S', E', C', c0', t', l', h3, h4, hto⟩ := peers_step ch hch .deliverSeq opsA _ _ _ _ _ _ _ g1
      (by intro m' e; cases e) g2 (by intro e; cases e)
    simp only [Peers.step, hlg, lk_parseSeq hgl ht] at e
    cases hgr : l.a.snd.win.grant g.seqno (u32 g.size) with
    | none => rw [hgr] at e; cases e
    | some w =>
    rw [hgr] at e
    simp only [Option.some.injEq] at e
    subst e
    have hH : ({ l.a with rd := st' } : Endpoint).handle ch g = ({ l.a with rd := st', snd := { l.a.snd with win := w } }, []) := by
      simp only [Endpoint.handle, if_pos ht, hgr]
    refine ⟨_, _, fs, hH, ⟨⟨h.selfA.shut, h.selfA.flag, h.selfA.l1, h.selfA.l2, h.selfA.buf, h.selfA.win⟩, h.selfB, hp, ?_, h.chF, hchG, ?_, ?_,
      ⟨rest, acc, ?_⟩, ⟨rest2, acc2, ?_⟩⟩, rfl, rfl, rfl, rfl, .inl ⟨rfl, rfl⟩⟩
    · simpa using h.rdB
    · exact ⟨S', E', C', c0', t', l', h3, h4, by rw [hto]; exact gN⟩
    · exact h.flowB.congr rfl rfl hdg.symm rfl
    · exact ⟨sA.split, sA.carries, sA.frags, sA.fits, sA.order, sA.pending, sA.answered, sA.fragment, sA.outstanding, sA.repliesLe,
        sA.proposed, sA.fixed, sA.limit, sA.small, sA.whole⟩
    · rw [← hdg]
      exact ⟨sB.split, sB.carries, sB.frags, sB.fits, sB.order, sB.pending, sB.answered, sB.fragment, sB.outstanding, sB.repliesLe,
        sB.proposed, sB.fixed, sB.limit, sB.small, sB.whole⟩
  · have hdg : lkData (g :: gs') = g :: lkData gs' := by rw [lk_data_cons, if_neg ht]; rfl
    have hlg : lkLines (g :: gs') = lkLines gs' := by rw [lk_lines_cons, if_neg ht]; rfl
    obtain ⟨w, seq, e1, e2, e3, e4, e5, e6⟩ := lk_peers_receive f1 (f := g) (fs := lkData gs') hdg
    have e1 : l.a.chan.win.receive g.seqno g.size = some (w, seq) := e1
    have e6 : w.desired = l.a.chan.win.desired := e6
    rw [hdg] at sB
    obtain ⟨k1, o, c', k2, k3, k4, k5, k6, k7, k8⟩ := lk_side_read sB sA h.selfA.shut h.selfA.flag h.selfA.l1 h.selfA.l2 e1 e3
    obtain ⟨A, hH, A1, A2, A3, A4, A5, A6, A7⟩ : ∃ A : Endpoint, ({ l.a with rd := st' } : Endpoint).handle ch g = (A, match seq with
          | some (a, n) => (buildSeq ch a n).getD []
          | none => []) ∧ A.chan = c' ∧ A.rd = st' ∧ A.buf = l.a.buf ∧ A.sent = l.a.sent ∧
          A.snd = { l.a.snd with win := { l.a.snd.win with windowSize := w.windowSize } } ∧
        (A.got = match o with
          | .delivered d => l.a.got ++ [d]
          | _ => l.a.got) ∧
        (A.acks = match seq with
          | some (a, _) => l.a.acks ++ [a]
          | none => l.a.acks) := by
      unfold Endpoint.handle
      simp only [if_neg ht, k1, k2, k3]
      cases o <;> rcases seq with _ | ⟨a, n⟩ <;> exact ⟨_, rfl, rfl, rfl, rfl, rfl, rfl, rfl, rfl⟩
    have hself : ∀ e : Endpoint, e.chan = c' → e.buf = l.a.buf → Self e := by
      intro e he hb
      exact ⟨by rw [he]; exact k4, by rw [he]; exact k5, by rw [he]; exact k6, by rw [he]; exact k7, by rw [hb]; exact h.selfA.buf,
        by rw [he, k3, e6]; exact h.selfA.win⟩
    rw [hH] at hack ⊢
    obtain ⟨rest', acc', s1, s2⟩ := k8 A A1 A4 (by rw [A5]) (by rw [A6]; cases o <;> rfl)
    have hflowA : ∀ (s' : Endpoint) fs', s'.snd = { l.a.snd with win := { l.a.snd.win with windowSize := w.windowSize } } →
        lkData fs' = lkData fs → FlowOk ch s' l.b fs' gs' opsA NA := by
      intro s' fs' hs' hf'
      obtain ⟨S2, E2, C2, c2, total2, last2, g1, g2, gN⟩ := h.flowA
      refine ⟨S2, E2, C2, c2, total2, last2, ?_, g2, gN⟩
      rw [hs', hf', ← hlg]
      exact lk_flow_own g1 w.windowSize e5
    cases seq with
    | none =>
      obtain ⟨P, e, S', E', C', c0', t', l', h3, h4, hto⟩ := peers_step ch hch .deliverData opsB _ _ _ _ _ _ _ f1
        (by intro m' e; cases e) f2 (by
          intro _ f fs w a n e1' e2'
          rw [hdg] at e1'
          simp only [List.cons.injEq] at e1'
          obtain ⟨rfl, rfl⟩ := e1'
          rw [e1] at e2'; simp at e2')
      simp only [Peers.step, hdg, e1, Option.some.injEq] at e
      subst e
      refine ⟨A, _, fs, rfl, ⟨hself A A1 A3, h.selfB, (by rw [← A2] at hp; exact hp), ?_, h.chF, hchG, hflowA A _ A5 rfl, ?_, ⟨rest, acc, s2⟩,
        ⟨rest', acc', s1⟩⟩, A4, (by rw [A5]), A2, rfl, .inl ⟨rfl, rfl⟩⟩
      · simpa using h.rdB
      · refine ⟨S', E', C', c0', t', l', ?_, h4, by rw [hto]; exact fN⟩
        show PeersInv ch ⟨l.b.snd, A.chan.win, lkData gs', lkLines fs⟩ _ _ _ _ _ _
        rw [A1, k3]; exact h3
    | some an =>
      obtain ⟨a, n⟩ := an
      obtain ⟨n1, n2, n3, n4⟩ := e4 a n rfl
      have n1 : n = l.a.chan.win.desired := n1
      have ha : a < 4294967294 := by
        rcases hack with hack | hack
        · exact hack a (by show a ∈ A.acks; rw [A7]; simp)
        · omega
      have hwin := h.selfA.win
      obtain ⟨line, hb, _⟩ := parseSeq_built ch hch a ha n (by omega) (by omega)
      obtain ⟨P, e, S', E', C', c0', t', l', h3, h4, hto⟩ := peers_step ch hch .deliverData opsB _ _ _ _ _ _ _ f1
        (by intro m' e; cases e) f2 (by
          intro _ f fs w a n e1' e2'
          rw [hdg] at e1'
          simp only [List.cons.injEq] at e1'
          obtain ⟨rfl, rfl⟩ := e1'
          rw [e1] at e2'
          simp only [Option.some.injEq, Prod.mk.injEq] at e2'
          omega)
      simp only [Peers.step, hdg, e1, hb, Option.some.injEq] at e
      subst e
      let q : Frame := ⟨.seq, ch, 0, false, a, n, 0, []⟩
      have hql : Legal q ∧ SeqOk q :=
        ⟨⟨⟨by show (0 : Int) ≤ ch; omega, by show (ch : Int) < 2147483648; omega⟩, n3, ⟨by show 0 ≤ n; omega, by show n < 2147483640; omega⟩,
          fun x => absurd rfl x, fun x => (by cases x), fun _ => rfl, fun _ => ⟨rfl, rfl, rfl⟩⟩, fun _ => ha⟩
      have hqh : headerOf q = some line := by unfold headerOf; rw [if_pos rfl]; exact hb
      have hqb : bodyOf q = [] := by unfold bodyOf; rw [if_pos rfl]
      have hqd : lkData (fs ++ [q]) = lkData fs := by rw [lk_data_snoc, if_pos rfl, List.append_nil]
      have hqln : lkLines (fs ++ [q]) = lkLines fs ++ [line] := by rw [lk_lines_snoc, if_pos rfl, hqh]; rfl
      have hqlen := lk_seq_length hql.1 line hqh
      refine ⟨A, line, fs ++ [q], by simp only [hb, Option.getD_some], ⟨hself A A1 A3, h.selfB, (by rw [← A2] at hp; exact hp), ?_, ?_, hchG,
        hflowA A _ A5 hqd, ?_, ⟨rest, acc, ?_⟩, ⟨rest', acc', s1⟩⟩, A4, (by rw [A5]), A2, hqd,
        .inr ⟨ht, q, rfl, hql, hqh, hqb, rfl, rfl, hqlen⟩⟩
      · show Progress nb l.b.rd (l.ab ++ line) (fs ++ [q])
        have := h.rdB.snoc q hql line hqh
        rw [hqb, List.append_nil] at this
        exact this
      · intro x hx
        rcases List.mem_append.mp hx with hx | hx
        · exact h.chF x hx
        · rw [List.mem_singleton.mp hx]
      · refine ⟨S', E', C', c0', t', l', ?_, h4, by rw [hto]; exact fN⟩
        show PeersInv ch ⟨l.b.snd, A.chan.win, lkData gs', lkLines (fs ++ [q])⟩ _ _ _ _ _ _
        rw [A1, k3, hqln]; exact h3
      · rw [hqd]; exact s2

/-- What the reader thread does. -/
theorem lk_read {ch : Nat} (hch : ch < 2147483648) {l na nb fs gs opsA opsB NA NB} {k : Nat}
    (h : LinkInv ch l na nb fs gs opsA opsB NA NB) (hk : l.ba.take k ≠ [])
    (hn : interruptions na l.a.rd (l.ba.take k) ≤ 25)
    (hack : (∀ n ∈ (l.stepA ch (.read k)).a.acks, n < 4294967294) ∨ NB < 4294967294) :
    ∃ fs' gs', LinkInv ch (l.stepA ch (.read k)) (interruptions na l.a.rd (l.ba.take k)) nb fs' gs' opsA opsB NA NB ∧
      (l.stepA ch (.read k)).b = l.b ∧ (l.stepA ch (.read k)).a.sent = l.a.sent ∧
      (l.stepA ch (.read k)).a.snd.pending = l.a.snd.pending ∧
      (l.stepA ch (.read k)).ba.length < l.ba.length ∧ lkData fs' = lkData fs ∧
      (((l.stepA ch (.read k)).ab.length = l.ab.length ∧ (lkData gs').length ≤ (lkData gs).length) ∨
       ((l.stepA ch (.read k)).ab.length ≤ l.ab.length + 62 ∧ (lkData gs').length + 1 = (lkData gs).length)) := by
  obtain ⟨rest, acc, sA⟩ := h.sideA
  obtain ⟨rest2, acc2, sB⟩ := h.sideB
  have hba : l.ba ≠ [] := by intro e; rw [e] at hk; simp at hk
  have hsplit : l.ba.take k ++ l.ba.drop k = l.ba := List.take_append_drop k l.ba
  have hstep : l.stepA ch (.read k) = ⟨(l.a.read ch (l.ba.take k)).1, l.b, l.ab ++ (l.a.read ch (l.ba.take k)).2.1,
      (l.a.read ch (l.ba.take k)).2.2 ++ l.ba.drop k⟩ := by
    unfold Link.stepA; rw [if_neg (by simp [h.selfA.shut])]; simp only [if_neg hk]
  have hlen : l.ba.length = (l.ba.take k).length + (l.ba.drop k).length := by rw [← List.length_append, hsplit]
  have hgs := h.rdA.nonempty hba
  cases hg : gs with
  | nil => exact absurd hg hgs
  | cons g gs' =>
  subst hg
  have hrd := h.rdA
  rw [← hsplit] at hrd
  have hgl := h.rdA.legal g List.mem_cons_self
  have hgc : g.channel = ch := h.chG g List.mem_cons_self
  obtain ⟨S, E, C, c0, total, last, f1, f2, fN⟩ := h.flowB
  obtain ⟨st', r, hr, hx⟩ := lk_getNext (l.a.env ch) hrd hk (by simp [Endpoint.env, hgc])
    (by
      intro ht
      obtain ⟨w, seq, e1, e2, _⟩ := lk_peers_receive f1 (f := g) (fs := lkData gs') (by simp [lk_data_cons, ht])
      exact e2) hn
  rcases hx with ⟨hx, hp⟩ | ⟨hx, hp⟩
  · -- a frame
    have hR : l.a.read ch (l.ba.take k) = (({ l.a with rd := st' }.handle ch g).1, ({ l.a with rd := st' }.handle ch g).2, r) := by
      unfold Endpoint.read
      simp only [hx]
      exact congrArg (fun x => (_, _, x)) (lk_bytes_back r)
    rw [hstep, hR] at hack
    rw [hstep, hR]
    obtain ⟨A, out, fs', hH, hI, q1, q2, _, q3, q4⟩ := lk_handle hch h hp hack
    rw [hH]
    refine ⟨fs', gs', hI, rfl, q1, q2, ?_, q3, ?_⟩
    · simp only [List.length_append]; omega
    · rcases q4 with ⟨rfl, rfl⟩ | ⟨ht, q, _, _, _, _, _, _, hl⟩
      · refine .inl ⟨by simp, ?_⟩
        rw [lk_data_cons, List.length_append]; omega
      · refine .inr ⟨by simp only [List.length_append]; omega, ?_⟩
        rw [lk_data_cons, if_neg ht]; simp
  · have hR : l.a.read ch (l.ba.take k) = ({ l.a with rd := st' }, [], r) := by
      unfold Endpoint.read
      simp only [hx]
      exact congrArg (fun x => (_, _, x)) (lk_bytes_back r)
    rw [hstep, hR]
    refine ⟨fs, g :: gs', ⟨⟨h.selfA.shut, h.selfA.flag, h.selfA.l1, h.selfA.l2, h.selfA.buf, h.selfA.win⟩, h.selfB, hp, ?_, h.chF, h.chG,
      h.flowA, h.flowB, ⟨rest, acc, ?_⟩, ⟨rest2, acc2, ?_⟩⟩, rfl, rfl, rfl, ?_, rfl, .inl ⟨by simp, Nat.le_refl _⟩⟩
    · simpa using h.rdB
    · exact ⟨sA.split, sA.carries, sA.frags, sA.fits, sA.order, sA.pending, sA.answered, sA.fragment, sA.outstanding, sA.repliesLe,
          sA.proposed, sA.fixed, sA.limit, sA.small, sA.whole⟩
    · exact ⟨sB.split, sB.carries, sB.frags, sB.fits, sB.order, sB.pending, sB.answered, sB.fragment, sB.outstanding, sB.repliesLe,
          sB.proposed, sB.fixed, sB.limit, sB.small, sB.whole⟩
    · simp only [List.length_append]; omega

end Verif.Proof
