import Verif.Spec.SendClose
/-!
# Messages of channels that end
-/
namespace Verif.Props
open Verif.Model Verif.Spec

/-! ## What holds in every schedule -/

structure CmInv (s : Cm) : Prop where
  sref : s.sendConn = true ↔ s.sender = .sending ∨ (∃ m, s.sender = .round m) ∨ (∃ c, s.sender = .sent c)
  busy : s.sender ≠ .idle → s.ready = true
  cfree : s.chanFreed = true ↔ s.attached = false ∧ s.appChan = 0 ∧ s.ready = false
  nfree : s.connFreed = true ↔ s.appConn = 0 ∧ s.sendConn = false
  gone : s.connFreed = true → s.attached = false
  link : s.attached = true → s.link = true
  why : s.attached = false → s.del = true ∨ s.connFreed = true
  open' : s.del = false → s.connFreed = true → s.link = false ∧ s.pend = []
  inSend : s.inSend = true → 0 < s.appChan ∧ 0 < s.appConn
  all : s.released ++ s.pend = List.range s.next
  head : ∀ m, s.sender = .round m → s.pend.head? = some m
  done : s.sender = .sent true ∨ s.sender = .relock true → ∀ m, s.pend.head? = some m → m ∈ s.written
  full : s.sender = .sent true ∨ s.sender = .relock true → s.pend = [] → s.connFreed = true
  wrote : ∀ m ∈ s.written, m ∈ s.released ∨ ((s.sender = .sent true ∨ s.sender = .relock true) ∧ s.pend.head? = some m)
  cause : ∀ m ∈ s.released, m ∈ s.written ∨ s.connFreed = true
  sorted : s.written.Pairwise (· < ·)

theorem aux_cm_start (conns chans : Nat) : CmInv (Cm.start conns chans) := by
  constructor <;> simp [Cm.start]

/-- The head of the queue comes after everything that was released. -/
theorem aux_cm_after (r p : List Nat) (n m : Nat) (h : r ++ p = List.range n) (hm : p.head? = some m) :
    ∀ x ∈ r, x < m := by
  intro x hx
  cases p with
  | nil => simp at hm
  | cons a t =>
    simp at hm; subst hm
    have hs : (r ++ a :: t).Pairwise (· < ·) := h ▸ List.pairwise_lt_range
    rw [List.pairwise_append] at hs
    exact hs.2.2 x hx a (by simp)

theorem aux_cm_chan (s : Cm) : s.settleChan = { s with chanFreed := s.chanFreed || (!s.attached && s.appChan == 0 && !s.ready) } := by
  obtain ⟨appConn, sendConn, ok, connFreed, attached, link, appChan, ready, chanFreed, del, stalled, pend, next, written, released, inSend, sender, bad⟩ := s
  simp only [Cm.settleChan]; split <;> simp_all

set_option maxHeartbeats 4000000 in
theorem aux_cm_sender (s : Cm) (complete stall : Bool) (h : CmInv s) : CmInv (s.senderStep complete stall) := by
  obtain ⟨h1, h2, h3, h4, h5, h6, h7, h8, h9, h10, h11, h12, h13, h14, h15, h16⟩ := h
  obtain ⟨appConn, sendConn, ok, connFreed, attached, link, appChan, ready, chanFreed, del, stalled, pend, next, written, released, inSend, sender, bad⟩ := s
  simp only at h1 h2 h3 h4 h5 h6 h7 h8 h9 h10 h11 h12 h13 h14 h15 h16
  cases sender with
  | idle =>
    simp only [Cm.senderStep, Cm.remove, aux_cm_chan]
    split
    · split
      · constructor <;> grind
      · split <;> constructor <;> grind
    · constructor <;> grind
  | picked =>
    simp only [Cm.senderStep, Cm.remove, aux_cm_chan]
    split <;> constructor <;> grind
  | haveConn =>
    simp only [Cm.senderStep, Cm.remove, aux_cm_chan]
    split
    · constructor <;> grind
    · split <;> constructor <;> grind
  | sending =>
    simp only [Cm.senderStep]
    split <;> constructor <;> grind
  | round m =>
    have hb := aux_cm_after released pend next m h10 (h11 m rfl)
    simp only [Cm.senderStep]
    split
    · constructor <;> grind
    · split
      · constructor
        case sorted =>
          show (written ++ [m]).Pairwise (· < ·)
          rw [List.pairwise_append]
          refine ⟨h16, by simp, ?_⟩
          grind
        all_goals grind
      · constructor <;> grind
  | sent c =>
    have hm : ∀ m, pend.head? = some m → m ∈ pend := fun m hm => List.mem_of_head? hm
    simp only [Cm.senderStep, Cm.settleConn, aux_cm_chan]
    split
    · split <;> constructor <;> grind
    · constructor <;> grind
  | relock c =>
    simp only [Cm.senderStep, Cm.remove, aux_cm_chan]
    cases c
    · split
      · constructor <;> grind
      · split <;> constructor <;> grind
    · split
      · constructor <;> grind
      · cases pend with
        | nil => split <;> constructor <;> grind
        | cons m t => split <;> constructor <;> grind

set_option maxHeartbeats 4000000 in
theorem aux_cm_step (s : Cm) (op : CmOp) (h : CmInv s) : CmInv (s.step op) := by
  have h' := h
  obtain ⟨h1, h2, h3, h4, h5, h6, h7, h8, h9, h10, h11, h12, h13, h14, h15, h16⟩ := h
  cases op with
  | sender c st => exact aux_cm_sender s c st h'
  | send => simp only [Cm.step]; split <;> first | exact h' | (constructor <;> grind)
  | shutdown => simp only [Cm.step]; constructor <;> grind
  | refConn => simp only [Cm.step]; split <;> first | exact h' | (constructor <;> grind)
  | refChan => simp only [Cm.step]; split <;> first | exact h' | (constructor <;> grind)
  | unrefChan =>
    simp only [Cm.step, aux_cm_chan]; split <;> first | exact h' | (constructor <;> grind)
  | close =>
    simp only [Cm.step, aux_cm_chan]; split <;> first | exact h' | (constructor <;> grind)
  | unrefConn =>
    have hm : ∀ m, s.pend.head? = some m → m ∈ s.pend := fun m hm => List.mem_of_head? hm
    simp only [Cm.step, Cm.settleConn, aux_cm_chan]
    by_cases hx : s.appConn > (if s.inSend = true then 1 else 0)
    · rw [if_pos hx]
      split
      · split <;> constructor <;> grind
      · constructor <;> grind
    · rw [if_neg hx]; exact h'
  | seq =>
    simp only [Cm.step, Cm.insert]; split <;> try exact h'
    split
    · constructor <;> grind
    · split <;> constructor <;> grind
  | queue =>
    simp only [Cm.step, Cm.insert]; split <;> try exact h'
    have : s.released ++ (s.pend ++ [s.next]) = List.range (s.next + 1) := by
      rw [List.range_succ, ← h10, List.append_assoc]
    have hh : s.pend ≠ [] → (s.pend ++ [s.next]).head? = s.pend.head? := by
      cases s.pend <;> simp
    have hn : s.pend ++ [s.next] ≠ [] := by simp
    split
    · constructor <;> grind
    · split <;> constructor <;> grind

theorem aux_cm_run (ops : List CmOp) : ∀ s : Cm, CmInv s → CmInv (s.run ops) := by
  induction ops with
  | nil => intro s h; exact h
  | cons op ops ih => intro s h; exact ih _ (aux_cm_step s op h)

/-- **C124 (partial).** In every schedule: every message that was queued is either released, once, or in the queue; messages
are written in the order they were queued, none twice; and a message that was not written is only released with the
connection. Missing: that the queue is released too. -/
theorem C124_messages_partial (conns chans : Nat) (ops : List CmOp) :
    ((Cm.start conns chans).run ops).released ++ ((Cm.start conns chans).run ops).pend =
      List.range ((Cm.start conns chans).run ops).next ∧
    ((Cm.start conns chans).run ops).written.Pairwise (· < ·) ∧
    (∀ m ∈ ((Cm.start conns chans).run ops).written, m < ((Cm.start conns chans).run ops).next) ∧
    (∀ m ∈ ((Cm.start conns chans).run ops).released,
      m ∈ ((Cm.start conns chans).run ops).written ∨ ((Cm.start conns chans).run ops).connFreed = true) := by
  have h := aux_cm_run ops _ (aux_cm_start conns chans)
  refine ⟨h.all, h.sorted, fun m hm => ?_, h.cause⟩
  rw [← List.mem_range, ← h.all, List.mem_append]
  rcases h.wrote m hm with h' | h'
  · exact .inl h'
  · exact .inr (List.mem_of_head? h'.2)

/-- Three messages; two are written before the connection breaks and is released. -/
example : ((Cm.start 0 1).run
    [.send, .queue, .send, .queue, .sender false false, .sender false false, .sender false false, .sender false false,
     .sender true false, .sender false false, .sender false false, .send, .queue, .sender false false, .sender false false,
     .sender false false, .sender false false, .sender true false, .shutdown, .unrefConn, .sender false false]).written = [0, 1] ∧
  ((Cm.start 0 1).run
    [.send, .queue, .send, .queue, .sender false false, .sender false false, .sender false false, .sender false false,
     .sender true false, .sender false false, .sender false false, .send, .queue, .sender false false, .sender false false,
     .sender false false, .sender false false, .sender true false, .shutdown, .unrefConn, .sender false false]).released = [0, 1, 2] := by
  decide +kernel

/-! ## No use of released memory -/

structure CmSafe (s : Cm) : Prop where
  good : s.bad = false
  have' : s.sender = .haveConn → s.connFreed = false
  pick : s.sender = .picked → s.connFreed = true → s.link = false

set_option maxHeartbeats 4000000 in
theorem aux_cm_safe (s : Cm) (op : CmOp) (h : CmInv s) (hs : CmSafe s)
    (hc : ¬ (op = .unrefConn ∧ s.inSend = false ∧ s.appConn = 1 ∧ (s.sender = .haveConn ∨ s.sender = .picked ∧ s.attached = false))) :
    CmSafe (s.step op) := by
  obtain ⟨h1, h2, h3, h4, h5, h6, h7, h8, h9, h10, h11, h12, h13, h14, h15, h16⟩ := h
  obtain ⟨g1, g2, g3⟩ := hs
  cases op with
  | sender c st =>
    have hb : ∀ m, s.sender = .round m → m ∉ s.released := fun m hm hx =>
      Nat.lt_irrefl _ (aux_cm_after s.released s.pend s.next m h10 (h11 m hm) m hx)
    obtain ⟨appConn, sendConn, ok, connFreed, attached, link, appChan, ready, chanFreed, del, stalled, pend, next, written, released, inSend, sender, bad⟩ := s
    cases sender <;> simp only [Cm.step, Cm.senderStep, Cm.remove, Cm.settleConn, aux_cm_chan] at * <;> constructor <;> grind
  | _ =>
    simp only [Cm.step, Cm.settleConn, Cm.insert, Cm.mutexFree, aux_cm_chan] <;> constructor <;> grind

theorem aux_cm_safeRun (ops : List CmOp) : ∀ s : Cm, CmInv s → CmSafe s → CmCalm s ops → CmSafe (s.run ops) := by
  induction ops with
  | nil => intro s _ h _; exact h
  | cons op ops ih => intro s h hs hc; exact ih _ (aux_cm_step s op h) (aux_cm_safe s op h hs hc.1) hc.2

/-- **C124 (partial).** No released memory is used, if the last reference of the connection is not dropped between the two
steps in which the sending thread gets its own. -/
theorem C124_safe_partial (conns chans : Nat) (ops : List CmOp) (h : CmCalm (Cm.start conns chans) ops) :
    ((Cm.start conns chans).run ops).bad = false :=
  (aux_cm_safeRun ops _ (aux_cm_start conns chans) (by constructor <;> simp [Cm.start]) h).good

/-- **C124 (partial).** In every schedule: while the sending thread works on the channel it is not released, nor the message of its round
while its round lasts. -/
theorem C124_working_partial (conns chans : Nat) (ops : List CmOp) : let s := (Cm.start conns chans).run ops
    (s.sender ≠ .idle → s.chanFreed = false) ∧ (∀ m, s.sender = .round m → m ∉ s.released) ∧
    ((∃ m, s.sender = .round m) → s.connFreed = false) := by
  have h := aux_cm_run ops _ (aux_cm_start conns chans)
  refine ⟨fun hs => ?_, fun m hm hx => ?_, fun hm => ?_⟩
  · have := h.busy hs
    have := h.cfree
    grind
  · exact Nat.lt_irrefl _ (aux_cm_after _ _ _ m h.all (h.head m hm) m hx)
  · have := h.sref.mpr (.inr (.inl hm))
    have := h.nfree
    grind

/-- The channel is closed and dropped by the application while the sending thread is in a round. -/
example : let s := (Cm.start 0 1).run [.send, .queue, .sender false false, .sender false false, .sender false false, .sender false false,
      .close, .unrefChan]
    s.sender ≠ .idle ∧ s.appChan = 0 ∧ s.attached = false ∧ s.chanFreed = false := by
  decide +kernel

theorem aux_cm_held (ops : List CmOp) : ∀ s : Cm, CmHeld s ops → CmCalm s ops := by
  induction ops with
  | nil => intro s _; trivial
  | cons op ops ih =>
    intro s h
    refine ⟨?_, ih _ h.2⟩
    rintro ⟨ho, h0, h1, h2⟩
    subst ho
    have h3 : 0 < (s.step .unrefConn).appConn := by
      cases ops with
      | nil => exact h.2
      | cons => exact h.2.1
    simp only [Cm.step, Cm.settleConn, aux_cm_chan] at h3
    grind

/-- **C124 (partial).** In particular while the application keeps a reference of the connection. -/
theorem C124_held_partial (conns chans : Nat) (ops : List CmOp) (h : CmHeld (Cm.start conns chans) ops) :
    ((Cm.start conns chans).run ops).bad = false :=
  C124_safe_partial conns chans ops (aux_cm_held ops _ h)

/-- The channel is closed and released while the sending thread is in a round. -/
example : CmHeld (Cm.start 0 1) [.send, .queue, .sender false false, .sender false false, .sender false false, .sender false false,
      .close, .unrefChan, .sender true false, .sender false false, .sender false false] ∧
    ((Cm.start 0 1).run [.send, .queue, .sender false false, .sender false false, .sender false false, .sender false false,
      .close, .unrefChan, .sender true false, .sender false false, .sender false false]).chanFreed = true := by
  simp only [CmHeld]; decide +kernel

/-- The connection is released by the sending thread. -/
example : CmCalm (Cm.start 0 1) [.send, .queue, .send, .queue, .sender false false, .sender false false, .sender false false,
      .sender false false, .unrefConn, .sender true false, .sender false false, .sender false false] ∧
    ((Cm.start 0 1).run [.send, .queue, .send, .queue, .sender false false, .sender false false, .sender false false,
      .sender false false, .unrefConn, .sender true false, .sender false false, .sender false false]).connFreed = true := by
  decide +kernel

/-- **C124 violated.** Otherwise the sending thread may take a reference of a connection that was released. -/
theorem C124_race : ((Cm.start 0 1).run [.send, .queue, .sender false false, .sender false false, .unrefConn,
    .sender false false]).bad = true := by decide +kernel

/-- **C124 violated.** Also through a channel that was closed, whose address of the connection is never cleared. -/
theorem C124_closed_race : ((Cm.start 0 1).run [.send, .queue, .sender false false, .close, .unrefConn,
    .sender false false, .sender false false]).bad = true := by decide +kernel

/-! ## What is released with the connection -/

theorem aux_cm_noClose (ops : List CmOp) : ∀ s : Cm, s.del = false → .close ∉ ops → (s.run ops).del = false := by
  induction ops with
  | nil => intro s h _; exact h
  | cons op ops ih =>
    intro s h hc
    refine ih _ ?_ (fun hx => hc (by simp [hx]))
    have ho : op ≠ .close := fun hx => hc (by simp [hx])
    cases op with
    | close => exact absurd rfl ho
    | sender c st =>
      obtain ⟨appConn, sendConn, ok, connFreed, attached, link, appChan, ready, chanFreed, del, stalled, pend, next, written, released, inSend, sender, bad⟩ := s
      cases sender <;> simp only [Cm.step, Cm.senderStep, Cm.remove, Cm.settleConn, aux_cm_chan] <;> grind
    | _ => simp only [Cm.step, Cm.settleConn, Cm.insert, aux_cm_chan] <;> grind

/-- **C124 (partial).** A connection whose channel is not closed before releases every message of it, written or not. -/
theorem C124_released_partial (conns chans : Nat) (ops : List CmOp) (h : .close ∉ ops)
    (hf : ((Cm.start conns chans).run ops).connFreed = true) :
    ((Cm.start conns chans).run ops).released = List.range ((Cm.start conns chans).run ops).next := by
  have h1 := aux_cm_run ops _ (aux_cm_start conns chans)
  have h2 := (h1.open' (aux_cm_noClose ops _ rfl h) hf).2
  have h3 := h1.all
  rw [h2, List.append_nil] at h3
  exact h3

example : ((Cm.start 0 1).run [.send, .queue, .send, .queue, .unrefConn]).connFreed = true ∧
    ((Cm.start 0 1).run [.send, .queue, .send, .queue, .unrefConn]).released = [0, 1] := by decide +kernel

/-- A closed channel, with the sending thread elsewhere. -/
structure CmClosed (s t : Cm) : Prop where
  del : t.del = true
  detached : t.attached = false
  idle : t.sender = .idle
  rel : t.released = s.released
  wr : t.written = s.written

theorem aux_cm_closed (s : Cm) (op : CmOp) (t : Cm) (h : CmClosed s t) : CmClosed s (t.step op) := by
  obtain ⟨h1, h2, h3, h4, h5⟩ := h
  cases op with
  | sender c st =>
    simp only [Cm.step, Cm.senderStep, h3, Cm.remove, aux_cm_chan] <;> constructor <;> grind
  | _ => simp only [Cm.step, Cm.settleConn, Cm.insert, aux_cm_chan] <;> constructor <;> grind

/-- **C124 violated.** If a channel is closed while messages are in its queue, then no schedule writes or releases them: not
the sending thread, not the release of the channel, not that of the connection. -/
theorem C124_closed_leak (conns chans : Nat) (before after : List CmOp)
    (h1 : ((Cm.start conns chans).run before).sender = .idle)
    (h2 : ((Cm.start conns chans).run before).attached = true)
    (h3 : 0 < ((Cm.start conns chans).run before).appConn) :
    ((Cm.start conns chans).run (before ++ .close :: after)).released = ((Cm.start conns chans).run before).released ∧
    ((Cm.start conns chans).run (before ++ .close :: after)).written = ((Cm.start conns chans).run before).written := by
  have key : ∀ (ops : List CmOp) (s t : Cm), CmClosed s t → CmClosed s (t.run ops) := by
    intro ops
    induction ops with
    | nil => intro s t h; exact h
    | cons op ops ih => intro s t h; exact ih s _ (aux_cm_closed s op t h)
  have h0 : CmClosed ((Cm.start conns chans).run before) (((Cm.start conns chans).run before).step .close) := by
    constructor <;> simp [Cm.step, aux_cm_chan, h1, h2, h3]
  have h4 := key after _ _ h0
  have h5 : (Cm.start conns chans).run (before ++ .close :: after) =
      (((Cm.start conns chans).run before).step .close).run after := by simp [Cm.run]
  rw [h5]
  exact ⟨h4.rel, h4.wr⟩

/-- Everything is released, except the message. -/
example : ((Cm.start 0 1).run ([.send, .queue] ++ .close :: [.sender false false, .unrefChan, .unrefConn])).connFreed = true ∧
    ((Cm.start 0 1).run ([.send, .queue] ++ .close :: [.sender false false, .unrefChan, .unrefConn])).chanFreed = true ∧
    ((Cm.start 0 1).run ([.send, .queue] ++ .close :: [.sender false false, .unrefChan, .unrefConn])).released = [] ∧
    ((Cm.start 0 1).run ([.send, .queue] ++ .close :: [.sender false false, .unrefChan, .unrefConn])).next = 1 := by
  decide +kernel

/-- The full claim. -/
def C124_statement : Prop := ∀ (conns chans : Nat) (ops : List CmOp),
  ((Cm.start conns chans).run ops).bad = false ∧
  (((Cm.start conns chans).run ops).connFreed = true → ((Cm.start conns chans).run ops).chanFreed = true →
    ∀ m < ((Cm.start conns chans).run ops).next, m ∈ ((Cm.start conns chans).run ops).released)

theorem C124_statement_false : ¬ C124_statement := by
  intro h
  have := (h 0 1 _).1.symm.trans C124_race
  cases this

end Verif.Props
