import Verif.Proof.RecvFlow
import Verif.Model.GetNext
/-!
# C09, C10 — the receiver's window
-/
namespace Verif.Props
open Verif.Model Verif.Spec Verif.Proof

private theorem recv_step {w E C} (h : RecvInv w E C) (s : Nat) (n : Int)
    (h0 : 0 ≤ n) (h1 : n < 2147483648) (r) (hr : w.receive s n = some r) :
    (E : Int) + n ≤ C + w.seqWindow ∧
    ((r = (w.advance n, none) ∧ RecvInv r.1 (E + n.toNat) C ∧
        ((C : Int) + w.seqWindow - E - n > w.seqWindow / 2 ∨ (w.windowSize ≠ w.desired ∧
          u32 ((E : Int) + n + w.desired - 1) < u32 ((C : Int) + w.seqWindow - 1)))) ∨
     (r.2 = some (u32 ((E : Int) + n), w.desired) ∧ RecvInv r.1 (E + n.toNat) (E + n.toNat) ∧
        r.1.windowSize = w.desired ∧ r.1.desired = w.desired ∧ (r.1.seqWindow : Int) = w.desired ∧
        (C : Int) + w.seqWindow - E - n ≤ w.seqWindow / 2 ∧
        (w.windowSize ≠ w.desired →
          u32 ((C : Int) + w.seqWindow - 1) ≤ u32 ((E : Int) + n + w.desired - 1)))) := by
  have hs : s = E % 4294967296 := by rw [receive_seqno hr, h.exp]
  subst hs
  rw [receive_cases h n h0 h1] at hr
  split at hr
  · next hle =>
    refine ⟨by omega, ?_⟩
    split at hr
    · next hb =>
      injection hr with hr; subst hr
      exact Or.inl ⟨rfl, advance_recvInv h n h0 hle, Or.inl hb⟩
    · next hb =>
      split at hr
      · next hc =>
        injection hr with hr; subst hr
        exact Or.inl ⟨rfl, advance_recvInv h n h0 hle, Or.inr hc⟩
      · next hc =>
        injection hr with hr; subst hr
        have hinv := updated_recvInv h n h0
        refine Or.inr ⟨rfl, hinv, rfl, rfl, hinv.ws, by omega, ?_⟩
        intro hne
        rcases Nat.lt_or_ge (u32 ((E : Int) + n + w.desired - 1)) (u32 ((C : Int) + w.seqWindow - 1))
          with hx | hx
        · exact absurd ⟨hne, hx⟩ hc
        · exact hx
  · simp at hr

/-! ## C09 -/

/-- **C09 (window)**: for every history of received frames (sizes that are not negative) and of window
sizes configured by the application, every frame accepted ends within the limit advertised
before it arrived, and every SEQ sent acknowledges exactly the octets received. -/
theorem C09_accepts_only_within_window_partial (ops : List RecvOp) (hs : SizesOk ops)
    (hw : WindowsOk ops) : WithinLimits 0 4096 (recvRun RecvWin.init ops) := by
  have gen : ∀ (ops : List RecvOp) (w : RecvWin) (E C : Nat), SizesOk ops → WindowsOk ops →
      RecvInv w E C → WithinLimits E ((C : Int) + w.seqWindow) (recvRun w ops) := by
    intro ops
    induction ops with
    | nil => intro w E C _ _ _; trivial
    | cons op ops ih =>
      intro w E C hs hw h
      have hs' : SizesOk ops := fun s n hm => hs s n (List.mem_cons_of_mem _ hm)
      have hw' : WindowsOk ops := fun n hm => hw n (List.mem_cons_of_mem _ hm)
      cases op with
      | setWindow n =>
        have hi := setWindow_recvInv h n (hw n List.mem_cons_self)
        have := ih (w.setWindow n) E C hs' hw' hi
        have e : (w.setWindow n).seqWindow = w.seqWindow := by
          unfold RecvWin.setWindow; split <;> rfl
        rw [e] at this
        exact this
      | recv s n =>
        obtain ⟨h0, h1⟩ := hs s n List.mem_cons_self
        unfold recvRun
        cases hr : w.receive s n with
        | none => trivial
        | some r =>
          obtain ⟨hle, hcase⟩ := recv_step h s n h0 h1 r hr
          have ecast : ((E + n.toNat : Nat) : Int) = (E : Int) + n := by omega
          rcases hcase with ⟨hr', hinv, _⟩ | ⟨hseq, hinv, hws, hd, hsw, _⟩
          · subst hr'
            have := ih _ _ _ hs' hw' hinv
            simp only [Option.map_none, Option.toList, List.cons_append, List.nil_append]
            rw [ecast] at this
            exact ⟨hle, this⟩
          · obtain ⟨w', q⟩ := r
            simp only at hseq hinv hsw
            subst hseq
            have := ih _ _ _ hs' hw' hinv
            simp only [Option.map_some, Option.toList, List.cons_append, List.nil_append]
            rw [ecast, hsw] at this
            exact ⟨hle, u32_cast _, this⟩
  have := gen ops RecvWin.init 0 0 hs hw RecvInv.init
  simpa [RecvWin.init] using this

-- a history with a frame too many: it is refused, and a SEQ was sent after 3000 octets
example : recvRun RecvWin.init [.recv 0 1000, .recv 1000 2000, .setWindow 10000, .recv 3000 4096,
    .recv 7096 10001] =
    [.accepted 1000, .accepted 2000, .seq 3000 4096, .accepted 4096, .seq 7096 10000] := by
  decide +kernel

/-- The library environment of the frame reader given by a receive window, for all channels. -/
def windowEnv (w : RecvWin) : ReadEnv := ⟨fun _ => true, fun _ s n => w.check s n⟩

/-- **C09 (allocation, violated)**: with the window of a fresh channel, this header is accepted and
leads to an out of bounds access when its payload is received: the size is truncated to -6, so
nothing is allocated and (size_t)-1 octets are requested. -/
theorem C09_negative_size_overflow :
    (getNext (windowEnv RecvWin.init) ReadState.init
      ((lit "MSG 0 0 . 6 4294967290\r\n").map Tok.byte ++ [Tok.byte 65])).1 = .outsideBuffer := by
  decide +kernel

/-- What the reader remembers about an interrupted payload: it has allocated `size + 6` octets (a C int),
holds `got.length` of them and will ask for `remaining` more, which leaves room for the
terminator. -/
def PayloadFits (st : ReadState) : Prop :=
  ∀ f got remaining, st.partialFrame = some (f, got, remaining) →
    0 ≤ f.size ∧ f.size + 6 ≤ 2147483647 ∧ (got.length : Int) + remaining + 1 = f.size + 6

/-- **C09 (allocation, partial)**: if the headers accepted never announce a negative size (nor one
within 6 of `INT_MAX`), then for every script the reader never accesses the payload buffer out
of bounds, and what it will still read fits what it has allocated. -/
theorem C09_reads_within_allocation_partial (env : ReadEnv)
    (henv : ∀ c s n, env.seqnoOk c s n = true → 0 ≤ n ∧ n + 6 ≤ 2147483647)
    (st : ReadState) (hst : PayloadFits st) (script : List Tok) :
    (getNext env st script).1 ≠ .outsideBuffer ∧
    (∀ st', ((getNext env st script).1 = .pending st' ∨
      ∃ f, (getNext env st script).1 = .frame f st') → PayloadFits st') := by
  have hpb : ∀ (f : Frame) (got : List Byte) (st1 : ReadState), PayloadFits st1 →
      processBuffer f got st1 ≠ .outsideBuffer ∧
      ∀ st', (processBuffer f got st1 = .pending st' ∨ ∃ g, processBuffer f got st1 = .frame g st') →
        PayloadFits st' := by
    intro f got st1 h1
    unfold processBuffer
    split
    · refine ⟨by simp, ?_⟩
      intro st' h
      rcases h with h | ⟨g, h⟩
      · simp at h
      · simp only [Next.frame.injEq] at h
        rw [← h.2]; exact h1
    · refine ⟨by simp, ?_⟩
      intro st' h
      rcases h with h | ⟨g, h⟩ <;> simp at h
  have hrecv : ∀ (n : Nat) (sc : List Tok) (bs : List Byte) (r : List Tok),
      recv n sc = (.data bs, r) → bs.length ≤ n := by
    intro n sc
    have htb : ∀ (sc : List Tok) (n : Nat), (takeBytes n sc).1.length ≤ n := by
      intro sc
      induction sc with
      | nil => intro n; cases n <;> simp [takeBytes]
      | cons t sc ih =>
        intro n
        cases n with
        | zero => cases t <;> simp [takeBytes]
        | succ n =>
          cases t <;> simp only [takeBytes, List.length_cons, List.length_nil, Nat.zero_le]
          have := ih n
          omega
    induction sc with
    | nil => intro bs r h; simp [recv] at h
    | cons t sc ih =>
      intro bs r h
      cases t with
      | byte b =>
        simp only [recv, Prod.mk.injEq, Recv.data.injEq] at h
        rw [← h.1]; exact htb _ _
      | cut => exact ih bs r h
      | again => simp [recv] at h
      | eof => simp [recv] at h
  unfold getNext
  split
  · next f got remaining hpf =>
    obtain ⟨b1, b2, b3⟩ := hst f got remaining hpf
    split
    · exact ⟨by simp, by intro st' h; rcases h with h | ⟨g, h⟩ <;> simp at h⟩
    · exact ⟨by simp, by intro st' h; rcases h with h | ⟨g, h⟩ <;> simp at h⟩
    · next bs r hr =>
      have hl := hrecv _ _ _ _ hr
      split
      · refine ⟨by simp, ?_⟩
        intro st' h
        rcases h with h | ⟨g, h⟩
        · simp only [Next.pending.injEq] at h
          subst h
          intro f' got' rem' he
          simp only [Option.some.injEq, Prod.mk.injEq] at he
          obtain ⟨e1, e2, e3⟩ := he
          subst e1; subst e2; subst e3
          refine ⟨b1, b2, ?_⟩
          rw [List.length_append]
          omega
        · simp at h
      · exact hpb f (got ++ bs) { st with partialFrame := none } (by intro f' g' r' he; simp at he)
  · next hnone =>
    simp only
    split
    · exact ⟨by simp, by intro st' h; rcases h with h | ⟨g, h⟩ <;> simp at h⟩
    · split
      · split
        · exact ⟨by simp, by intro st' h; rcases h with h | ⟨g, h⟩ <;> simp at h⟩
        · refine ⟨by simp, ?_⟩
          intro st' h
          rcases h with h | ⟨g, h⟩
          · simp only [Next.pending.injEq] at h
            subst h
            intro f' g' r' he
            simp only [hnone] at he
            simp at he
          · simp at h
      · exact ⟨by simp, by intro st' h; rcases h with h | ⟨g, h⟩ <;> simp at h⟩
      · exact ⟨by simp, by intro st' h; rcases h with h | ⟨g, h⟩ <;> simp at h⟩
      · next line r hline =>
        have hnone' : PayloadFits { st with pendingLine := none, noDataOpers := 0 } := by
          intro f' g' r' he; simp only [hnone] at he; simp at he
        generalize hst2 : ({ st with pendingLine := none, noDataOpers := 0 } : ReadState) = st2 at *
        have hch : ∀ x, checkHeader env line st2 = .inl x → x ≠ .outsideBuffer ∧
            ∀ st', (x = .pending st' ∨ ∃ g, x = .frame g st') → st' = st2 := by
          intro x hx
          unfold checkHeader at hx
          repeat' split at hx
          all_goals first
            | (injection hx with hx; subst hx
               refine ⟨by simp, ?_⟩
               intro st' h
               rcases h with h | ⟨g, h⟩
               · simp at h
               · simp at h <;> exact h.2.symm)
            | (simp only at hx; split at hx <;> first
                | (injection hx with hx; subst hx
                   exact ⟨by simp, by intro st' h; rcases h with h | ⟨g, h⟩ <;> simp at h⟩)
                | simp at hx)
            | simp at hx
        have hch2 : ∀ f, checkHeader env line st2 = .inr f → env.seqnoOk f.channel f.seqno f.size = true := by
          intro f hx
          unfold checkHeader at hx
          repeat' split at hx
          all_goals first
            | (simp only at hx
               split at hx
               · next hok => injection hx with hx; subst hx; exact hok
               · simp at hx)
            | simp at hx
        split
        · next x hx =>
          obtain ⟨c1, c2⟩ := hch x hx
          refine ⟨c1, ?_⟩
          intro st' h
          rw [c2 st' h]; exact hnone'
        · next f hf =>
          obtain ⟨b1, b2⟩ := henv _ _ _ (hch2 f hf)
          unfold readPayload
          rw [if_neg (by omega), if_neg (by omega)]
          simp only
          split
          · exact ⟨by simp, by intro st' h; rcases h with h | ⟨g, h⟩ <;> simp at h⟩
          · refine ⟨by simp, ?_⟩
            intro st' h
            rcases h with h | ⟨g, h⟩
            · simp only [Next.pending.injEq] at h
              subst h
              intro f' got' rem' he
              simp only [Option.some.injEq, Prod.mk.injEq] at he
              obtain ⟨e1, e2, e3⟩ := he
              subst e1; subst e2; subst e3
              refine ⟨b1, b2, ?_⟩
              simp only [List.length_nil]
              omega
            · simp at h
          · next bs r' hr =>
            have hl := hrecv _ _ _ _ hr
            split
            · exact hpb f bs st2 hnone'
            · next hne =>
              refine ⟨by simp, ?_⟩
              intro st' h
              rcases h with h | ⟨g, h⟩
              · simp only [Next.pending.injEq] at h
                subst h
                intro f' got' rem' he
                simp only [Option.some.injEq, Prod.mk.injEq] at he
                obtain ⟨e1, e2, e3⟩ := he
                subst e1; subst e2; subst e3
                refine ⟨b1, b2, ?_⟩
                omega
              · simp at h

/-- **C09 (violation, size not negative)**: the header check alone also accepts frames far outside the
window when `seqno - consumed + size` wraps: on a fresh channel (window 0..4095) a frame of
2147483548 octets at 2147483748 passes, and the reader allocates and starts to read it. (The
sequence number check made after the payload has arrived refuses it.) -/
theorem C09_header_check_wraps :
    RecvWin.init.check 2147483748 2147483548 = true ∧
    RecvWin.init.receive 2147483748 2147483548 = none ∧
    ∃ f, (getNext (windowEnv RecvWin.init) ReadState.init
      ((lit "MSG 0 0 . 2147483748 2147483548\r\n").map Tok.byte ++ [Tok.byte 65])).1 =
        .pending ⟨none, some (f, [65], 2147483552), 0⟩ := by
  refine ⟨by decide +kernel, by decide +kernel,
    { Frame.zero .msg with seqno := 2147483748, size := 2147483548 }, by decide +kernel⟩

-- an environment meeting the hypothesis
example : ∀ (c : Int) (s : Nat) (n : Int),
    (⟨fun _ => true, fun _ s n => decide (0 ≤ n ∧ n ≤ 4096) && RecvWin.init.check s n⟩ : ReadEnv).seqnoOk
      c s n = true → 0 ≤ n ∧ n + 6 ≤ 2147483647 := by
  intro c s n h
  simp only [Bool.and_eq_true, decide_eq_true_eq] at h
  omega

-- the initial state and an interrupted payload meet the hypothesis
example : PayloadFits ReadState.init ∧
    PayloadFits ⟨none, some ({ Frame.zero .msg with size := 10 }, [65, 66], 13), 0⟩ := by
  constructor
  · intro f got r h; simp [ReadState.init] at h
  · intro f got r h
    simp only [Option.some.injEq, Prod.mk.injEq] at h
    obtain ⟨h1, h2, h3⟩ := h
    subst h1; subst h2; subst h3
    decide

/-! ## C10 -/

/-- **C10 (full statement, violated)**: the limits advertised never move backwards. -/
def C10_statement : Prop :=
  ∀ ops, SizesOk ops → WindowsOk ops → NonDecreasing 4096 (limits 0 (recvRun RecvWin.init ops))

/-- **C10 (partial, growing windows)**: if the application only enlarges windows, then for every history
(of any length, across any number of wraps) the advertised limits strictly increase. -/
theorem C10_limit_grows_partial (ops : List RecvOp) (hs : SizesOk ops) (hw : WindowsOk ops)
    (hg : NonDecreasing 4096 (configured ops)) :
    Increasing 4096 (limits 0 (recvRun RecvWin.init ops)) := by
  have gen : ∀ (ops : List RecvOp) (w : RecvWin) (E C : Nat), SizesOk ops → WindowsOk ops →
      RecvInv w E C → w.windowSize ≤ w.desired → NonDecreasing w.desired (configured ops) →
      Increasing ((C : Int) + w.seqWindow) (limits E (recvRun w ops)) := by
    intro ops
    induction ops with
    | nil => intro w E C _ _ _ _ _; trivial
    | cons op ops ih =>
      intro w E C hs hw h hd hg
      have hs' : SizesOk ops := fun s n hm => hs s n (List.mem_cons_of_mem _ hm)
      have hw' : WindowsOk ops := fun n hm => hw n (List.mem_cons_of_mem _ hm)
      cases op with
      | setWindow n =>
        obtain ⟨hg1, hg2⟩ := hg
        have hi := setWindow_recvInv h n (hw n List.mem_cons_self)
        have hpos : n > 0 := by have := h.dpos; omega
        have e : w.setWindow n = { w with desired := n } := by
          unfold RecvWin.setWindow; rw [if_pos hpos]
        unfold recvRun
        rw [e] at hi ⊢
        exact ih { w with desired := n } E C hs' hw' hi (by show w.windowSize ≤ n; omega) hg2
      | recv s n =>
        obtain ⟨h0, h1⟩ := hs s n List.mem_cons_self
        unfold recvRun
        cases hr : w.receive s n with
        | none => trivial
        | some r =>
          obtain ⟨hle, hcase⟩ := recv_step h s n h0 h1 r hr
          have ecast : ((E + n.toNat : Nat) : Int) = (E : Int) + n := by omega
          rcases hcase with ⟨hr', hinv, _⟩ | ⟨hseq, hinv, hws, hdd, hsw, hhalf, _⟩
          · subst hr'
            have := ih _ _ _ hs' hw' hinv hd hg
            simp only [Option.map_none, Option.toList, List.cons_append, List.nil_append, limits]
            rw [ecast] at this
            exact this
          · obtain ⟨w', q⟩ := r
            simp only at hseq hinv hsw hws hdd
            subst hseq
            have := ih _ _ _ hs' hw' hinv (by rw [hws, hdd]; exact Int.le_refl _)
              (by rw [hdd]; exact hg)
            simp only [Option.map_some, Option.toList, List.cons_append, List.nil_append, limits]
            rw [ecast, hsw] at this
            refine ⟨?_, this⟩
            have := h.ws
            have := h.wpos
            omega
  have := gen ops RecvWin.init 0 0 hs hw RecvInv.init (by decide) hg
  simpa [RecvWin.init] using this

/-- **C10 (partial, before the wrap)**: with any window sizes configured, as long as the octets received
plus any configured window stay within 2^32, the advertised limit never moves backwards. -/
theorem C10_limit_before_wrap_partial (ops : List RecvOp) (hs : SizesOk ops) (hw : WindowsOk ops)
    (hb : ∀ n ∈ 4096 :: configured ops, received (recvRun RecvWin.init ops) + n ≤ 4294967296) :
    NonDecreasing 4096 (limits 0 (recvRun RecvWin.init ops)) := by
  have gen : ∀ (ops : List RecvOp) (w : RecvWin) (E C : Nat), SizesOk ops → WindowsOk ops →
      RecvInv w E C →
      (∀ n ∈ w.windowSize :: w.desired :: configured ops,
        (E : Int) + received (recvRun w ops) + n ≤ 4294967296) →
      0 ≤ received (recvRun w ops) ∧
      NonDecreasing ((C : Int) + w.seqWindow) (limits E (recvRun w ops)) := by
    intro ops
    induction ops with
    | nil => intro w E C _ _ _ _; exact ⟨Int.le_refl _, trivial⟩
    | cons op ops ih =>
      intro w E C hs hw h hb
      have hs' : SizesOk ops := fun s n hm => hs s n (List.mem_cons_of_mem _ hm)
      have hw' : WindowsOk ops := fun n hm => hw n (List.mem_cons_of_mem _ hm)
      cases op with
      | setWindow n =>
        have hi := setWindow_recvInv h n (hw n List.mem_cons_self)
        unfold recvRun at hb ⊢
        by_cases hpos : n > 0
        · have e : w.setWindow n = { w with desired := n } := by
            unfold RecvWin.setWindow; rw [if_pos hpos]
          rw [e] at hi hb ⊢
          refine ih { w with desired := n } E C hs' hw' hi ?_
          intro m hm
          apply hb m
          rcases List.mem_cons.mp hm with h1 | h1
          · rw [h1]; exact List.mem_cons_self
          · exact List.mem_cons_of_mem _ (List.mem_cons_of_mem _ h1)
        · have e : w.setWindow n = w := by unfold RecvWin.setWindow; rw [if_neg hpos]
          rw [e] at hi hb ⊢
          refine ih w E C hs' hw' hi ?_
          intro m hm
          apply hb m
          rcases List.mem_cons.mp hm with h1 | h1
          · rw [h1]; exact List.mem_cons_self
          · rcases List.mem_cons.mp h1 with h2 | h2
            · rw [h2]; exact List.mem_cons_of_mem _ List.mem_cons_self
            · exact List.mem_cons_of_mem _ (List.mem_cons_of_mem _ (List.mem_cons_of_mem _ h2))
      | recv s n =>
        obtain ⟨h0, h1⟩ := hs s n List.mem_cons_self
        unfold recvRun at hb ⊢
        cases hr : w.receive s n with
        | none => exact ⟨Int.le_refl _, trivial⟩
        | some r =>
          rw [hr] at hb
          obtain ⟨hle, hcase⟩ := recv_step h s n h0 h1 r hr
          have ecast : ((E + n.toNat : Nat) : Int) = (E : Int) + n := by omega
          rcases hcase with ⟨hr', hinv, _⟩ | ⟨hseq, hinv, hws, hdd, hsw, hhalf, hcmp⟩
          · subst hr'
            simp only [Option.map_none, Option.toList, List.cons_append, List.nil_append, limits,
              received] at hb ⊢
            have := ih _ _ _ hs' hw' hinv (by
              intro m hm
              have := hb m hm
              rw [ecast]
              simp only
              omega)
            rw [ecast] at this
            simp only at this
            exact ⟨by omega, this.2⟩
          · obtain ⟨w', q⟩ := r
            simp only at hseq hinv hsw hws hdd
            subst hseq
            simp only [Option.map_some, Option.toList, List.cons_append, List.nil_append, limits,
              received] at hb ⊢
            have := ih _ _ _ hs' hw' hinv (by
              intro m hm
              rw [hws, hdd] at hm
              have := hb m (by
                rcases List.mem_cons.mp hm with h2 | h2
                · rw [h2]; exact List.mem_cons_of_mem _ List.mem_cons_self
                · exact List.mem_cons_of_mem _ h2)
              rw [ecast]; omega)
            rw [ecast, hsw] at this
            refine ⟨by omega, ?_, this.2⟩
            have b1 := hb w.windowSize List.mem_cons_self
            have b2 := hb w.desired (List.mem_cons_of_mem _ List.mem_cons_self)
            have i1 := h.ws
            have i2 := h.wpos
            have i3 := h.ce
            have i4 := h.dpos
            by_cases hne : w.windowSize = w.desired
            · omega
            · have := hcmp hne
              rw [u32_nonneg _ (by omega) (by omega), u32_nonneg _ (by omega) (by omega)] at this
              omega
  have := (gen ops RecvWin.init 0 0 hs hw RecvInv.init (by
    intro n hn
    have := hb n (by
      rcases List.mem_cons.mp hn with h | h
      · rw [h]; exact List.mem_cons_self
      · exact h)
    simpa using this)).2
  simpa [RecvWin.init] using this

-- histories meeting the hypotheses of the two theorems
example : NonDecreasing 4096 (configured [.recv 0 4096, .setWindow 8192, .recv 4096 4000]) ∧
    limits 0 (recvRun RecvWin.init [.recv 0 4096, .setWindow 8192, .recv 4096 4000]) =
      [8192, 16288] := by
  constructor
  · exact ⟨by decide, trivial⟩
  · decide +kernel
example : limits 0 (recvRun RecvWin.init [.setWindow 1024, .recv 0 2048, .recv 2048 2000]) = [5072] := by
  decide +kernel

/-- `k` times 2048. -/
def pos2048 : Nat → Nat
  | 0 => 0
  | k + 1 => pos2048 k + 2048

theorem aux_pos2048 (k : Nat) : pos2048 k = k * 2048 := by
  induction k with
  | zero => simp [pos2048]
  | succ k ih => simp only [pos2048, ih]; omega

/-- A peer that sends frames of 2048 octets, `k` of them. -/
def bulk : Nat → List RecvOp
  | 0 => []
  | k + 1 => bulk k ++ [.recv (pos2048 k) 2048]

/-- The limits advertised to it. -/
def bulkLimits : Nat → List Int
  | 0 => []
  | k + 1 => bulkLimits k ++ [(pos2048 k : Int) + 2048 + 4096]

theorem aux_default_receive (p : Nat) (hp : p + 2048 < 4294967296) :
    (RecvWin.mk p 4096 p 4096 4096).receive p 2048 =
      some (⟨p + 2048, 4096, p + 2048, 4096, 4096⟩, some (p + 2048, 4096)) := by
  have hinv : RecvInv ⟨p, 4096, p, 4096, 4096⟩ p p := by
    refine ⟨?_, ?_, ?_, ?_, ?_, ?_, ?_, Nat.le_refl _, ?_⟩
    · show p = _; omega
    · show p = _; omega
    · show ((4096 : Nat) : Int) = 4096; omega
    · show (0 : Int) < 4096; omega
    · show (4096 : Int) < 2147483648; omega
    · show (0 : Int) < 4096; omega
    · show (4096 : Int) < 2147483648; omega
    · show p ≤ p + 4096; omega
  have hrc := receive_cases hinv 2048 (by omega) (by omega)
  have e0 : p % 4294967296 = p := by omega
  have e1 : u32 ((p : Int) + 2048) = p + 2048 := by
    rw [u32_nonneg _ (by omega) (by omega)]; omega
  have e2 : u32 4096 = 4096 := by decide
  have c1 : (p : Int) - p + 2048 ≤ ((4096 : Nat) : Int) := by omega
  have c2 : ¬ ((p : Int) + ((4096 : Nat) : Int) - p - 2048 > ((4096 : Nat) : Int) / 2) := by omega
  simp only [e0, e1, e2, if_pos c1, if_neg c2, ne_eq, not_true_eq_false, false_and, if_false] at hrc
  exact hrc

theorem aux_bulk (k : Nat) (hk : pos2048 k ≤ 4294967295) : ∀ (rest : List RecvOp),
    ∃ es, recvRun RecvWin.init (bulk k ++ rest) =
        es ++ recvRun ⟨pos2048 k, 4096, pos2048 k, 4096, 4096⟩ rest ∧
      ∀ tail, limits 0 (es ++ tail) = bulkLimits k ++ limits (pos2048 k : Nat) tail := by
  induction k with
  | zero => intro rest; exact ⟨[], rfl, fun _ => rfl⟩
  | succ k ih =>
    intro rest
    have hk' : pos2048 k + 2048 ≤ 4294967295 := hk
    obtain ⟨es, he, hl⟩ := ih (by omega) (.recv (pos2048 k) 2048 :: rest)
    have hrc := aux_default_receive (pos2048 k) (by omega)
    simp only [bulk, bulkLimits, pos2048, List.append_assoc, List.singleton_append]
    rw [he]
    generalize pos2048 k = p at *
    refine ⟨es ++ [.accepted 2048, .seq (p + 2048) 4096], ?_, ?_⟩
    · rw [recvRun, hrc]
      simp only [Option.map_some, Option.toList, List.append_assoc, List.cons_append,
        List.nil_append]
    · intro tail
      rw [List.append_assoc, hl]
      simp only [List.cons_append, List.nil_append, limits]
      rfl

theorem aux_bulk_sizes (k : Nat) (s : Nat) (n : Int) (h : RecvOp.recv s n ∈ bulk k) :
    0 ≤ n ∧ n < 2147483648 := by
  induction k with
  | zero => simp [bulk] at h
  | succ k ih =>
    simp only [bulk, List.mem_append, List.mem_singleton, RecvOp.recv.injEq] at h
    rcases h with h | h
    · exact ih h
    · omega

theorem aux_bulk_windows (k : Nat) (n : Int) : RecvOp.setWindow n ∉ bulk k := by
  induction k with
  | zero => simp [bulk]
  | succ k ih =>
    simp only [bulk, List.mem_append, List.mem_singleton, not_or]
    exact ⟨ih, by simp⟩

theorem aux_nonDecreasing_append (l : List Int) : ∀ (a b c : Int) (r : List Int), NonDecreasing a (l ++ b :: c :: r) →
    b ≤ c := by
  induction l with
  | nil => intro a b c r h; exact h.2.1
  | cons x l ih => intro a b c r h; exact ih x b c r h.2

/-- **C10 (violation)**: near the wrap, an application that shrinks its window makes the library
advertise a limit lower than one advertised before. -/
theorem C10_statement_false : ¬ C10_statement := by
  intro h
  have hN : pos2048 2097149 ≤ 4294967295 := by rw [aux_pos2048]; decide
  -- 4294963296 octets in all, then a window of 100 and 2048 more octets
  have := h (bulk 2097149 ++ [.recv 4294961152 2144, .setWindow 100, .recv 4294963296 2048])
    (by
      intro s n hm
      rcases List.mem_append.mp hm with h1 | h1
      · exact aux_bulk_sizes _ _ _ h1
      · simp at h1
        omega)
    (by
      intro n hm
      rcases List.mem_append.mp hm with h1 | h1
      · exact absurd h1 (aux_bulk_windows _ _)
      · simp at h1
        omega)
  obtain ⟨es, he, hl⟩ := aux_bulk 2097149 hN
    [.recv 4294961152 2144, .setWindow 100, .recv 4294963296 2048]
  rw [he, hl, aux_pos2048] at this
  have e : limits ((2097149 * 2048 : Nat) : Int) (recvRun ⟨2097149 * 2048, 4096, 2097149 * 2048, 4096, 4096⟩
      [.recv 4294961152 2144, .setWindow 100, .recv 4294963296 2048]) = [4294967392, 4294965444] := by
    decide +kernel
  rw [e] at this
  generalize bulkLimits 2097149 = bl at this
  have := aux_nonDecreasing_append bl _ _ _ [] this
  omega

end Verif.Props
