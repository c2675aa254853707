import Verif.Spec.Sequencer
import Verif.Proof.Segments
/-!
# C25, C26 — the sending thread
-/
namespace Verif.Props
open Verif.Model Verif.Spec Verif.Proof

/-! ## C26 — order -/

/-- **C26 (full statement, violated)**: whatever the threads do, the frames of each channel are a
correct transmission of the messages queued on it, one after the other in the order queued. -/
def C26_statement : Prop :=
  ∀ (ops : List SqOp) (c : Nat),
    ∃ left, Sent 0 (queuedOn c (Sq.init.run ops).2) (framesOn c (Sq.init.run ops).2) left

theorem aux_sq_run_snoc (ops : List SendOp) (op : SendOp) : ∀ (c c1 : SendChan) (fs : List Frame),
    c.run ops = (some c1, fs) →
    c.run (ops ++ [op]) = match c1.step op with
      | none => (none, fs)
      | some (c2, fo) => (some c2, fs ++ fo.toList) := by
  induction ops with
  | nil =>
    intro c c1 fs h
    simp only [SendChan.run, Prod.mk.injEq, Option.some.injEq] at h
    obtain ⟨rfl, rfl⟩ := h
    simp only [List.nil_append, SendChan.run]
    cases c.step op with
    | none => rfl
    | some r => simp
  | cons o ops ih =>
    intro c c1 fs h
    simp only [List.cons_append, SendChan.run] at h ⊢
    cases hs : c.step o with
    | none => simp [hs] at h
    | some r =>
      obtain ⟨c2, fo⟩ := r
      simp only [hs] at h ⊢
      generalize hr : c2.run ops = r at h
      obtain ⟨r1, r2⟩ := r
      simp only [Prod.mk.injEq] at h
      obtain ⟨rfl, rfl⟩ := h
      rw [ih c2 c1 r2 hr]
      cases c1.step op with
      | none => rfl
      | some r => simp

theorem aux_sq_queued_snoc (ops : List SendOp) (op : SendOp) :
    queued (ops ++ [op]) = queued ops ++ queued [op] := by
  induction ops with
  | nil => rfl
  | cons o ops ih => cases o <;> simp [queued, ih]

/-- The channel as it will be once the sending thread has removed the message it completed. -/
def aux_sq_abs (s : Sq) (c : Nat) : SendChan :=
  match s.sender with
  | .sent c' true _ => if c' = c then { s.chans c with pending := (s.chans c).pending.tail } else s.chans c
  | .locked c' true _ _ =>
    if c' = c then { s.chans c with pending := (s.chans c).pending.tail } else s.chans c
  | _ => s.chans c

/-- What C26 keeps true. -/
structure aux_sq_Inv (log : List SqEvent) (s : Sq) : Prop where
  sim : ∀ c, ∃ sops, SendChan.init.run sops = (some (aux_sq_abs s c), framesOn c log) ∧
    queued sops = queuedOn c log
  ne1 : ∀ c p, s.sender = .sent c true p → (s.chans c).pending ≠ []
  ne2 : ∀ c p t, s.sender = .locked c true p t → (s.chans c).pending ≠ []

theorem aux_sq_tail_append {α} (l : List α) (x : α) (h : l ≠ []) : (l ++ [x]).tail = l.tail ++ [x] := by
  cases l with
  | nil => exact absurd rfl h
  | cons a l => rfl

/-- queueing a message commutes with the abstraction -/
theorem aux_sq_abs_queue (s : Sq) (c : Nat) (m : OutMsg) (a : Option (Nat × OutMsg))
    (h1 : ∀ p, s.sender = .sent c true p → (s.chans c).pending ≠ [])
    (h2 : ∀ p t, s.sender = .locked c true p t → (s.chans c).pending ≠ []) (d : Nat) :
    aux_sq_abs { s with chans := putAt s.chans c ((s.chans c).queue m), adding := a } d =
      if d = c then (aux_sq_abs s c).queue m else aux_sq_abs s d := by
  unfold aux_sq_abs
  by_cases hd : d = c
  · subst hd
    simp only [putAt, if_true]
    cases hs : s.sender with
    | idle => rfl
    | sending c' => rfl
    | sent c' b p =>
      cases b with
      | false => rfl
      | true =>
        simp only
        by_cases hc : c' = d
        · subst hc
          simp only [if_true, SendChan.queue]
          rw [aux_sq_tail_append _ _ (h1 p hs)]
        · simp only [hc, if_false]
    | locked c' b p t =>
      cases b with
      | false => rfl
      | true =>
        simp only
        by_cases hc : c' = d
        · subst hc
          simp only [if_true, SendChan.queue]
          rw [aux_sq_tail_append _ _ (h2 p t hs)]
        · simp only [hc, if_false]
  · simp only [putAt, hd, if_false]

theorem aux_sq_framesOn_append (c : Nat) (a b : List SqEvent) :
    framesOn c (a ++ b) = framesOn c a ++ framesOn c b := by simp [framesOn]

theorem aux_sq_queuedOn_append (c : Nat) (a b : List SqEvent) :
    queuedOn c (a ++ b) = queuedOn c a ++ queuedOn c b := by simp [queuedOn]

/-- A step of one channel keeps the simulation; the others do not change. -/
theorem aux_sq_sim_step (log ev : List SqEvent) (s s' : Sq) (c : Nat) (op : SendOp) (c2 : SendChan)
    (fo : Option Frame)
    (hsim : ∀ d, ∃ sops, SendChan.init.run sops = (some (aux_sq_abs s d), framesOn d log) ∧
      queued sops = queuedOn d log)
    (hstep : (aux_sq_abs s c).step op = some (c2, fo))
    (hsame : aux_sq_abs s' c = c2)
    (hother : ∀ d, d ≠ c → aux_sq_abs s' d = aux_sq_abs s d)
    (hf : framesOn c ev = fo.toList) (hq : queuedOn c ev = queued [op])
    (hf' : ∀ d, d ≠ c → framesOn d ev = [] ∧ queuedOn d ev = []) :
    ∀ d, ∃ sops, SendChan.init.run sops = (some (aux_sq_abs s' d), framesOn d (log ++ ev)) ∧
      queued sops = queuedOn d (log ++ ev) := by
  intro d
  obtain ⟨sops, h1, h2⟩ := hsim d
  rw [aux_sq_framesOn_append, aux_sq_queuedOn_append]
  by_cases hd : d = c
  · subst hd
    refine ⟨sops ++ [op], ?_, ?_⟩
    · rw [aux_sq_run_snoc sops op _ _ _ h1, hstep, hf, hsame]
    · rw [aux_sq_queued_snoc, h2, hq]
  · refine ⟨sops, ?_, ?_⟩
    · rw [h1, hother d hd, (hf' d hd).1, List.append_nil]
    · rw [h2, (hf' d hd).2, List.append_nil]

/-- Steps that leave the abstraction of every channel alone and are not observed. -/
theorem aux_sq_sim_silent (log : List SqEvent) (s s' : Sq)
    (hsim : ∀ d, ∃ sops, SendChan.init.run sops = (some (aux_sq_abs s d), framesOn d log) ∧
      queued sops = queuedOn d log)
    (hsame : ∀ d, aux_sq_abs s' d = aux_sq_abs s d) :
    ∀ d, ∃ sops, SendChan.init.run sops = (some (aux_sq_abs s' d), framesOn d (log ++ [])) ∧
      queued sops = queuedOn d (log ++ []) := by
  intro d
  rw [List.append_nil, hsame]
  exact hsim d

theorem aux_sq_step (log : List SqEvent) (s s' : Sq) (op : SqOp) (ev : List SqEvent)
    (hnp : op ≠ .round true) (h : aux_sq_Inv log s) (hs : s.step op = some (s', ev)) :
    aux_sq_Inv (log ++ ev) s' := by
  obtain ⟨hsim, hn1, hn2⟩ := h
  cases op with
  | add c m =>
    simp only [Sq.step] at hs
    split at hs
    · simp only [Option.some.injEq, Prod.mk.injEq] at hs
      obtain ⟨rfl, rfl⟩ := hs
      exact ⟨aux_sq_sim_silent log s s hsim (fun _ => rfl), hn1, hn2⟩
    · split at hs
      · simp only [Option.some.injEq, Prod.mk.injEq] at hs
        obtain ⟨rfl, rfl⟩ := hs
        have hq := aux_sq_abs_queue s c m s.adding (hn1 c) (hn2 c)
        refine ⟨aux_sq_sim_step log _ s _ c (.queue m) _ none hsim rfl ?_ ?_ ?_ ?_ ?_, ?_, ?_⟩
        · rw [hq c, if_pos rfl]
        · intro d hd; rw [hq d, if_neg hd]
        · simp [framesOn]
        · simp [queuedOn, queued]
        · intro d hd; simp [framesOn, queuedOn, Ne.symm hd]
        · intro d p hd
          by_cases e : d = c
          · simp [putAt, e, SendChan.queue]
          · simpa [putAt, e] using hn1 d p hd
        · intro d p t hd
          by_cases e : d = c
          · simp [putAt, e, SendChan.queue]
          · simpa [putAt, e] using hn2 d p t hd
      · split at hs <;>
        · simp only [Option.some.injEq, Prod.mk.injEq] at hs
          obtain ⟨rfl, rfl⟩ := hs
          exact ⟨aux_sq_sim_silent log s _ hsim (fun _ => rfl), hn1, hn2⟩
  | addEnd =>
    simp only [Sq.step] at hs
    split at hs
    · simp only [Option.some.injEq, Prod.mk.injEq] at hs
      obtain ⟨rfl, rfl⟩ := hs
      exact ⟨aux_sq_sim_silent log s s hsim (fun _ => rfl), hn1, hn2⟩
    · next c m ha =>
      simp only [Option.some.injEq, Prod.mk.injEq] at hs
      obtain ⟨rfl, rfl⟩ := hs
      have hq := aux_sq_abs_queue s c m none (hn1 c) (hn2 c)
      refine ⟨aux_sq_sim_step log _ s _ c (.queue m) _ none hsim rfl ?_ ?_ ?_ ?_ ?_, ?_, ?_⟩
      · rw [hq c, if_pos rfl]
      · intro d hd; rw [hq d, if_neg hd]
      · simp [framesOn]
      · simp [queuedOn, queued]
      · intro d hd; simp [framesOn, queuedOn, Ne.symm hd]
      · intro d p hd
        by_cases e : d = c
        · simp [putAt, e, SendChan.queue]
        · simpa [putAt, e] using hn1 d p hd
      · intro d p t hd
        by_cases e : d = c
        · simp [putAt, e, SendChan.queue]
        · simpa [putAt, e] using hn2 d p t hd
  | seq c a w =>
    simp only [Sq.step] at hs
    split at hs
    · simp only [Option.some.injEq, Prod.mk.injEq] at hs
      obtain ⟨rfl, rfl⟩ := hs
      exact ⟨aux_sq_sim_silent log s s hsim (fun _ => rfl), hn1, hn2⟩
    · split at hs
      · simp at hs
      · next w' hg =>
        simp only [Option.some.injEq, Prod.mk.injEq] at hs
        obtain ⟨rfl, rfl⟩ := hs
        have hwin : (aux_sq_abs s c).win = (s.chans c).win := by
          unfold aux_sq_abs; split <;> (try split) <;> rfl
        refine ⟨aux_sq_sim_step log _ s _ c (.seq a w) { aux_sq_abs s c with win := w' } none hsim
          ?_ ?_ ?_ rfl rfl (fun _ _ => ⟨rfl, rfl⟩), ?_, ?_⟩
        · simp only [SendChan.step, hwin, hg, Option.map_some]
        · unfold aux_sq_abs
          simp only [putAt, if_true]
          split <;> (try split) <;> rfl
        · intro d hd
          unfold aux_sq_abs
          simp only [putAt, hd, if_false]
        · intro d p hd
          by_cases e : d = c
          · simpa [putAt, e] using hn1 c p (e ▸ hd)
          · simpa [putAt, e] using hn1 d p hd
        · intro d p t hd
          by_cases e : d = c
          · simpa [putAt, e] using hn2 c p t (e ▸ hd)
          · simpa [putAt, e] using hn2 d p t hd
  | check =>
    simp only [Sq.step] at hs
    split at hs <;>
    · simp only [Option.some.injEq, Prod.mk.injEq] at hs
      obtain ⟨rfl, rfl⟩ := hs
      exact ⟨aux_sq_sim_silent log s _ hsim (fun _ => rfl), hn1, hn2⟩
  | insert =>
    simp only [Sq.step] at hs
    split at hs
    · split at hs <;>
      · simp only [Option.some.injEq, Prod.mk.injEq] at hs
        obtain ⟨rfl, rfl⟩ := hs
        exact ⟨aux_sq_sim_silent log s _ hsim (fun _ => rfl), hn1, hn2⟩
    · simp only [Option.some.injEq, Prod.mk.injEq] at hs
      obtain ⟨rfl, rfl⟩ := hs
      exact ⟨aux_sq_sim_silent log s _ hsim (fun _ => rfl), hn1, hn2⟩
  | visit c =>
    simp only [Sq.step] at hs
    split at hs
    · simp only [Option.some.injEq, Prod.mk.injEq] at hs
      obtain ⟨rfl, rfl⟩ := hs
      exact ⟨aux_sq_sim_silent log s _ hsim (fun _ => rfl), hn1, hn2⟩
    · next hg =>
      have hidle : s.sender = .idle := by
        false_or_by_contra
        next h => exact hg (Or.inl h)
      split at hs
      · simp only [Option.some.injEq, Prod.mk.injEq] at hs
        obtain ⟨rfl, rfl⟩ := hs
        exact ⟨aux_sq_sim_silent log s _ hsim (fun _ => rfl), hn1, hn2⟩
      · simp only [Option.some.injEq, Prod.mk.injEq] at hs
        obtain ⟨rfl, rfl⟩ := hs
        refine ⟨aux_sq_sim_silent log s _ hsim ?_, by simp, by simp⟩
        intro d
        simp [aux_sq_abs, hidle]
  | round paused =>
    have hp : paused = false := by cases paused <;> simp_all
    subst hp
    simp only [Sq.step] at hs
    split at hs
    · next c hsend =>
      have habs : ∀ d, aux_sq_abs s d = s.chans d := by intro d; simp [aux_sq_abs, hsend]
      split at hs
      · simp only [Option.some.injEq, Prod.mk.injEq] at hs
        obtain ⟨rfl, rfl⟩ := hs
        refine ⟨aux_sq_sim_silent log s _ hsim ?_, by simp, by simp⟩
        intro d
        simp [aux_sq_abs, hsend]
      · next p ps hpend =>
        simp only [Bool.false_eq_true, if_false] at hs
        split at hs
        · simp at hs
        · next f cpl w p' hr =>
          simp only [Option.some.injEq, Prod.mk.injEq] at hs
          obtain ⟨rfl, rfl⟩ := hs
          refine ⟨aux_sq_sim_step log _ s _ c .lateRound ⟨w, if cpl then ps else p' :: ps⟩ (some f)
            hsim ?_ ?_ ?_ ?_ ?_ ?_, ?_, ?_⟩
          · simp only [SendChan.step, SendChan.emit, habs, hpend, hr]
          · cases cpl <;> simp [aux_sq_abs, putAt]
          · intro d hd
            rw [habs d]
            cases cpl <;> simp [aux_sq_abs, putAt, hd, Ne.symm hd]
          · simp [framesOn]
          · simp [queuedOn, queued]
          · intro d hd; simp [framesOn, queuedOn, Ne.symm hd]
          · intro d q hd
            simp only [SqPhase.sent.injEq] at hd
            simp [putAt, hd.1.symm]
          · simp
    · simp only [Option.some.injEq, Prod.mk.injEq] at hs
      obtain ⟨rfl, rfl⟩ := hs
      exact ⟨aux_sq_sim_silent log s _ hsim (fun _ => rfl), hn1, hn2⟩
  | relock =>
    simp only [Sq.step] at hs
    split at hs
    · next c cpl p hsend =>
      split at hs
      · simp only [Option.some.injEq, Prod.mk.injEq] at hs
        obtain ⟨rfl, rfl⟩ := hs
        refine ⟨aux_sq_sim_silent log s _ hsim ?_, by simp, ?_⟩
        · intro d; cases cpl <;> simp [aux_sq_abs, hsend]
        · intro d q t hd
          simp only [SqPhase.locked.injEq] at hd
          obtain ⟨rfl, rfl, rfl, rfl⟩ := hd
          exact hn1 c p hsend
      · simp only [Option.some.injEq, Prod.mk.injEq] at hs
        obtain ⟨rfl, rfl⟩ := hs
        exact ⟨aux_sq_sim_silent log s _ hsim (fun _ => rfl), hn1, hn2⟩
    · simp only [Option.some.injEq, Prod.mk.injEq] at hs
      obtain ⟨rfl, rfl⟩ := hs
      exact ⟨aux_sq_sim_silent log s _ hsim (fun _ => rfl), hn1, hn2⟩
  | finish =>
    simp only [Sq.step] at hs
    split at hs
    · next c cpl p t hsend =>
      simp only [Option.some.injEq, Prod.mk.injEq] at hs
      obtain ⟨rfl, rfl⟩ := hs
      refine ⟨aux_sq_sim_silent log s _ hsim ?_, by simp, by simp⟩
      intro d
      by_cases hd : d = c
      · subst hd; cases cpl <;> simp [aux_sq_abs, hsend, putAt]
      · cases cpl <;> simp [aux_sq_abs, hsend, putAt, hd, Ne.symm hd]
    · simp only [Option.some.injEq, Prod.mk.injEq] at hs
      obtain ⟨rfl, rfl⟩ := hs
      exact ⟨aux_sq_sim_silent log s _ hsim (fun _ => rfl), hn1, hn2⟩

theorem aux_sq_good (log : List SqEvent) (s : Sq) (h : aux_sq_Inv log s) (c : Nat) :
    ∃ left, Sent 0 (queuedOn c log) (framesOn c log) left := by
  obtain ⟨sops, h1, h2⟩ := h.sim c
  obtain ⟨left, h3, _⟩ := run_sent sops SendChan.init 0 4096 SendInv.init (by simp [SendChan.init])
  rw [h1, h2] at h3
  exact ⟨left, by simpa [SendChan.init] using h3⟩

theorem aux_sq_run (ops : List SqOp) : ∀ (log : List SqEvent) (s : Sq), NoPause ops →
    aux_sq_Inv log s → ∀ c, ∃ left, Sent 0 (queuedOn c (log ++ (s.run ops).2))
      (framesOn c (log ++ (s.run ops).2)) left := by
  induction ops with
  | nil => intro log s _ h c; simpa [Sq.run] using aux_sq_good log s h c
  | cons op ops ih =>
    intro log s hn h c
    unfold Sq.run
    cases hs : s.step op with
    | none => simpa using aux_sq_good log s h c
    | some r =>
      obtain ⟨s', ev⟩ := r
      have hne : op ≠ .round true := fun e => hn (by rw [e]; exact List.mem_cons_self)
      have := ih (log ++ ev) s' (fun hm => hn (List.mem_cons_of_mem _ hm))
        (aux_sq_step log s s' op ev hne h hs) c
      simpa [List.append_assoc] using this

/-- **C26 (partial)**: as long as no feeder is paused, for every interleaving of application
threads, reader thread and sending thread and for each channel, the frames written are a correct
transmission of the messages queued on the channel, in the order queued: all frames of one message,
then all frames of the next. -/
theorem C26_order_partial (ops : List SqOp) (h : NoPause ops) (c : Nat) :
    ∃ left, Sent 0 (queuedOn c (Sq.init.run ops).2) (framesOn c (Sq.init.run ops).2) left := by
  have := aux_sq_run ops [] Sq.init h
    ⟨fun c => ⟨[], rfl, rfl⟩, by simp [Sq.init], by simp [Sq.init]⟩ c
  simpa using this

/-- A message of 5000 octets and a short one. -/
def aux_sq_m1 : OutMsg := ⟨.msg, 1, 0, 0, false, List.replicate 5000 65⟩
def aux_sq_m2 : OutMsg := ⟨.msg, 1, 1, 0, false, [66, 66]⟩

/-- Both messages sent without incident. -/
def aux_sq_plain : List SqOp :=
  [.add 1 aux_sq_m1, .addEnd, .add 1 aux_sq_m2, .visit 1, .round false, .relock, .finish,
   .seq 1 4096 4096, .check, .insert, .visit 1, .round false, .relock, .finish,
   .visit 1, .round false, .relock, .finish]

-- the hypothesis is met by a history in which both messages leave, in three frames
example : NoPause aux_sq_plain := by unfold NoPause; decide
example : (queuedOn 1 (Sq.init.run aux_sq_plain).2).map (·.msgno) = [0, 1] ∧
    (framesOn 1 (Sq.init.run aux_sq_plain).2).map (fun f => (f.msgno, f.more, f.seqno, f.size)) =
      [(0, true, 0, 4096), (0, false, 4096, 904), (1, false, 5000, 2)] := by decide +kernel

/-- The transfer of the first message is paused after its first frame. -/
def aux_sq_paused : List SqOp :=
  [.add 1 aux_sq_m1, .addEnd, .visit 1, .round false, .relock, .finish,
   .seq 1 4096 4096, .check, .insert, .visit 1, .round true, .relock, .finish,
   .add 1 aux_sq_m2, .addEnd, .visit 1, .round false, .relock, .finish]

/-- **C26 (violation)**: after a feeder is paused without closing its transfer, the next message of
the channel is sent in the middle of the unfinished one: a first fragment of message 0, announcing
more, is followed by the complete message 1. -/
theorem C26_paused_interleaves :
    (queuedOn 1 (Sq.init.run aux_sq_paused).2).map (fun m => (m.msgno, m.message.length)) =
      [(0, 5000), (1, 2)] ∧
    (framesOn 1 (Sq.init.run aux_sq_paused).2).map
        (fun f => (f.msgno, f.more, f.seqno, f.payload.length)) =
      [(0, true, 0, 4096), (1, false, 4096, 2)] := by decide +kernel

theorem C26_statement_false : ¬ C26_statement := by
  intro h
  obtain ⟨left, h⟩ := h aux_sq_paused 1
  have hq := C26_paused_interleaves.1
  have hf := C26_paused_interleaves.2
  generalize queuedOn 1 (Sq.init.run aux_sq_paused).2 = ms at h hq
  generalize framesOn 1 (Sq.init.run aux_sq_paused).2 = fs at h hf
  obtain ⟨m1, ms, rfl⟩ : ∃ m l, ms = m :: l := by
    cases ms with
    | nil => simp at hq
    | cons a l => exact ⟨a, l, rfl⟩
  obtain ⟨f1, f2, rfl⟩ : ∃ a b, fs = [a, b] := by
    have := congrArg List.length hf
    rcases fs with _ | ⟨a, _ | ⟨b, _ | ⟨_, l⟩⟩⟩
    · simp at this
    · simp at this
    · exact ⟨a, b, rfl⟩
    · simp at this
  simp only [List.map_cons, List.map_nil, List.cons.injEq, Prod.mk.injEq, and_true] at hq hf
  have hno : ∀ m, FrameOf m f2 → m.msgno = 1 := by
    intro m h; rw [← h.msgno]; exact hf.2.1
  generalize hfs : [f1, f2] = fs at h
  cases h with
  | nothing => simp at hfs
  | begun _ hb =>
    subst hfs
    have := hno m1 (hb.frames f2 (by simp))
    omega
  | @whole _ _ as _ gs _ hw hr =>
    have hlen := congrArg List.length hw.content
    cases as with
    | nil =>
      simp only [List.map_nil, List.flatten_nil, List.length_nil] at hlen
      omega
    | cons a as =>
      simp only [List.cons_append, List.cons.injEq] at hfs
      cases as with
      | nil =>
        simp only [List.map_cons, List.map_nil, List.flatten_cons, List.flatten_nil,
          List.append_nil, ← hfs.1] at hlen
        omega
      | cons b as =>
        simp only [List.cons_append, List.cons.injEq] at hfs
        have := hno m1 (hw.frames f2 (by rw [hfs.2.1]; simp))
        omega

/-! ## C25 — no queued message is forgotten -/

/-- **C25 (full statement, violated)**: at every moment of every execution a channel that has
something to send and may send it is in the work set, or a thread is about to put it there. -/
def C25_statement : Prop :=
  ∀ (ops : List SqOp) (s : Sq), (Sq.init.run ops).1 = some s → ∀ c, CanSend s c → Attended s c

/-- What C25 keeps true. -/
structure aux_sq_Att (s : Sq) : Prop where
  att : ∀ c, CanSend s c → Attended s c
  /-- an application thread that did not add the channel saw it stalled; it still is, or the
  reader thread, which opened the window, has yet to look at the queue -/
  add : ∀ c m, s.adding = some (c, m) → s.ready c = false →
    (s.chans c).win.stalled = true ∨ s.reader = .checking c
  busy1 : ∀ c, s.sender = .sending c → s.ready c = true
  busy2 : ∀ c x p, s.sender = .sent c x p → s.ready c = true ∧ p = false
  busy3 : ∀ c x p t, s.sender = .locked c x p t → s.ready c = true ∧ p = false
  free : ∀ c x p t, s.sender = .locked c x p t → s.adding = none
  stall : ∀ c x p, s.sender = .locked c x p true → (s.chans c).win.stalled = true ∨
    s.reader = .checking c ∨ s.reader = .locking c ∨ (s.chans c).pending = []

theorem aux_sq_mutex (s : Sq) : s.mutexFree = true ↔
    s.adding = none ∧ ∀ c x p t, s.sender ≠ .locked c x p t := by
  unfold Sq.mutexFree
  cases s.adding with
  | some a => simp
  | none =>
    cases h : s.sender with
    | locked c x p t =>
      simp only [Option.isNone_none, Bool.and_false, Bool.false_eq_true, true_and, false_iff]
      intro hall
      exact hall c x p t rfl
    | _ => simp

theorem aux_sq_att_step (s s' : Sq) (op : SqOp) (ev : List SqEvent) (hnp : op ≠ .round true)
    (hap : op = .check → ∀ c m, s.reader = .checking c → s.adding ≠ some (c, m))
    (h : aux_sq_Att s) (hs : s.step op = some (s', ev)) : aux_sq_Att s' := by
  obtain ⟨hatt, hadd, hb1, hb2, hb3, hfree, hst⟩ := h
  cases op with
  | add c m =>
    simp only [Sq.step] at hs
    split at hs
    · simp only [Option.some.injEq, Prod.mk.injEq] at hs
      obtain ⟨rfl, rfl⟩ := hs
      exact ⟨hatt, hadd, hb1, hb2, hb3, hfree, hst⟩
    · next hmf =>
      obtain ⟨hnone, hnl⟩ := (aux_sq_mutex s).mp (by simpa using hmf)
      split at hs
      · next hr =>
        simp only [Option.some.injEq, Prod.mk.injEq] at hs
        obtain ⟨rfl, rfl⟩ := hs
        refine ⟨?_, ?_, hb1, hb2, hb3, hfree, ?_⟩
        · intro d hd
          by_cases e : d = c
          · subst e; exact Or.inl hr
          · exact hatt d (by simpa [CanSend, putAt, e] using hd)
        · intro d m' hd; rw [show s.adding = none from hnone] at hd; simp at hd
        · intro d x p hd; exact absurd hd (hnl _ _ _ _)
      · next hr =>
        split at hs
        · simp only [Option.some.injEq, Prod.mk.injEq] at hs
          obtain ⟨rfl, rfl⟩ := hs
          refine ⟨?_, ?_, ?_, ?_, ?_, ?_, ?_⟩
          · intro d hd
            by_cases e : d = c
            · subst e; left; simp [putAt]
            · rcases hatt d hd with h | h | h
              · left; simpa [putAt, e] using h
              · exact Or.inr (Or.inl h)
              · exact Or.inr (Or.inr h)
          · intro d m' hd hrd
            simp only [Option.some.injEq, Prod.mk.injEq] at hd
            simp [putAt, hd.1] at hrd
          · intro d hd
            by_cases e : d = c
            · simp [putAt, e]
            · simpa [putAt, e] using hb1 d hd
          · intro d x p hd
            by_cases e : d = c
            · refine ⟨by simp [putAt, e], (hb2 d x p hd).2⟩
            · simpa [putAt, e] using hb2 d x p hd
          · intro d x p t hd; exact absurd hd (hnl _ _ _ _)
          · intro d x p t hd; exact absurd hd (hnl _ _ _ _)
          · intro d x p hd; exact absurd hd (hnl _ _ _ _)
        · next hstall =>
          simp only [Option.some.injEq, Prod.mk.injEq] at hs
          obtain ⟨rfl, rfl⟩ := hs
          refine ⟨hatt, ?_, hb1, hb2, hb3, ?_, ?_⟩
          · intro d m' hd _
            simp only [Option.some.injEq, Prod.mk.injEq] at hd
            left
            rw [← hd.1]
            simpa using hstall
          · intro d x p t hd; exact absurd hd (hnl _ _ _ _)
          · intro d x p hd; exact absurd hd (hnl _ _ _ _)
  | addEnd =>
    simp only [Sq.step] at hs
    split at hs
    · simp only [Option.some.injEq, Prod.mk.injEq] at hs
      obtain ⟨rfl, rfl⟩ := hs
      exact ⟨hatt, hadd, hb1, hb2, hb3, hfree, hst⟩
    · next c m ha =>
      simp only [Option.some.injEq, Prod.mk.injEq] at hs
      obtain ⟨rfl, rfl⟩ := hs
      refine ⟨?_, by simp, hb1, hb2, hb3, by simp, ?_⟩
      · intro d hd
        by_cases e : d = c
        · subst e
          cases hr : s.ready d with
          | true => exact Or.inl hr
          | false =>
            have hw : (s.chans d).win.stalled = false := by
              have := hd.2; simpa [putAt, SendChan.queue] using this
            rcases hadd d m ha hr with h | h
            · rw [hw] at h; simp at h
            · exact Or.inr (Or.inl h)
        · exact hatt d (by simpa [CanSend, putAt, e] using hd)
      · intro d x p hd
        have := hfree d x p true hd
        rw [ha] at this
        simp at this
  | seq c a w =>
    simp only [Sq.step] at hs
    split at hs
    · simp only [Option.some.injEq, Prod.mk.injEq] at hs
      obtain ⟨rfl, rfl⟩ := hs
      exact ⟨hatt, hadd, hb1, hb2, hb3, hfree, hst⟩
    · next hidle =>
      have hidle : s.reader = .idle := by
        false_or_by_contra
        next h => exact hidle h
      split at hs
      · simp at hs
      · next w' hg =>
        simp only [Option.some.injEq, Prod.mk.injEq] at hs
        obtain ⟨rfl, rfl⟩ := hs
        refine ⟨?_, ?_, hb1, hb2, hb3, hfree, ?_⟩
        · intro d hd
          by_cases e : d = c
          · right; left; rw [e]
          · rcases hatt d (by simpa [CanSend, putAt, e] using hd) with h | h | h
            · exact Or.inl h
            · rw [hidle] at h; simp at h
            · rw [hidle] at h; simp at h
        · intro d m hd hr
          by_cases e : d = c
          · right; rw [e]
          · rcases hadd d m hd hr with h | h
            · left; simpa [putAt, e] using h
            · rw [hidle] at h; simp at h
        · intro d x p hd
          by_cases e : d = c
          · right; left; rw [e]
          · rcases hst d x p hd with h | h | h | h
            · left; simpa [putAt, e] using h
            · rw [hidle] at h; simp at h
            · rw [hidle] at h; simp at h
            · right; right; right; simpa [putAt, e] using h
  | check =>
    simp only [Sq.step] at hs
    split at hs
    · next c hc =>
      simp only [Option.some.injEq, Prod.mk.injEq] at hs
      obtain ⟨rfl, rfl⟩ := hs
      have hre : (s.chans c).pending ≠ [] →
          (if (s.chans c).pending.isEmpty = true then RdPhase.idle else .locking c) = .locking c := by
        intro h; simp [h]
      have ofc : ∀ d, s.reader = .checking d → d = c := by
        intro d hd; rw [hc] at hd; simpa using hd.symm
      refine ⟨?_, ?_, hb1, hb2, hb3, hfree, ?_⟩
      · intro d hd
        rcases hatt d hd with h | h | h
        · exact Or.inl h
        · have := ofc d h; subst this
          exact Or.inr (Or.inr (hre hd.1))
        · rw [hc] at h; simp at h
      · intro d m hd hr
        rcases hadd d m hd hr with h | h
        · exact Or.inl h
        · have := ofc d h; subst this
          exact absurd hd (hap rfl d m hc)
      · intro d x p hd
        rcases hst d x p hd with h | h | h | h
        · exact Or.inl h
        · have := ofc d h; subst this
          by_cases he : (s.chans d).pending = []
          · exact Or.inr (Or.inr (Or.inr he))
          · exact Or.inr (Or.inr (Or.inl (hre he)))
        · rw [hc] at h; simp at h
        · exact Or.inr (Or.inr (Or.inr h))
    · simp only [Option.some.injEq, Prod.mk.injEq] at hs
      obtain ⟨rfl, rfl⟩ := hs
      exact ⟨hatt, hadd, hb1, hb2, hb3, hfree, hst⟩
  | insert =>
    simp only [Sq.step] at hs
    split at hs
    · next c hc =>
      split at hs
      · next hmf =>
        obtain ⟨hnone, hnl⟩ := (aux_sq_mutex s).mp hmf
        simp only [Option.some.injEq, Prod.mk.injEq] at hs
        obtain ⟨rfl, rfl⟩ := hs
        refine ⟨?_, ?_, ?_, ?_, ?_, ?_, ?_⟩
        · intro d hd
          by_cases e : d = c
          · left; simp [putAt, e]
          · rcases hatt d hd with h | h | h
            · left; simpa [putAt, e] using h
            · rw [hc] at h; simp at h
            · rw [hc] at h
              simp only [RdPhase.locking.injEq] at h
              exact absurd h.symm e
        · intro d m hd
          rw [show s.adding = none from hnone] at hd; simp at hd
        · intro d hd
          by_cases e : d = c
          · simp [putAt, e]
          · simpa [putAt, e] using hb1 d hd
        · intro d x p hd
          by_cases e : d = c
          · exact ⟨by simp [putAt, e], (hb2 d x p hd).2⟩
          · simpa [putAt, e] using hb2 d x p hd
        · intro d x p t hd; exact absurd hd (hnl _ _ _ _)
        · intro d x p t hd; exact absurd hd (hnl _ _ _ _)
        · intro d x p hd; exact absurd hd (hnl _ _ _ _)
      · simp only [Option.some.injEq, Prod.mk.injEq] at hs
        obtain ⟨rfl, rfl⟩ := hs
        exact ⟨hatt, hadd, hb1, hb2, hb3, hfree, hst⟩
    · simp only [Option.some.injEq, Prod.mk.injEq] at hs
      obtain ⟨rfl, rfl⟩ := hs
      exact ⟨hatt, hadd, hb1, hb2, hb3, hfree, hst⟩
  | visit c =>
    simp only [Sq.step] at hs
    split at hs
    · simp only [Option.some.injEq, Prod.mk.injEq] at hs
      obtain ⟨rfl, rfl⟩ := hs
      exact ⟨hatt, hadd, hb1, hb2, hb3, hfree, hst⟩
    · next hg =>
      simp only [not_or, Decidable.not_not, Bool.not_eq_true', Bool.not_eq_false] at hg
      obtain ⟨hidle, hmf, hrc⟩ := hg
      obtain ⟨hnone, hnl⟩ := (aux_sq_mutex s).mp hmf
      split at hs
      · next hstall =>
        simp only [Option.some.injEq, Prod.mk.injEq] at hs
        obtain ⟨rfl, rfl⟩ := hs
        refine ⟨?_, ?_, ?_, ?_, ?_, ?_, ?_⟩
        · intro d hd
          by_cases e : d = c
          · subst e
            have := hd.2
            rw [show (s.chans d).win.stalled = true from hstall] at this
            simp at this
          · rcases hatt d hd with h | h | h
            · left; simpa [putAt, e] using h
            · exact Or.inr (Or.inl h)
            · exact Or.inr (Or.inr h)
        · intro d m hd
          rw [show s.adding = none from hnone] at hd; simp at hd
        · intro d hd; rw [show s.sender = .idle from hidle] at hd; simp at hd
        · intro d x p hd; rw [show s.sender = .idle from hidle] at hd; simp at hd
        · intro d x p t hd; exact absurd hd (hnl _ _ _ _)
        · intro d x p t hd; exact absurd hd (hnl _ _ _ _)
        · intro d x p hd; exact absurd hd (hnl _ _ _ _)
      · simp only [Option.some.injEq, Prod.mk.injEq] at hs
        obtain ⟨rfl, rfl⟩ := hs
        refine ⟨hatt, hadd, ?_, by simp, by simp, by simp, by simp⟩
        intro d hd
        simp only [SqPhase.sending.injEq] at hd
        rw [← hd]; exact hrc
  | round paused =>
    have hp : paused = false := by cases paused <;> simp_all
    subst hp
    simp only [Sq.step] at hs
    split at hs
    · next c hsend =>
      have hrc := hb1 c hsend
      split at hs
      · simp only [Option.some.injEq, Prod.mk.injEq] at hs
        obtain ⟨rfl, rfl⟩ := hs
        refine ⟨hatt, hadd, by simp, ?_, by simp, by simp, by simp⟩
        intro d x p hd
        simp only [SqPhase.sent.injEq] at hd
        rw [← hd.1]
        exact ⟨hrc, hd.2.2.symm⟩
      · next p ps hpend =>
        simp only [Bool.false_eq_true, if_false] at hs
        split at hs
        · simp at hs
        · next f cpl w p' hr =>
          simp only [Option.some.injEq, Prod.mk.injEq] at hs
          obtain ⟨rfl, rfl⟩ := hs
          refine ⟨?_, ?_, by simp, ?_, by simp, by simp, by simp⟩
          · intro d hd
            by_cases e : d = c
            · rw [e]; exact Or.inl hrc
            · exact hatt d (by simpa [CanSend, putAt, e] using hd)
          · intro d m hd hrd
            by_cases e : d = c
            · rw [e] at hrd
              rw [show s.ready c = true from hrc] at hrd
              simp at hrd
            · simpa [putAt, e] using hadd d m hd hrd
          · intro d x q hd
            simp only [SqPhase.sent.injEq] at hd
            rw [← hd.1]
            exact ⟨hrc, hd.2.2.symm⟩
    · simp only [Option.some.injEq, Prod.mk.injEq] at hs
      obtain ⟨rfl, rfl⟩ := hs
      exact ⟨hatt, hadd, hb1, hb2, hb3, hfree, hst⟩
  | relock =>
    simp only [Sq.step] at hs
    split at hs
    · next c cpl p hsend =>
      split at hs
      · next hmf =>
        obtain ⟨hnone, hnl⟩ := (aux_sq_mutex s).mp hmf
        simp only [Option.some.injEq, Prod.mk.injEq] at hs
        obtain ⟨rfl, rfl⟩ := hs
        refine ⟨hatt, hadd, by simp, by simp, ?_, ?_, ?_⟩
        · intro d x q t hd
          simp only [SqPhase.locked.injEq] at hd
          rw [← hd.1, ← hd.2.2.1]
          exact hb2 c cpl p hsend
        · intro d x q t hd; exact hnone
        · intro d x q hd
          simp only [SqPhase.locked.injEq] at hd
          left
          rw [← hd.1]; exact hd.2.2.2
      · simp only [Option.some.injEq, Prod.mk.injEq] at hs
        obtain ⟨rfl, rfl⟩ := hs
        exact ⟨hatt, hadd, hb1, hb2, hb3, hfree, hst⟩
    · simp only [Option.some.injEq, Prod.mk.injEq] at hs
      obtain ⟨rfl, rfl⟩ := hs
      exact ⟨hatt, hadd, hb1, hb2, hb3, hfree, hst⟩
  | finish =>
    simp only [Sq.step] at hs
    split at hs
    · next c cpl p t hsend =>
      obtain ⟨hrc, rfl⟩ := hb3 c cpl p t hsend
      have hnone := hfree c cpl false t hsend
      simp only [Option.some.injEq, Prod.mk.injEq] at hs
      obtain ⟨rfl, rfl⟩ := hs
      refine ⟨?_, ?_, by simp, by simp, by simp, by simp, by simp⟩
      · intro d hd
        by_cases e : d = c
        · subst e
          simp only [CanSend, putAt, if_true] at hd
          obtain ⟨hd1, hd2⟩ := hd
          have hne : (s.chans d).pending ≠ [] := by
            intro h0; apply hd1; rw [h0]; cases cpl <;> rfl
          have hie : (cpl && (if cpl = true then (s.chans d).pending.tail
              else (s.chans d).pending).isEmpty) = false := by
            cases cpl with
            | false => rfl
            | true => simpa using hd1
          cases t with
          | false =>
            left
            simp only [hie, Bool.or_self, Bool.false_eq_true, if_false]
            exact hrc
          | true =>
            rcases hst d cpl false hsend with h | h | h | h
            · rw [h] at hd2; simp at hd2
            · exact Or.inr (Or.inl h)
            · exact Or.inr (Or.inr h)
            · exact absurd h hne
        · rcases hatt d (by simpa [CanSend, putAt, e] using hd) with h | h | h
          · left
            have h' : putAt s.ready c false d = true := by simpa [putAt, e] using h
            show (ite _ _ _ : Nat → Bool) d = true
            generalize (cpl && _ || t || false) = b
            cases b
            · exact h
            · exact h'
          · exact Or.inr (Or.inl h)
          · exact Or.inr (Or.inr h)
      · intro d m hd
        rw [show s.adding = none from hnone] at hd; simp at hd
    · simp only [Option.some.injEq, Prod.mk.injEq] at hs
      obtain ⟨rfl, rfl⟩ := hs
      exact ⟨hatt, hadd, hb1, hb2, hb3, hfree, hst⟩

theorem aux_sq_att_run (ops : List SqOp) : ∀ (s s' : Sq), NoPause ops → ChecksApart s ops →
    aux_sq_Att s → (s.run ops).1 = some s' → aux_sq_Att s' := by
  induction ops with
  | nil =>
    intro s s' _ _ h hr
    simp only [Sq.run, Option.some.injEq] at hr
    exact hr ▸ h
  | cons op ops ih =>
    intro s s' hn hc h hr
    unfold Sq.run at hr
    cases hs : s.step op with
    | none => simp [hs] at hr
    | some r =>
      obtain ⟨s1, ev⟩ := r
      simp only [hs] at hr
      have hne : op ≠ .round true := fun e => hn (by rw [e]; exact List.mem_cons_self)
      exact ih s1 s' (fun hm => hn (List.mem_cons_of_mem _ hm)) (hc.2 s1 ev hs)
        (aux_sq_att_step s s1 op ev hne hc.1 h hs) hr

theorem aux_sq_att_init : aux_sq_Att Sq.init := by
  constructor <;> simp [Sq.init, CanSend, SendChan.init]

/-- **C25 (partial)**: in every execution in which no feeder is paused and the reader thread does not
look at the queue of a channel at the very moment an application thread is queueing on it, a
channel that has something to send and may send it is always in the work set, or the reader
thread is about to put it there. -/
theorem C25_attended_partial (ops : List SqOp) (h1 : NoPause ops) (h2 : ChecksApart Sq.init ops)
    (s : Sq) (hs : (Sq.init.run ops).1 = some s) (c : Nat) (hc : CanSend s c) : Attended s c :=
  (aux_sq_att_run ops Sq.init s h1 h2 aux_sq_att_init hs).att c hc

/-- **C25 (progress, partial)**: in such an execution, whenever the reader thread is idle, no thread
holds the mutex and the sending thread is between two channels, its next look at a channel
that can send starts a send round for it, whose first frame is written or, if the window
computation fails, whose connection is closed. -/
theorem C25_progress_partial (ops : List SqOp) (h1 : NoPause ops) (h2 : ChecksApart Sq.init ops)
    (s : Sq) (hs : (Sq.init.run ops).1 = some s) (c : Nat) (hc : CanSend s c)
    (hr : s.reader = .idle) (hm : s.mutexFree = true) (hi : s.sender = .idle) :
    (s.run [.visit c, .round false]).1 = none ∨
      ∃ f, (s.run [.visit c, .round false]).2 = [.frame c f] := by
  have hready : s.ready c = true := by
    rcases C25_attended_partial ops h1 h2 s hs c hc with h | h | h
    · exact h
    · rw [hr] at h; simp at h
    · rw [hr] at h; simp at h
  obtain ⟨hp, hw⟩ := hc
  cases hpend : (s.chans c).pending with
  | nil => exact absurd hpend hp
  | cons p ps =>
    have hv : s.step (.visit c) = some ({ s with sender := .sending c }, []) := by
      simp [Sq.step, hi, hm, hready, hw]
    simp only [Sq.run, hv, List.nil_append]
    have hr2 : ({ s with sender := .sending c } : Sq).step (.round false) =
        match sendRound (s.chans c).win p with
        | .shutdown => none
        | .sent f complete w p' =>
          some ({ s with chans := putAt s.chans c ⟨w, (if complete then p else p') :: ps⟩,
                         sender := .sent c complete false }, [.frame c f]) := by
      simp only [Sq.step, hpend, Bool.false_eq_true, if_false]
      rfl
    rw [hr2]
    cases sendRound (s.chans c).win p with
    | shutdown => left; rfl
    | sent f cpl w p' => right; exact ⟨f, rfl⟩

/-- Decides `ChecksApart`. -/
def aux_sq_apart : Sq → List SqOp → Bool
  | _, [] => true
  | s, op :: ops =>
    (!(op == .check) || (match s.reader, s.adding with
      | .checking c, some (d, _) => !(c == d)
      | _, _ => true)) &&
    (match s.step op with
      | none => true
      | some (s', _) => aux_sq_apart s' ops)

theorem aux_sq_apart_spec (ops : List SqOp) : ∀ s, aux_sq_apart s ops = true → ChecksApart s ops := by
  induction ops with
  | nil => intro s _; trivial
  | cons op ops ih =>
    intro s h
    simp only [aux_sq_apart, Bool.and_eq_true, Bool.or_eq_true, Bool.not_eq_true', beq_eq_false_iff_ne] at h
    refine ⟨?_, ?_⟩
    · intro e c m hc ha
      rcases h.1 with h1 | h1
      · exact h1 e
      · rw [hc, ha] at h1; simp at h1
    · intro s' ev hs
      have := h.2
      rw [hs] at this
      exact ih s' this

-- the hypotheses are met by a history with a SEQ frame that leaves a message to be sent, with the
-- window open and all threads idle
example : NoPause (aux_sq_plain.take 14) ∧ ChecksApart Sq.init (aux_sq_plain.take 14) :=
  ⟨by unfold NoPause; decide, aux_sq_apart_spec _ _ (by decide +kernel)⟩
example : ((Sq.init.run (aux_sq_plain.take 14)).1.map fun s =>
    decide ((s.chans 1).pending.length = 1 ∧ (s.chans 1).win.stalled = false ∧ s.reader = .idle ∧
      s.mutexFree = true ∧ s.sender = .idle)) = some true := by decide +kernel

/-- An application thread queues the second message on a channel whose window was used up by the
first, while the reader thread handles the SEQ frame that opens it again. -/
def aux_sq_race : List SqOp :=
  [.add 1 { aux_sq_m1 with message := List.replicate 4096 65 }, .addEnd,
   .visit 1, .round false, .relock, .finish,
   .add 1 aux_sq_m2, .seq 1 4096 4096, .check, .addEnd]

/-- **C25 (violation)**: the reader thread finds the queue empty just before the application thread,
which saw the window closed just before it was opened, queues its message. All threads are
idle, the window is open, a message is queued, and the channel is not in the work set. -/
theorem C25_lost_wakeup : ∃ s, (Sq.init.run aux_sq_race).1 = some s ∧ CanSend s 1 ∧
    s.ready 1 = false ∧ s.reader = .idle ∧ s.sender = .idle ∧ s.adding = none := by
  have key : ((Sq.init.run aux_sq_race).1.map fun s =>
      decide (((s.chans 1).pending.map (·.msg.msgno)) = [1] ∧ (s.chans 1).win.stalled = false ∧
        s.ready 1 = false ∧ s.reader = .idle ∧ s.sender = .idle ∧ s.adding = none)) = some true := by
    decide +kernel
  generalize (Sq.init.run aux_sq_race).1 = r at key
  cases r with
  | none => simp at key
  | some s =>
    simp only [Option.map_some, Option.some.injEq, decide_eq_true_eq] at key
    refine ⟨s, rfl, ⟨?_, key.2.1⟩, key.2.2⟩
    intro h
    rw [h] at key
    simp at key

theorem C25_statement_false : ¬ C25_statement := by
  intro h
  obtain ⟨s, h1, h2, h3, h4, _⟩ := C25_lost_wakeup
  rcases h _ s h1 1 h2 with h | h | h
  · rw [h3] at h; simp at h
  · rw [h4] at h; simp at h
  · rw [h4] at h; simp at h

/-- **C25 (violation, consequence)**: a channel forgotten in this way stays forgotten: whatever the
threads do for other channels, and however often the sending thread runs, no frame of the
channel is written until the application queues another message on it or the peer, which has
nothing to acknowledge, sends another SEQ frame. -/
theorem C25_forgotten_stays (ops : List SqOp) (c : Nat)
    (hops : ∀ op ∈ ops, (∀ m, op ≠ .add c m) ∧ ∀ a w, op ≠ .seq c a w) :
    ∀ s : Sq, s.ready c = false → (∀ m, s.adding ≠ some (c, m)) →
      s.reader ≠ .checking c → s.reader ≠ .locking c → s.sender ≠ .sending c →
      framesOn c (s.run ops).2 = [] := by
  induction ops with
  | nil => intro s _ _ _ _ _; rfl
  | cons op ops ih =>
    intro s h1 h2 h3 h4 h5
    unfold Sq.run
    cases hs : s.step op with
    | none => rfl
    | some r =>
      obtain ⟨s', ev⟩ := r
      simp only
      rw [aux_sq_framesOn_append]
      have hop := hops op List.mem_cons_self
      have key : framesOn c ev = [] ∧ s'.ready c = false ∧ (∀ m, s'.adding ≠ some (c, m)) ∧
          s'.reader ≠ .checking c ∧ s'.reader ≠ .locking c ∧ s'.sender ≠ .sending c := by
        cases op with
        | add d m =>
          have hd : c ≠ d := by intro e; exact hop.1 m (by rw [e])
          simp only [Sq.step] at hs
          split at hs
          · simp only [Option.some.injEq, Prod.mk.injEq] at hs
            obtain ⟨rfl, rfl⟩ := hs
            exact ⟨rfl, h1, h2, h3, h4, h5⟩
          · split at hs
            · simp only [Option.some.injEq, Prod.mk.injEq] at hs
              obtain ⟨rfl, rfl⟩ := hs
              exact ⟨rfl, h1, h2, h3, h4, h5⟩
            · split at hs <;>
              · simp only [Option.some.injEq, Prod.mk.injEq] at hs
                obtain ⟨rfl, rfl⟩ := hs
                refine ⟨rfl, ?_, ?_, h3, h4, h5⟩
                · simp [putAt, hd, h1]
                · intro m' e
                  simp only [Option.some.injEq, Prod.mk.injEq] at e
                  exact hd e.1.symm
        | addEnd =>
          simp only [Sq.step] at hs
          split at hs <;>
          · simp only [Option.some.injEq, Prod.mk.injEq] at hs
            obtain ⟨rfl, rfl⟩ := hs
            exact ⟨rfl, h1, by simp_all, h3, h4, h5⟩
        | seq d a w =>
          have hd : c ≠ d := by intro e; exact hop.2 a w (by rw [e])
          simp only [Sq.step] at hs
          split at hs
          · simp only [Option.some.injEq, Prod.mk.injEq] at hs
            obtain ⟨rfl, rfl⟩ := hs
            exact ⟨rfl, h1, h2, h3, h4, h5⟩
          · split at hs
            · simp at hs
            · simp only [Option.some.injEq, Prod.mk.injEq] at hs
              obtain ⟨rfl, rfl⟩ := hs
              exact ⟨rfl, h1, h2, by simp [Ne.symm hd], by simp, h5⟩
        | check =>
          simp only [Sq.step] at hs
          split at hs
          · next d hd =>
            simp only [Option.some.injEq, Prod.mk.injEq] at hs
            obtain ⟨rfl, rfl⟩ := hs
            have hdc : d ≠ c := by intro e; exact h3 (by rw [hd, e])
            refine ⟨rfl, h1, h2, ?_, ?_, h5⟩
            · simp only; split <;> simp
            · simp only; split <;> simp [hdc]
          · simp only [Option.some.injEq, Prod.mk.injEq] at hs
            obtain ⟨rfl, rfl⟩ := hs
            exact ⟨rfl, h1, h2, h3, h4, h5⟩
        | insert =>
          simp only [Sq.step] at hs
          split at hs
          · next d hd =>
            have hdc : c ≠ d := by intro e; exact h4 (by rw [hd, e])
            split at hs <;>
            · simp only [Option.some.injEq, Prod.mk.injEq] at hs
              obtain ⟨rfl, rfl⟩ := hs
              exact ⟨rfl, by simp [putAt, hdc, h1], h2, by simp [hd], by simp [hd, Ne.symm hdc], h5⟩
          · simp only [Option.some.injEq, Prod.mk.injEq] at hs
            obtain ⟨rfl, rfl⟩ := hs
            exact ⟨rfl, h1, h2, h3, h4, h5⟩
        | visit d =>
          simp only [Sq.step] at hs
          split at hs
          · simp only [Option.some.injEq, Prod.mk.injEq] at hs
            obtain ⟨rfl, rfl⟩ := hs
            exact ⟨rfl, h1, h2, h3, h4, h5⟩
          · next hg =>
            have hdc : c ≠ d := by
              intro e; apply hg; right; right; rw [← e, h1]; rfl
            split at hs
            · simp only [Option.some.injEq, Prod.mk.injEq] at hs
              obtain ⟨rfl, rfl⟩ := hs
              exact ⟨rfl, by simp [putAt, hdc, h1], h2, h3, h4, h5⟩
            · simp only [Option.some.injEq, Prod.mk.injEq] at hs
              obtain ⟨rfl, rfl⟩ := hs
              exact ⟨rfl, h1, h2, h3, h4, by simp [Ne.symm hdc]⟩
        | round paused =>
          simp only [Sq.step] at hs
          split at hs
          · next d hd =>
            have hdc : d ≠ c := by intro e; exact h5 (by rw [hd, e])
            split at hs
            · simp only [Option.some.injEq, Prod.mk.injEq] at hs
              obtain ⟨rfl, rfl⟩ := hs
              exact ⟨rfl, h1, h2, h3, h4, by simp⟩
            · split at hs
              · simp only [Option.some.injEq, Prod.mk.injEq] at hs
                obtain ⟨rfl, rfl⟩ := hs
                exact ⟨rfl, h1, h2, h3, h4, by simp⟩
              · split at hs
                · simp at hs
                · simp only [Option.some.injEq, Prod.mk.injEq] at hs
                  obtain ⟨rfl, rfl⟩ := hs
                  exact ⟨by simp [framesOn, hdc], h1, h2, h3, h4, by simp⟩
          · simp only [Option.some.injEq, Prod.mk.injEq] at hs
            obtain ⟨rfl, rfl⟩ := hs
            exact ⟨rfl, h1, h2, h3, h4, h5⟩
        | relock =>
          simp only [Sq.step] at hs
          split at hs
          · split at hs <;>
            · simp only [Option.some.injEq, Prod.mk.injEq] at hs
              obtain ⟨rfl, rfl⟩ := hs
              exact ⟨rfl, h1, h2, h3, h4, by simp_all⟩
          · simp only [Option.some.injEq, Prod.mk.injEq] at hs
            obtain ⟨rfl, rfl⟩ := hs
            exact ⟨rfl, h1, h2, h3, h4, h5⟩
        | finish =>
          simp only [Sq.step] at hs
          split at hs
          · next d _ _ _ hd =>
            simp only [Option.some.injEq, Prod.mk.injEq] at hs
            obtain ⟨rfl, rfl⟩ := hs
            refine ⟨rfl, ?_, h2, h3, h4, by simp⟩
            have h' : putAt s.ready d false c = false := by
              by_cases e : c = d
              · simp [putAt, e]
              · simp [putAt, e, h1]
            show (ite _ _ _ : Nat → Bool) c = false
            generalize (_ && _ || _ || _ : Bool) = b
            cases b
            · exact h1
            · exact h'
          · simp only [Option.some.injEq, Prod.mk.injEq] at hs
            obtain ⟨rfl, rfl⟩ := hs
            exact ⟨rfl, h1, h2, h3, h4, h5⟩
      obtain ⟨k0, k1, k2, k3, k4, k5⟩ := key
      rw [k0, List.nil_append]
      exact ih (fun o ho => hops o (List.mem_cons_of_mem _ ho)) s' k1 k2 k3 k4 k5

-- the state reached by `aux_sq_race` meets the hypotheses
example : ∃ s, (Sq.init.run aux_sq_race).1 = some s ∧ s.ready 1 = false ∧
    (∀ m, s.adding ≠ some (1, m)) ∧ s.reader ≠ .checking 1 ∧ s.reader ≠ .locking 1 ∧
    s.sender ≠ .sending 1 := by
  obtain ⟨s, h1, _, h3, h4, h5, h6⟩ := C25_lost_wakeup
  exact ⟨s, h1, h3, by simp [h6], by simp [h4], by simp [h4], by simp [h5]⟩

/-- Two messages queued, the feeder of the first is paused. -/
def aux_sq_pause2 : List SqOp :=
  [.add 1 aux_sq_m2, .addEnd, .add 1 aux_sq_m2, .visit 1, .round true, .relock, .finish]

/-- **C25 (violation, paused feeder)**: when a feeder is paused the channel leaves the work set even
if other messages are queued behind it. -/
theorem C25_paused_forgets : ((Sq.init.run aux_sq_pause2).1.map fun s =>
      decide ((s.chans 1).pending.length = 1 ∧ (s.chans 1).win.stalled = false ∧
        s.ready 1 = false ∧ s.reader = .idle ∧ s.sender = .idle ∧ s.adding = none)) = some true := by
  decide +kernel

/-! ## C48 — the sending thread sleeps when there is nothing to send -/

/-- **C48 (full statement, violated)**: a channel is in the sending thread's work set (which it goes
through without sleeping) only if a message is queued on it or being queued. -/
def C48_statement : Prop :=
  ∀ (ops : List SqOp) (s : Sq), (Sq.init.run ops).1 = some s → ∀ c, s.ready c = true →
    (s.chans c).pending ≠ [] ∨ ∃ m, s.adding = some (c, m)

/-- What C48 keeps true. -/
structure aux_sq_Busy (s : Sq) : Prop where
  ready : ∀ c, s.ready c = true → (s.chans c).pending ≠ [] ∨ ∃ m, s.adding = some (c, m)
  locking : ∀ c, s.reader = .locking c → (s.chans c).pending ≠ []
  free : ∀ c x p t, s.sender = .locked c x p t → s.adding = none

theorem aux_sq_busy_step (s s' : Sq) (op : SqOp) (ev : List SqEvent) (hnp : op ≠ .round true)
    (hap : op = .finish → ∀ c, s.reader ≠ .locking c)
    (h : aux_sq_Busy s) (hs : s.step op = some (s', ev)) : aux_sq_Busy s' := by
  obtain ⟨hr, hl, hf⟩ := h
  have same : s.step op = some (s, []) → aux_sq_Busy s' := by
    intro e
    rw [e] at hs
    simp only [Option.some.injEq, Prod.mk.injEq] at hs
    exact hs.1 ▸ ⟨hr, hl, hf⟩
  cases op with
  | add c m =>
    by_cases hmf : s.mutexFree = true
    · obtain ⟨hnone, hnl⟩ := (aux_sq_mutex s).mp hmf
      simp only [Sq.step, hmf, Bool.not_true, Bool.false_eq_true, if_false] at hs
      have hr' : ∀ d, s.ready d = true → (s.chans d).pending ≠ [] := by
        intro d hd
        rcases hr d hd with h | ⟨m', h⟩
        · exact h
        · rw [hnone] at h; simp at h
      split at hs
      · simp only [Option.some.injEq, Prod.mk.injEq] at hs
        obtain ⟨rfl, rfl⟩ := hs
        refine ⟨?_, ?_, hf⟩
        · intro d hd
          left
          by_cases e : d = c
          · simp [putAt, e, SendChan.queue]
          · simpa [putAt, e] using hr' d hd
        · intro d hd
          by_cases e : d = c
          · simp [putAt, e, SendChan.queue]
          · simpa [putAt, e] using hl d hd
      · split at hs <;>
        · simp only [Option.some.injEq, Prod.mk.injEq] at hs
          obtain ⟨rfl, rfl⟩ := hs
          refine ⟨?_, hl, ?_⟩
          · intro d hd
            by_cases e : d = c
            · right; exact ⟨m, by rw [e]⟩
            · left; exact hr' d (by simpa [putAt, e] using hd)
          · intro d x p t hd; exact absurd hd (hnl _ _ _ _)
    · exact same (by simp [Sq.step, hmf])
  | addEnd =>
    cases ha : s.adding with
    | none => exact same (by simp [Sq.step, ha])
    | some cm =>
      obtain ⟨c, m⟩ := cm
      simp only [Sq.step, ha, Option.some.injEq, Prod.mk.injEq] at hs
      obtain ⟨rfl, rfl⟩ := hs
      refine ⟨?_, ?_, by simp⟩
      · intro d hd
        left
        by_cases e : d = c
        · simp [putAt, e, SendChan.queue]
        · rcases hr d hd with h | ⟨m', h⟩
          · simpa [putAt, e] using h
          · rw [ha] at h
            simp only [Option.some.injEq, Prod.mk.injEq] at h
            exact absurd h.1.symm e
      · intro d hd
        by_cases e : d = c
        · simp [putAt, e, SendChan.queue]
        · simpa [putAt, e] using hl d hd
  | seq c a w =>
    simp only [Sq.step] at hs
    split at hs
    · simp only [Option.some.injEq, Prod.mk.injEq] at hs
      exact hs.1 ▸ ⟨hr, hl, hf⟩
    · split at hs
      · simp at hs
      · simp only [Option.some.injEq, Prod.mk.injEq] at hs
        obtain ⟨rfl, rfl⟩ := hs
        refine ⟨?_, by simp, hf⟩
        intro d hd
        rcases hr d hd with h | h
        · left
          by_cases e : d = c
          · simpa [putAt, e] using e ▸ h
          · simpa [putAt, e] using h
        · exact Or.inr h
  | check =>
    simp only [Sq.step] at hs
    split at hs
    · next c hc =>
      simp only [Option.some.injEq, Prod.mk.injEq] at hs
      obtain ⟨rfl, rfl⟩ := hs
      refine ⟨hr, ?_, hf⟩
      intro d hd
      simp only at hd
      split at hd
      · simp at hd
      · next he =>
        simp only [RdPhase.locking.injEq] at hd
        rw [← hd]
        simpa using he
    · simp only [Option.some.injEq, Prod.mk.injEq] at hs
      exact hs.1 ▸ ⟨hr, hl, hf⟩
  | insert =>
    simp only [Sq.step] at hs
    split at hs
    · next c hc =>
      split at hs
      · simp only [Option.some.injEq, Prod.mk.injEq] at hs
        obtain ⟨rfl, rfl⟩ := hs
        refine ⟨?_, by simp, hf⟩
        intro d hd
        by_cases e : d = c
        · left; rw [e]; exact hl c hc
        · exact hr d (by simpa [putAt, e] using hd)
      · simp only [Option.some.injEq, Prod.mk.injEq] at hs
        exact hs.1 ▸ ⟨hr, hl, hf⟩
    · simp only [Option.some.injEq, Prod.mk.injEq] at hs
      exact hs.1 ▸ ⟨hr, hl, hf⟩
  | visit c =>
    simp only [Sq.step] at hs
    split at hs
    · simp only [Option.some.injEq, Prod.mk.injEq] at hs
      exact hs.1 ▸ ⟨hr, hl, hf⟩
    · split at hs
      · simp only [Option.some.injEq, Prod.mk.injEq] at hs
        obtain ⟨rfl, rfl⟩ := hs
        refine ⟨?_, hl, hf⟩
        intro d hd
        by_cases e : d = c
        · simp [putAt, e] at hd
        · exact hr d (by simpa [putAt, e] using hd)
      · simp only [Option.some.injEq, Prod.mk.injEq] at hs
        obtain ⟨rfl, rfl⟩ := hs
        exact ⟨hr, hl, by simp⟩
  | round paused =>
    have hp : paused = false := by cases paused <;> simp_all
    subst hp
    simp only [Sq.step] at hs
    split at hs
    · next c hsend =>
      split at hs
      · simp only [Option.some.injEq, Prod.mk.injEq] at hs
        obtain ⟨rfl, rfl⟩ := hs
        exact ⟨hr, hl, by simp⟩
      · simp only [Bool.false_eq_true, if_false] at hs
        split at hs
        · simp at hs
        · simp only [Option.some.injEq, Prod.mk.injEq] at hs
          obtain ⟨rfl, rfl⟩ := hs
          refine ⟨?_, ?_, by simp⟩
          · intro d hd
            by_cases e : d = c
            · left; simp [putAt, e]
            · simpa [putAt, e] using hr d hd
          · intro d hd
            by_cases e : d = c
            · simp [putAt, e]
            · simpa [putAt, e] using hl d hd
    · simp only [Option.some.injEq, Prod.mk.injEq] at hs
      exact hs.1 ▸ ⟨hr, hl, hf⟩
  | relock =>
    simp only [Sq.step] at hs
    split at hs
    · split at hs
      · next hmf =>
        obtain ⟨hnone, hnl⟩ := (aux_sq_mutex s).mp hmf
        simp only [Option.some.injEq, Prod.mk.injEq] at hs
        obtain ⟨rfl, rfl⟩ := hs
        exact ⟨hr, hl, fun _ _ _ _ _ => hnone⟩
      · simp only [Option.some.injEq, Prod.mk.injEq] at hs
        exact hs.1 ▸ ⟨hr, hl, hf⟩
    · simp only [Option.some.injEq, Prod.mk.injEq] at hs
      exact hs.1 ▸ ⟨hr, hl, hf⟩
  | finish =>
    simp only [Sq.step] at hs
    split at hs
    · next c cpl p t hsend =>
      have hnone := hf c cpl p t hsend
      simp only [Option.some.injEq, Prod.mk.injEq] at hs
      obtain ⟨rfl, rfl⟩ := hs
      refine ⟨?_, ?_, by simp⟩
      · intro d hd
        by_cases e : d = c
        · subst e
          left
          simp only [putAt, if_true]
          intro h0
          rw [h0] at hd
          have hd' : (ite ((cpl && true || t || p) = true) (putAt s.ready d false) s.ready) d = true := hd
          cases cpl with
          | true => simp [putAt] at hd'
          | false =>
            simp only [Bool.false_eq_true, if_false] at h0
            have : s.ready d = true := by
              revert hd'
              generalize (false && true || t || p) = b
              cases b
              · exact id
              · simp [putAt]
            rcases hr d this with h | ⟨m, h⟩
            · exact h h0
            · rw [hnone] at h; simp at h
        · have hd' : s.ready d = true := by
            have hd2 : (ite _ (putAt s.ready c false) s.ready) d = true := hd
            revert hd2
            generalize (cpl && _ || t || p) = b
            cases b
            · exact id
            · simp [putAt, e]
          simpa [putAt, e] using hr d hd'
      · intro d hd
        exact absurd hd (hap rfl d)
    · simp only [Option.some.injEq, Prod.mk.injEq] at hs
      exact hs.1 ▸ ⟨hr, hl, hf⟩

/-- **C48 (partial)**: as long as no feeder is paused and no message is completed between the reader
thread's look at the queue and its insertion of the channel, only channels with something to
send are in the work set. -/
theorem C48_busy_partial (ops : List SqOp) (h1 : NoPause ops) (h2 : FinishesApart Sq.init ops)
    (s : Sq) (hs : (Sq.init.run ops).1 = some s) (c : Nat) (hc : s.ready c = true) :
    (s.chans c).pending ≠ [] ∨ ∃ m, s.adding = some (c, m) := by
  have key : ∀ (ops : List SqOp) (s s' : Sq), NoPause ops → FinishesApart s ops →
      aux_sq_Busy s → (s.run ops).1 = some s' → aux_sq_Busy s' := by
    intro ops
    induction ops with
    | nil =>
      intro s s' _ _ h hr
      simp only [Sq.run, Option.some.injEq] at hr
      exact hr ▸ h
    | cons op ops ih =>
      intro s s' hn hc h hr
      unfold Sq.run at hr
      cases hs : s.step op with
      | none => simp [hs] at hr
      | some r =>
        obtain ⟨s1, ev⟩ := r
        simp only [hs] at hr
        have hne : op ≠ .round true := fun e => hn (by rw [e]; exact List.mem_cons_self)
        exact ih s1 s' (fun hm => hn (List.mem_cons_of_mem _ hm)) (hc.2 s1 ev hs)
          (aux_sq_busy_step s s1 op ev hne hc.1 h hs) hr
  exact (key ops Sq.init s h1 h2 (by constructor <;> simp [Sq.init]) hs).ready c hc

/-- Decides `FinishesApart`. -/
def aux_sq_fapart : Sq → List SqOp → Bool
  | _, [] => true
  | s, op :: ops =>
    (!(op == .finish) || (match s.reader with | .locking _ => false | _ => true)) &&
    (match s.step op with
      | none => true
      | some (s', _) => aux_sq_fapart s' ops)

theorem aux_sq_fapart_spec (ops : List SqOp) :
    ∀ s, aux_sq_fapart s ops = true → FinishesApart s ops := by
  induction ops with
  | nil => intro s _; trivial
  | cons op ops ih =>
    intro s h
    simp only [aux_sq_fapart, Bool.and_eq_true, Bool.or_eq_true, Bool.not_eq_true', beq_eq_false_iff_ne] at h
    refine ⟨?_, ?_⟩
    · intro e c hc
      rcases h.1 with h1 | h1
      · exact h1 e
      · rw [hc] at h1; simp at h1
    · intro s' ev hs
      have := h.2
      rw [hs] at this
      exact ih s' this

example : NoPause (aux_sq_plain.take 14) ∧ FinishesApart Sq.init (aux_sq_plain.take 14) :=
  ⟨by unfold NoPause; decide, aux_sq_fapart_spec _ _ (by decide +kernel)⟩
example : ((Sq.init.run (aux_sq_plain.take 14)).1.map fun s => s.ready 1) = some true := by
  decide +kernel

/-- The reader thread finds a message queued, the sending thread completes it, and only then the
reader thread adds the channel. -/
def aux_sq_spurious : List SqOp :=
  [.add 1 aux_sq_m2, .addEnd, .visit 1, .round false, .seq 1 2 4096, .check, .relock, .finish,
   .insert]

/-- **C48 (violation)**: the channel is then in the work set without anything to send, and visiting
it changes nothing: the sending thread goes through its work set again and again without
sleeping, until the application queues a message. -/
theorem C48_spins : ((Sq.init.run aux_sq_spurious).1.map fun s =>
      decide ((s.chans 1).pending = [] ∧ s.ready 1 = true ∧ s.reader = .idle ∧
        s.sender = .idle ∧ s.adding = none ∧ (s.chans 1).win.stalled = false)) = some true := by
  decide +kernel

theorem C48_statement_false : ¬ C48_statement := by
  intro h
  have key := C48_spins
  cases hs : (Sq.init.run aux_sq_spurious).1 with
  | none => rw [hs] at key; simp at key
  | some s =>
    rw [hs] at key
    simp only [Option.map_some, Option.some.injEq, decide_eq_true_eq] at key
    rcases h _ s hs 1 key.2.1 with h | ⟨m, h⟩
    · exact h key.1
    · rw [key.2.2.2.2.1] at h; simp at h

/-- **C48 (violation, consequence)**: from every such state a visit of the sending thread to the
channel leads back to the same state, writing nothing. -/
theorem C48_spins_forever (s : Sq) (c n : Nat) (h1 : (s.chans c).pending = []) (h2 : s.ready c = true)
    (h3 : s.sender = .idle) (h4 : s.adding = none) (h5 : (s.chans c).win.stalled = false) :
    s.run (List.replicate n [SqOp.visit c, .round false, .relock, .finish]).flatten =
      (some s, []) := by
  induction n with
  | zero => rfl
  | succ n ih =>
    have hmf : s.mutexFree = true := (aux_sq_mutex s).mpr ⟨h4, by simp [h3]⟩
    have e1 : s.step (.visit c) = some ({ s with sender := .sending c }, []) := by
      simp [Sq.step, h3, hmf, h2, h5]
    have e2 : ({ s with sender := .sending c } : Sq).step (.round false) =
        some ({ s with sender := .sent c false false }, []) := by simp [Sq.step, h1]
    have e3 : ({ s with sender := .sent c false false } : Sq).step .relock =
        some ({ s with sender := .locked c false false false }, []) := by
      have : ({ s with sender := .sent c false false } : Sq).mutexFree = true :=
        (aux_sq_mutex _).mpr ⟨h4, by simp⟩
      simp [Sq.step, this, h5]
    have e4 : ({ s with sender := .locked c false false false } : Sq).step .finish =
        some (s, []) := by
      have : putAt s.chans c (s.chans c) = s.chans := by
        funext x; by_cases e : x = c <;> simp [putAt, e]
      simp only [Sq.step, Bool.false_and, Bool.or_self, Bool.false_eq_true, if_false]
      rw [show ({ s.chans c with pending := (s.chans c).pending } : SendChan) = s.chans c from rfl, this,
        ← h3]
    simp only [List.replicate_succ, List.flatten_cons, List.cons_append, List.nil_append, Sq.run, e1,
      e2, e3, e4, ih]

end Verif.Props
