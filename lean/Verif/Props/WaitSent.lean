import Verif.Spec.WaitSent
/-! C82: waiting until a reply is written. -/
namespace Verif.Props
open Verif.Model Verif.Spec

/-- C82, full: no released queue is used; the wait ends only after the reply was written; and it ends when the sequencer is done with
the reply and the close handlers that were taken have run, also if the connection failed. False of the code. -/
def C82_statement : Prop :=
  (∀ acts, SentWait.init.run acts ≠ none) ∧
  (∀ s, reachedSent s → s.pc = .done → replyWritten s) ∧
  (∀ s, reachedSent s → sentQuiet s → s.over = true → ¬ sentStuck s)

/-- What is in the queue if nothing was taken but perhaps the mark. -/
def aux_ws_sig (m : SentMsg) : List SentItem := if m = .signalled then [.written] else []

/-- Where the two pushes are: in flight, in the queue, or popped by the waiter. -/
def aux_ws_place (s : SentWait) : Prop :=
  match s.pc with
  | .start => s.handler = false ∧ s.marks = 0 ∧ s.items = aux_ws_sig s.msg
  | .waiting =>
    (s.handler = true ∧ s.marks = 0 ∧ s.items = aux_ws_sig s.msg) ∨ (s.handler = false ∧ s.marks = 1 ∧ s.items = aux_ws_sig s.msg) ∨
    (s.handler = false ∧ s.marks = 0 ∧ s.items = aux_ws_sig s.msg ++ [.gone]) ∨
    (s.handler = false ∧ s.marks = 0 ∧ s.items = .gone :: aux_ws_sig s.msg)
  | .popped .written => s.msg = .signalled ∧
    ((s.handler = true ∧ s.marks = 0 ∧ s.items = []) ∨ (s.handler = false ∧ s.marks = 1 ∧ s.items = []) ∨
     (s.handler = false ∧ s.marks = 0 ∧ s.items = [.gone]))
  | .popped .gone => s.handler = false ∧ s.marks = 0 ∧ s.items = aux_ws_sig s.msg
  | .again => s.handler = false ∧
    ((s.msg = .signalled ∧ s.marks = 1 ∧ s.items = []) ∨ (s.msg = .signalled ∧ s.marks = 0 ∧ s.items = [.gone]) ∨
     (s.marks = 0 ∧ s.items = aux_ws_sig s.msg))
  | .done => s.msg = .signalled ∧ s.handler = false ∧ s.marks = 0 ∧ s.items = []

def aux_ws_inv (s : SentWait) : Prop := aux_ws_place s ∧ (s.alive = false ↔ s.pc = .done)

theorem aux_ws_ok (s : SentWait) (a : SentAct) (h : aux_ws_inv s) : s.step a ≠ none := by
  obtain ⟨connOk, over, items, alive, handler, marks, msg, pc⟩ := s
  obtain ⟨h, ha⟩ := h
  simp only [aux_ws_place] at h ha
  cases a <;> rcases pc with _ | _ | (_ | _) | _ | _ <;> simp only at h ha <;> simp only [SentWait.step] <;> grind [aux_ws_sig]

theorem aux_ws_keep (s : SentWait) (a : SentAct) (r : SentWait) (h : aux_ws_inv s) (hs : s.step a = some r) : aux_ws_inv r := by
  obtain ⟨connOk, over, items, alive, handler, marks, msg, pc⟩ := s
  obtain ⟨connOk', over', items', alive', handler', marks', msg', pc'⟩ := r
  obtain ⟨h, ha⟩ := h
  simp only [aux_ws_inv, aux_ws_place] at h ha ⊢
  cases a <;> rcases pc with _ | _ | (_ | _) | _ | _ <;> simp only at h ha <;> simp only [SentWait.step] at hs <;> grind [aux_ws_sig]

theorem aux_ws_step (s : SentWait) (a : SentAct) (h : aux_ws_inv s) : ∃ r, s.step a = some r ∧ aux_ws_inv r := by
  cases hs : s.step a with
  | none => exact absurd hs (aux_ws_ok s a h)
  | some r => exact ⟨r, rfl, aux_ws_keep s a r h hs⟩

theorem aux_ws_run (acts : List SentAct) (s : SentWait) (h : aux_ws_inv s) : ∃ r, s.run acts = some r ∧ aux_ws_inv r := by
  induction acts generalizing s with
  | nil => exact ⟨s, rfl, h⟩
  | cons a as ih =>
    obtain ⟨r, h1, h2⟩ := aux_ws_step s a h
    simp only [SentWait.run, h1]
    exact ih r h2

theorem aux_ws_init : aux_ws_inv SentWait.init := by
  simp [aux_ws_inv, aux_ws_place, SentWait.init, aux_ws_sig]

theorem aux_ws_reached (s : SentWait) (h : reachedSent s) : aux_ws_inv s := by
  obtain ⟨acts, h⟩ := h
  obtain ⟨r, h1, h2⟩ := aux_ws_run acts _ aux_ws_init
  rw [h] at h1; simp only [Option.some.injEq] at h1; exact h1 ▸ h2

/-- C82, memory: in every order of the steps, neither the sequencer nor the close handler uses the queue after it was released. -/
theorem C82_safe (acts : List SentAct) : SentWait.init.run acts ≠ none := by
  obtain ⟨r, h, _⟩ := aux_ws_run acts _ aux_ws_init
  rw [h]; simp

/-- C82, order: the wait ends only after the reply was written (or the write failed). -/
theorem C82_after_write (s : SentWait) (h : reachedSent s) (hd : s.pc = .done) : replyWritten s := by
  have h1 := (aux_ws_reached s h).1
  simp only [aux_ws_place, hd] at h1
  exact Or.inr (Or.inr h1.1)

/-- The connection fails after the write; mark and signal are both in the queue before the waiter looks. -/
example : ∃ s, SentWait.init.run [.wait, .write, .fail, .takeHandler, .mark, .lookup, .wait, .signal, .wait, .wait] = some s ∧
    s.pc = .done := ⟨_, rfl, rfl⟩

/-- C82, end: if the reply was written, the wait is not stuck when the sequencer and the close handlers have done their part.
Missing: replies that are not written (false of the code, `C82_never_ends`). -/
theorem C82_ends_partial (s : SentWait) (h : reachedSent s) (hw : replyWritten s) (hq : sentQuiet s) : ¬ sentStuck s := by
  have h1 := (aux_ws_reached s h).1
  obtain ⟨hq1, hq2⟩ := hq
  have hm : s.msg = .signalled := by
    rcases hq1 with h | h
    · exact h
    · rcases hw with h' | h' | h' <;> rw [h] at h' <;> simp at h'
  rintro ⟨hp, hi⟩
  simp only [aux_ws_place] at h1
  rcases hp with hp | hp <;> simp only [hp, hi, hq2, hm, aux_ws_sig] at h1 <;> simp at h1

example : ∃ s, SentWait.init.run [.wait, .fail, .takeHandler, .write, .lookup, .mark, .wait, .wait, .signal] = some s ∧
    replyWritten s ∧ sentQuiet s ∧ s.pc = .again := ⟨_, rfl, by simp [replyWritten], by simp [sentQuiet, SentWait.init], rfl⟩

theorem aux_ws_dropped (acts : List SentAct) (s r : SentWait) (h : s.msg = .dropped) (hr : s.run acts = some r) : r.msg = .dropped := by
  induction acts generalizing s with
  | nil => simp only [SentWait.run, Option.some.injEq] at hr; exact hr ▸ h
  | cons a as ih =>
    simp only [SentWait.run] at hr
    cases hs : s.step a with
    | none => rw [hs] at hr; simp at hr
    | some q =>
      rw [hs] at hr
      refine ih q ?_ hr
      cases a <;> simp only [SentWait.step] at hs <;> grind

/-- Violation: if the sequencer drops the reply because the connection is down, the wait never ends, whatever happens then: also the mark
of the close handler does not end it. -/
theorem C82_never_ends (s : SentWait) (h : reachedSent s) (hd : s.msg = .dropped) (acts : List SentAct) (r : SentWait)
    (hr : s.run acts = some r) : r.pc ≠ .done := by
  have h1 := aux_ws_dropped acts s r hd hr
  intro hp
  have hreach : reachedSent r := by
    obtain ⟨as, ha⟩ := h
    refine ⟨as ++ acts, ?_⟩
    have : ∀ (as : List SentAct) (s0 : SentWait), s0.run (as ++ acts) = (s0.run as).bind fun q => q.run acts := by
      intro as
      induction as with
      | nil => intro s0; rfl
      | cons a as ih =>
        intro s0
        simp only [List.cons_append, SentWait.run]
        cases s0.step a with
        | none => rfl
        | some q => exact ih q
    rw [this, ha]; exact hr
  rcases C82_after_write r hreach hp with h | h | h <;> rw [h1] at h <;> simp at h

/-- The connection fails, the sequencer drops the reply, the mark is taken, and the waiter waits again. -/
theorem C82_blocked :
    ∃ s, SentWait.init.run [.wait, .fail, .drop, .takeHandler, .mark, .wait, .wait, .takeHandler] = some s ∧ s.msg = .dropped ∧
      sentQuiet s ∧ s.over = true ∧ sentStuck s :=
  ⟨_, rfl, rfl, by simp [sentQuiet, SentWait.init], rfl, by simp [sentStuck]⟩

theorem C82_statement_false : ¬ C82_statement := by
  intro h
  obtain ⟨s, h1, _, h3, h4, h5⟩ := C82_blocked
  exact h.2.2 s ⟨_, h1⟩ h3 h4 h5

end Verif.Props
