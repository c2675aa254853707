import Verif.Spec.Idle
/-!
# C69: connections without traffic are notified
-/
namespace Verif.Props
open Verif.Model Verif.Spec

/-- The handler is called only when the connection had no traffic for longer than the period; one reference is held for each
notification on its way, and no more; and a connection without traffic for longer than the period is notified when the reader
looks at it, unless it is being notified. -/
def C69_statement : Prop :=
  ∀ h now ops, 0 < now →
    let r := (Idle.init h now).run ops
    (∀ l1 t p l2, r.2 = l1 ++ .call t p :: l2 → quietSince l1 t p) ∧
    r.1.refs = r.1.queued + r.1.running ∧
    (∀ p, r.1.handler = some p → r.1.stamp ≠ 0 → r.1.stamp + p < r.1.now → r.1.queued + r.1.running = 0 →
      (r.1.step .check).2 = [.found r.1.now p])

theorem aux_id_run_append (a b : List IdleOp) : ∀ s : Idle, s.run (a ++ b) =
    (((s.run a).1.run b).1, (s.run a).2 ++ ((s.run a).1.run b).2) := by
  induction a with
  | nil => intro s; simp [Idle.run]
  | cons op a ih => intro s; simp only [List.cons_append, Idle.run, ih, List.append_assoc]

/-- What the stamp means, with what was observed so far. -/
def aux_id_inv (s : Idle) (log : List IdleEvent) : Prop :=
  s.stamp ≤ s.now ∧ 0 < s.now ∧ (∀ t, (.active t ∈ log ∨ .done t ∈ log) → t ≤ s.stamp) ∧
  (∀ l1 t p l2, log = l1 ++ .found t p :: l2 → quietSince l1 t p)

/-- Appending what is no finding. -/
theorem aux_id_split {log new : List IdleEvent} (h : ∀ l1 t p l2, log = l1 ++ .found t p :: l2 → quietSince l1 t p)
    (hn : ∀ t p, .found t p ∉ new) : ∀ l1 t p l2, log ++ new = l1 ++ .found t p :: l2 → quietSince l1 t p := by
  intro l1 t p l2 he
  rcases List.append_eq_append_iff.1 he with ⟨a, h1, h2⟩ | ⟨a, h1, h2⟩
  · exact absurd (by rw [h2]; simp) (hn t p)
  · cases a with
    | nil => exact absurd (by rw [← List.nil_append new, ← h2]; simp) (hn t p)
    | cons x a =>
      simp at h2
      obtain ⟨rfl, rfl⟩ := h2
      exact h l1 t p a h1

theorem aux_id_step (s : Idle) (op : IdleOp) (log : List IdleEvent) (h : aux_id_inv s log) :
    aux_id_inv (s.step op).1 (log ++ (s.step op).2) := by
  obtain ⟨h1, h2, h3, h4⟩ := h
  have hsame : ∀ t : Idle, t.stamp = s.stamp → s.now ≤ t.now → aux_id_inv t (log ++ []) := by
    intro t a b
    exact ⟨by omega, by omega, fun x hx => by rw [a]; exact h3 x (by simpa using hx), by simpa using h4⟩
  have htouch : ∀ t : Idle, t.stamp = s.now → t.now = s.now → ∀ e, (∀ x p, .found x p ∉ e) →
      (∀ x, (.active x ∈ e ∨ .done x ∈ e) → x = s.now) → aux_id_inv t (log ++ e) := by
    intro t a b e hf he
    refine ⟨by omega, by omega, fun x hx => ?_, aux_id_split h4 hf⟩
    simp only [List.mem_append] at hx
    have : (.active x ∈ log ∨ .done x ∈ log) ∨ (.active x ∈ e ∨ .done x ∈ e) := by grind
    rcases this with g | g
    · have := h3 x g; omega
    · have := he x g; omega
  cases op with
  | tick d => exact hsame _ rfl (by simp [Idle.step])
  | traffic => exact htouch s.touch rfl rfl [.active s.now] (by simp) (by simp)
  | check =>
    simp only [Idle.step]
    split
    · exact hsame _ rfl (Nat.le_refl _)
    · next period hp =>
      split
      · exact htouch s.touch rfl rfl [.active s.now] (by simp) (by simp)
      · next hs =>
        split
        · next hlt =>
          unfold Idle.notify
          split
          · exact hsame _ rfl (Nat.le_refl _)
          · refine ⟨h1, h2, fun t ht => h3 t (by simpa using ht), ?_⟩
            intro l1 t p l2 he
            rcases List.append_eq_append_iff.1 he with ⟨a, g1, g2⟩ | ⟨a, g1, g2⟩
            · cases a with
              | nil =>
                simp at g2
                obtain ⟨⟨rfl, rfl⟩, rfl⟩ := g2
                rw [List.append_nil] at g1
                subst g1
                intro t' ht'
                have := h3 t' ht'
                omega
              | cons x a => simp at g2
            · cases a with
              | nil =>
                simp at g2
                obtain ⟨⟨rfl, rfl⟩, rfl⟩ := g2
                rw [List.append_nil] at g1
                subst g1
                intro t' ht'
                have := h3 t' ht'
                omega
              | cons x a => simp at g2; obtain ⟨rfl, rfl⟩ := g2; exact h4 l1 t p a g1
        · exact hsame _ rfl (Nat.le_refl _)
  | set h => exact hsame _ rfl (Nat.le_refl _)
  | start =>
    simp only [Idle.step]
    split
    · exact hsame _ rfl (Nat.le_refl _)
    · split
      · exact hsame _ rfl (Nat.le_refl _)
      · exact ⟨h1, h2, fun t ht => h3 t (by simpa using ht), aux_id_split h4 (by simp)⟩
  | finish =>
    simp only [Idle.step]
    split
    · exact hsame _ rfl (Nat.le_refl _)
    · exact htouch { s.touch with flagged := false, running := s.running - 1, refs := s.refs - 1 } rfl rfl [.done s.now] (by simp) (by simp)
  | stopPool => exact hsame _ rfl (Nat.le_refl _)

theorem aux_id_reached (ops : List IdleOp) : ∀ (s : Idle) (log : List IdleEvent), aux_id_inv s log →
    aux_id_inv (s.run ops).1 (log ++ (s.run ops).2) := by
  induction ops with
  | nil => intro s log h; simpa [Idle.run] using h
  | cons op ops ih =>
    intro s log h
    have := ih _ _ (aux_id_step s op log h)
    simpa [Idle.run, List.append_assoc] using this

/-- A connection is found to be without traffic only when nothing was received or sent, and no earlier call of the handler
returned, for longer than the period in force. -/
theorem C69_only_quiet (h : Option Nat) (now : Nat) (ops : List IdleOp) (hn : 0 < now) (l1 l2 : List IdleEvent) (t p : Nat)
    (hl : ((Idle.init h now).run ops).2 = l1 ++ .found t p :: l2) : quietSince l1 t p := by
  have := aux_id_reached ops (Idle.init h now) [] ⟨by simp [Idle.init], hn, by simp, by simp⟩
  rw [List.nil_append] at this
  exact this.2.2.2 l1 t p l2 hl

theorem aux_id_check (s : Idle) : s.step .check = (s, []) ∨ s.step .check = (s.touch, [.active s.now]) ∨
    ∃ p, s.handler = some p ∧ s.flagged = false ∧ s.step .check =
      ({ s with flagged := true, refs := s.refs + 1, queued := if s.stopping then s.queued else s.queued + 1 }, [.found s.now p]) := by
  simp only [Idle.step]
  cases hh : s.handler with
  | none => exact .inl rfl
  | some p =>
    dsimp only
    split
    · exact .inr (.inl rfl)
    · split
      · unfold Idle.notify
        cases hf : s.flagged with
        | true => exact .inl (by simp)
        | false => exact .inr (.inr ⟨p, rfl, rfl, by simp [hh]⟩)
      · exact .inl rfl

theorem aux_id_start (s : Idle) : s.step .start = (s, []) ∨ (s.queued ≠ 0 ∧ s.handler = none ∧ s.step .start = ({ s with queued := s.queued - 1 }, [])) ∨
    ∃ p, s.queued ≠ 0 ∧ s.handler = some p ∧ s.step .start = ({ s with queued := s.queued - 1, running := s.running + 1 }, [.call s.now p]) := by
  simp only [Idle.step]
  split
  · exact .inl rfl
  · next hq =>
    cases hh : s.handler with
    | none => exact .inr (.inl ⟨hq, rfl, by simp⟩)
    | some p => exact .inr (.inr ⟨p, hq, rfl, by simp⟩)

theorem aux_id_finish (s : Idle) : s.step .finish = (s, []) ∨ (s.running ≠ 0 ∧ s.step .finish =
    ({ s.touch with flagged := false, running := s.running - 1, refs := s.refs - 1 }, [.done s.now])) := by
  simp only [Idle.step]
  split
  · exact .inl rfl
  · next hq => exact .inr ⟨hq, rfl⟩

/-- The counts of notifications. -/
def aux_id_count (s : Idle) (log : List IdleEvent) : Prop :=
  s.queued + s.running ≤ s.flagged.toNat ∧ s.queued + s.running ≤ s.refs ∧
  log.countP isFound ≤ log.countP isIdleDone + s.flagged.toNat ∧
  log.countP isIdleCall = log.countP isIdleDone + s.running ∧ log.countP isIdleCall + s.queued ≤ log.countP isFound

theorem aux_id_count_step (s : Idle) (op : IdleOp) (log : List IdleEvent) (h : aux_id_count s log) :
    aux_id_count (s.step op).1 (log ++ (s.step op).2) := by
  have hsame := h
  obtain ⟨h1, h2, h3, h4, h5⟩ := h
  have hact : aux_id_count s.touch (log ++ [.active s.now]) :=
    ⟨h1, h2, by simpa [Idle.touch, isFound, isIdleDone] using h3, by simpa [Idle.touch, isIdleCall, isIdleDone] using h4,
      by simpa [Idle.touch, isFound, isIdleCall] using h5⟩
  cases op with
  | tick d => rw [show (s.step (.tick d)).2 = [] from rfl, List.append_nil]; exact hsame
  | traffic => exact hact
  | check =>
    rcases aux_id_check s with e | e | ⟨p, _, hf, e⟩
    · rw [e]; simpa using hsame
    · rw [e]; exact hact
    · rw [e]
      rw [hf] at h1 h3
      simp only [Bool.toNat_false] at h1 h3
      unfold aux_id_count
      simp [isFound, isIdleCall, isIdleDone]
      split <;> omega
  | set h => rw [show (s.step (.set h)).2 = [] from rfl, List.append_nil]; exact hsame
  | start =>
    rcases aux_id_start s with e | ⟨hq, _, e⟩ | ⟨p, hq, _, e⟩
    · rw [e]; simpa using hsame
    · rw [e]; unfold aux_id_count; simp; omega
    · rw [e]; unfold aux_id_count; simp [isFound, isIdleCall, isIdleDone]; omega
  | finish =>
    rcases aux_id_finish s with e | ⟨hq, e⟩
    · rw [e]; simpa using hsame
    · rw [e]; unfold aux_id_count; simp [Idle.touch, isFound, isIdleCall, isIdleDone]
      have := Bool.toNat_le s.flagged
      omega
  | stopPool => rw [show (s.step .stopPool).2 = [] from rfl, List.append_nil]; exact hsame

/-- A connection is never notified twice at the same time: the handler is called at most once for each finding, a new finding
comes only when the call for the last one returned, and a reference is held meanwhile. -/
theorem C69_one_at_a_time (h : Option Nat) (now : Nat) (ops : List IdleOp) :
    let r := (Idle.init h now).run ops
    r.1.queued + r.1.running ≤ 1 ∧ r.1.queued + r.1.running ≤ r.1.refs ∧
    r.2.countP isFound ≤ r.2.countP isIdleDone + 1 ∧ r.2.countP isIdleCall ≤ r.2.countP isFound := by
  have key : ∀ (ops : List IdleOp) (s : Idle) (log : List IdleEvent), aux_id_count s log →
      aux_id_count (s.run ops).1 (log ++ (s.run ops).2) := by
    intro ops
    induction ops with
    | nil => intro s log h; simpa [Idle.run] using h
    | cons op ops ih =>
      intro s log h
      have := ih _ _ (aux_id_count_step s op log h)
      simpa [Idle.run, List.append_assoc] using this
  have := key ops (Idle.init h now) [] (by simp [aux_id_count, Idle.init])
  rw [List.nil_append] at this
  obtain ⟨h1, h2, h3, h4, h5⟩ := this
  have := Bool.toNat_le ((Idle.init h now).run ops).1.flagged
  dsimp only
  omega

/-- As long as the handler is not removed and the thread pool runs, exactly one reference is held for each notification on its
way, and a connection without traffic for longer than the period is notified when the reader looks at it. What is missing:
`C69_forgotten`. -/
theorem C69_told_partial (h : Option Nat) (now : Nat) (ops : List IdleOp) (hs : ∀ op ∈ ops, idleSteady op) :
    let s := ((Idle.init h now).run ops).1
    s.refs = s.queued + s.running ∧
    (∀ p, s.handler = some p → s.stamp ≠ 0 → s.stamp + p < s.now → s.queued + s.running = 0 →
      (s.step .check).2 = [.found s.now p] ∧ (s.step .check).1.queued = 1) := by
  have hstep : ∀ (s : Idle) (op : IdleOp), idleSteady op →
      (s.refs = s.queued + s.running ∧ s.refs = (if s.flagged then 1 else 0) ∧ s.stopping = false ∧ (s.handler = none → s.refs = 0)) →
      ((s.step op).1.refs = (s.step op).1.queued + (s.step op).1.running ∧ (s.step op).1.refs = (if (s.step op).1.flagged then 1 else 0) ∧
        (s.step op).1.stopping = false ∧ ((s.step op).1.handler = none → (s.step op).1.refs = 0)) := by
    intro s op ho ⟨h1, h2, h3, h4⟩
    cases op with
    | tick d => exact ⟨h1, h2, h3, h4⟩
    | traffic => exact ⟨h1, h2, h3, h4⟩
    | check =>
      rcases aux_id_check s with e | e | ⟨p, hp, hf, e⟩
      · rw [e]; exact ⟨h1, h2, h3, h4⟩
      · rw [e]; exact ⟨h1, h2, h3, h4⟩
      · rw [e]; simp [hf] at h2; simp [h3, hp, h2]; omega
    | set h => cases h with
      | none => simp [idleSteady] at ho
      | some p => exact ⟨h1, h2, h3, by simp [Idle.step]⟩
    | start =>
      rcases aux_id_start s with e | ⟨hq, hn, e⟩ | ⟨p, hq, hp, e⟩
      · rw [e]; exact ⟨h1, h2, h3, h4⟩
      · have := h4 hn; omega
      · rw [e]; exact ⟨by simp; omega, h2, h3, by simp [hp]⟩
    | finish =>
      rcases aux_id_finish s with e | ⟨hq, e⟩
      · rw [e]; exact ⟨h1, h2, h3, h4⟩
      · rw [e]
        have : s.refs = 1 := by split at h2 <;> omega
        simp [Idle.touch, h3, this]; omega
    | stopPool => simp [idleSteady] at ho
  have key : ∀ (ops : List IdleOp) (s : Idle), (∀ op ∈ ops, idleSteady op) →
      (s.refs = s.queued + s.running ∧ s.refs = (if s.flagged then 1 else 0) ∧ s.stopping = false ∧ (s.handler = none → s.refs = 0)) →
      ((s.run ops).1.refs = (s.run ops).1.queued + (s.run ops).1.running ∧ (s.run ops).1.refs = (if (s.run ops).1.flagged then 1 else 0) ∧
        (s.run ops).1.stopping = false ∧ ((s.run ops).1.handler = none → (s.run ops).1.refs = 0)) := by
    intro ops
    induction ops with
    | nil => intro s _ h; exact h
    | cons op ops ih =>
      intro s ho h
      exact ih _ (fun o h => ho o (by simp [h])) (hstep s op (ho op (by simp)) h)
  obtain ⟨a1, a2, a3, a4⟩ := key ops (Idle.init h now) hs (by simp [Idle.init])
  refine ⟨a1, ?_⟩
  intro p hp h0 hlt hz
  have hf : ((Idle.init h now).run ops).1.flagged = false := by
    cases hx : ((Idle.init h now).run ops).1.flagged with
    | false => rfl
    | true => rw [hx] at a2; simp at a2; omega
  have hlt' : ((Idle.init h now).run ops).1.now - ((Idle.init h now).run ops).1.stamp > p := by omega
  simp only [Idle.step, hp, if_neg h0, if_pos hlt', Idle.notify, hf, a3]
  simp; omega

/-- A concrete history: the connection is looked at, has traffic, is found without, the handler is called, and again later. -/
example : ((Idle.init (some 10) 100).run [.check, .tick 5, .traffic, .tick 10, .check, .tick 1, .check, .tick 1, .check, .start, .tick 3,
      .finish, .tick 11, .check]).2 =
    [.active 100, .active 105, .found 116 10, .call 117 10, .done 120, .found 131 10] := by decide

/-- **Violation**: when the handler is removed while a notification waits for a thread, the reference taken for it is never
released, and the connection is never notified again, whatever happens later. -/
theorem C69_forgotten : ∃ ops, let s := ((Idle.init (some 10) 100).run ops).1
    s.queued + s.running = 0 ∧ s.refs = 1 ∧
    ∀ more, (s.run more).1.refs = 1 ∧ (s.run more).1.running = 0 ∧ ∀ t p, .found t p ∉ (s.run more).2 := by
  refine ⟨[.check, .tick 11, .check, .set none, .start], rfl, rfl, ?_⟩
  have key : ∀ (more : List IdleOp) (s : Idle), s.refs = 1 ∧ s.running = 0 ∧ s.queued = 0 ∧ s.flagged = true →
      (s.run more).1.refs = 1 ∧ (s.run more).1.running = 0 ∧ ∀ t p, .found t p ∉ (s.run more).2 := by
    intro more
    induction more with
    | nil => intro s h; exact ⟨h.1, h.2.1, by simp [Idle.run]⟩
    | cons op more ih =>
      intro s ⟨h1, h2, h3, h4⟩
      have hst : ((s.step op).1.refs = 1 ∧ (s.step op).1.running = 0 ∧ (s.step op).1.queued = 0 ∧ (s.step op).1.flagged = true) ∧
          ∀ t p, .found t p ∉ (s.step op).2 := by
        cases op <;> simp [Idle.step, Idle.touch, Idle.notify, h1, h2, h3, h4]
        split
        · simp [h1, h2, h3, h4]
        · split
          · simp [h1, h2, h3, h4]
          · simp [h1, h2, h3, h4]
      obtain ⟨g1, g2, g3⟩ := ih _ hst.1
      refine ⟨g1, g2, fun t p hm => ?_⟩
      simp only [Idle.run, List.mem_append] at hm
      rcases hm with hm | hm
      · exact hst.2 t p hm
      · exact g3 t p hm
  intro more
  exact key more _ ⟨rfl, rfl, rfl, rfl⟩

/-- **Violation**: the handler is called although the connection had traffic after it was found without; and it is called
before the period is over when the handler was replaced by one with a longer period. -/
theorem C69_late_call :
    ((Idle.init (some 10) 100).run [.check, .tick 11, .check, .traffic, .start]).2 =
      [.active 100, .found 111 10, .active 111, .call 111 10] ∧
    ((Idle.init (some 10) 100).run [.check, .tick 11, .check, .set (some 60), .start]).2 =
      [.active 100, .found 111 10, .call 111 60] := by decide

theorem C69_statement_false : ¬ C69_statement := by
  intro h
  have := (h (some 10) 100 [.check, .tick 11, .check, .set none, .start] (by omega)).2.1
  revert this; decide

end Verif.Props
