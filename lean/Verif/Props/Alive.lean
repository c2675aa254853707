import Verif.Spec.Alive
/-!
# C40 — the alive check
-/
namespace Verif.Props
open Verif.Model Verif.Spec

theorem aux_al_silent (a b : List AliveEvent) : ∀ x, silent (a ++ b) x = silent b (silent a x) := by
  induction a with
  | nil => intro x; rfl
  | cons e a ih => intro x; cases e <;> simp [silent, ih]

theorem aux_al_seconds (a b : List AliveOp) : secondsIn (a ++ b) = secondsIn a + secondsIn b := by
  induction a with
  | nil => simp [secondsIn]
  | cons e a ih => cases e <;> simp [secondsIn, ih, Nat.add_assoc]

structure aux_al_Inv (a0 : Alive) (ops : List AliveOp) (log : List AliveEvent) (a : Alive) : Prop where
  period : a.period = a0.period
  max : a.maxUnreply = a0.maxUnreply
  limit : a.limit = a0.limit
  clock : a.clock = secondsIn ops
  seen : a.seen ≤ a.bytes
  quiet : (a.inProgress = true ∨ a.timer = .check) → silent log false = false → a.seen < a.bytes
  out : unanswered log = a.outstanding
  phase : a.timer = .create → .ready ∉ log ∧ a.channel = false
  phase2 : a.timer = .check → .ready ∈ log
  starting : a.timer = .create → a.inProgress = true → .starting ∈ log
  tries : a.timer = .create → a.inProgress = true → a.period ≤ 40000 → (a.maxUnreply : Int) + 11 ≤ a.tries + log.count .period
  tries0 : 40000 < a.period → a.tries ≤ 0
  once : a.gone = false → log.count .failed = 0
  once2 : log.count .failed ≤ 1
  over : a.gone = true → a.timer = .none

theorem aux_al_step {a0 : Alive} {ops : List AliveOp} {log : List AliveEvent} {a : Alive}
    (h : aux_al_Inv a0 ops log a) (op : AliveOp) :
    aux_al_Inv a0 (ops ++ [op]) (log ++ (a.step op).1) (a.step op).2 := by
  have hu : ∀ l, unanswered (log ++ l) = unanswered log + unanswered l := by
    intro l; simp only [unanswered, List.count_append]; omega
  have hg : a.timer ≠ .none → a.gone = false := by
    intro ht
    cases hgo : a.gone with
    | false => rfl
    | true => exact absurd (h.over hgo) ht
  cases op with
  | tick =>
    have hs : secondsIn (ops ++ [.tick]) = secondsIn ops := by simp [aux_al_seconds, secondsIn]
    simp only [Alive.step]
    split
    · refine ⟨h.period, h.max, h.limit, by rw [hs]; exact h.clock, h.seen, ?_, ?_, ?_, ?_, ?_, ?_, h.tries0, ?_, ?_, h.over⟩ <;>
        simp only [List.append_nil]
      · exact h.quiet
      · exact h.out
      · exact h.phase
      · exact h.phase2
      · exact h.starting
      · exact h.tries
      · exact h.once
      · exact h.once2
    · rename_i ht
      split
      · exact ⟨h.period, h.max, h.limit, by rw [hs]; exact h.clock, h.seen,
          fun hq => by simpa using h.quiet (.inl (by simpa using hq)), by simpa using h.out, by simp, by simp, by simp, by simp,
          h.tries0, by simpa using h.once, by simpa using h.once2, by simp⟩
      · split
        · exact ⟨h.period, h.max, h.limit, by rw [hs]; exact h.clock, h.seen,
            fun hq => by simpa using h.quiet (.inl (by simpa using hq)), by simpa using h.out, by simp, by simp, by simp, by simp,
            h.tries0, by simpa using h.once, by simpa using h.once2, by simp⟩
        · split
          · refine ⟨h.period, h.max, h.limit, by rw [hs]; exact h.clock, h.seen, ?_, ?_, ?_, ?_, ?_, ?_, ?_, ?_, ?_, h.over⟩
            · intro _ hq; rw [aux_al_silent] at hq; simp [silent] at hq
            · rw [hu]; simpa [unanswered, Alive.fail] using h.out
            · intro _; simpa using h.phase ht
            · intro hc; simp [ht] at hc
            · simp
            · intro _ _ hp
              simp only [hp, if_true, List.count_append]
              have : List.count AliveEvent.period [.period, .starting] = 1 := by decide
              rw [this]
              omega
            · intro hp
              simp only [Nat.not_le.mpr hp, if_false]
              exact h.tries0 hp
            · intro hgo; simpa [List.count_append] using h.once hgo
            · simpa [List.count_append] using h.once2
          · rename_i hip
            simp only [Bool.not_eq_true', Bool.not_eq_false] at hip
            by_cases hlt : a.seen < a.bytes
            · simp only [Alive.activity, hlt, if_true]
              · refine ⟨h.period, h.max, h.limit, by rw [hs]; exact h.clock, Nat.le_refl _, ?_, ?_, ?_, ?_, ?_, ?_, h.tries0, ?_, ?_, h.over⟩
                · intro _ hq; rw [aux_al_silent] at hq; simp [silent] at hq
                · rw [hu]; simpa [unanswered, Alive.fail] using h.out
                · intro _; simpa using h.phase ht
                · intro hc; simp [ht] at hc
                · intro _ _; simpa using h.starting ht hip
                · intro _ _ hp
                  have := h.tries ht hip hp
                  simp only [List.count_append, List.count_singleton_self]
                  simp only at *
                  omega
                · intro hgo; simpa [List.count_append] using h.once hgo
                · simpa [List.count_append] using h.once2
            · simp only [Alive.activity, hlt, if_false, Bool.false_eq_true]
              split
              · refine ⟨h.period, h.max, h.limit, by rw [hs]; exact h.clock, h.seen, ?_, ?_, by simp [Alive.fail],
                  by simp [Alive.fail], by simp [Alive.fail], by simp [Alive.fail], h.tries0, by simp [Alive.fail], ?_,
                  by simp [Alive.fail]⟩
                · intro _ hq; rw [aux_al_silent] at hq; simp [silent] at hq
                · rw [hu]; simpa [unanswered, Alive.fail] using h.out
                · have := h.once (hg (by simp [ht]))
                  simp [List.count_append, this]
              · split
                · refine ⟨h.period, h.max, h.limit, by rw [hs]; exact h.clock, h.seen, ?_, ?_, by simp [Alive.fail],
                    by simp [Alive.fail], by simp [Alive.fail], by simp [Alive.fail],
                    fun hp => by have := h.tries0 hp; simp only [Alive.fail]; omega, by simp [Alive.fail], ?_,
                    by simp [Alive.fail]⟩
                  · intro _ hq; rw [aux_al_silent] at hq; simp [silent] at hq
                  · rw [hu]; simpa [unanswered, Alive.fail] using h.out
                  · have := h.once (hg (by simp [ht]))
                    simp [List.count_append, this]
                · refine ⟨h.period, h.max, h.limit, by rw [hs]; exact h.clock, h.seen, ?_, ?_, ?_, ?_, ?_, ?_,
                    fun hp => by have := h.tries0 hp; simp only; omega, ?_, ?_, h.over⟩
                  · intro _ hq; rw [aux_al_silent] at hq; simp [silent] at hq
                  · rw [hu]; simpa [unanswered, Alive.fail] using h.out
                  · intro _; simpa using h.phase ht
                  · intro hc; simp [ht] at hc
                  · intro _ _; simpa using h.starting ht hip
                  · intro _ _ hp
                    have := h.tries ht hip hp
                    simp only [List.count_append, List.count_singleton_self]
                    simp only at *
                    omega
                  · intro hgo; simpa [List.count_append] using h.once hgo
                  · simpa [List.count_append] using h.once2
    · rename_i ht
      split
      · exact ⟨h.period, h.max, h.limit, by rw [hs]; exact h.clock, h.seen,
          fun hq => by
            simp only [List.append_nil]
            exact h.quiet (.inr ht), by simpa using h.out, by simp, by simp, by simp, by simp,
          h.tries0, by simpa using h.once, by simpa using h.once2, by simp⟩
      · by_cases hlt : a.seen < a.bytes
        · simp only [Alive.activity, hlt, if_true]
          · refine ⟨h.period, h.max, h.limit, by rw [hs]; exact h.clock, Nat.le_refl _, ?_, ?_, ?_, ?_, ?_, ?_, h.tries0, ?_, ?_, h.over⟩
            · intro _ hq; rw [aux_al_silent] at hq; simp [silent] at hq
            · rw [hu]; simpa [unanswered, Alive.fail] using h.out
            · intro hc; simp [ht] at hc
            · intro _; simpa using h.phase2 ht
            · intro hc; simp [ht] at hc
            · intro hc; simp [ht] at hc
            · intro hgo; simpa [List.count_append] using h.once hgo
            · simpa [List.count_append] using h.once2
        · simp only [Alive.activity, hlt, if_false, Bool.false_eq_true]
          split
          · refine ⟨h.period, h.max, h.limit, by rw [hs]; exact h.clock, h.seen, ?_, ?_, by simp [Alive.fail],
              by simp [Alive.fail], by simp [Alive.fail], by simp [Alive.fail], h.tries0, by simp [Alive.fail], ?_,
              by simp [Alive.fail]⟩
            · intro _ hq; rw [aux_al_silent] at hq; simp [silent] at hq
            · rw [hu]; simpa [unanswered, Alive.fail] using h.out
            · have := h.once (hg (by simp [ht]))
              simp [List.count_append, this]
          · split
            · refine ⟨h.period, h.max, h.limit, by rw [hs]; exact h.clock, h.seen, ?_, ?_, by simp,
                by simp, by simp, by simp, h.tries0, ?_, ?_, by simp⟩
              · intro _ hq; rw [aux_al_silent] at hq; simp [silent] at hq
              · rw [hu]; simpa [unanswered, Alive.fail] using h.out
              · intro hgo; simpa [List.count_append] using h.once hgo
              · simpa [List.count_append] using h.once2
            · refine ⟨h.period, h.max, h.limit, by rw [hs]; exact h.clock, h.seen, ?_, ?_, ?_, ?_, ?_, ?_, h.tries0, ?_, ?_, h.over⟩
              · intro _ hq; rw [aux_al_silent] at hq; simp [silent] at hq
              · rw [hu, h.out]; simp [unanswered]
              · intro hc; simp [ht] at hc
              · intro _; simpa using h.phase2 ht
              · intro hc; simp [ht] at hc
              · intro hc; simp [ht] at hc
              · intro hgo; simpa [List.count_append] using h.once hgo
              · simpa [List.count_append] using h.once2
  | octets n =>
    have hs : secondsIn (ops ++ [.octets n]) = secondsIn ops := by simp [aux_al_seconds, secondsIn]
    simp only [Alive.step]
    split
    · exact ⟨h.period, h.max, h.limit, by rw [hs]; exact h.clock, by have := h.seen; simp only; omega,
        fun _ _ => by have := h.seen; simp only; omega, by rw [hu]; simpa [unanswered, Alive.fail] using h.out,
        fun hc => by simpa using h.phase hc, fun hc => by simpa using h.phase2 hc, fun hc hd => by simpa using h.starting hc hd,
        fun hc hd he => by simpa [List.count_append] using h.tries hc hd he, h.tries0,
        fun hgo => by simpa [List.count_append] using h.once hgo, by simpa [List.count_append] using h.once2, h.over⟩
    · simp only [List.append_nil]
      exact ⟨h.period, h.max, h.limit, by rw [hs]; exact h.clock, h.seen, h.quiet, h.out, h.phase, h.phase2, h.starting,
        h.tries, h.tries0, h.once, h.once2, h.over⟩
  | answer n =>
    have hs : secondsIn (ops ++ [.answer n]) = secondsIn ops := by simp [aux_al_seconds, secondsIn]
    simp only [Alive.step]
    split
    · rename_i hc0
      simp only [Bool.and_eq_true, decide_eq_true_eq] at hc0
      exact ⟨h.period, h.max, h.limit, by rw [hs]; exact h.clock, by have := h.seen; simp only; omega,
        fun _ _ => by have := h.seen; simp only; omega,
        by rw [hu, h.out]; have : unanswered [.octets, .answer] = -1 := by decide
           rw [this]; simp only; omega,
        fun hc => by simpa using h.phase hc, fun hc => by simpa using h.phase2 hc, fun hc hd => by simpa using h.starting hc hd,
        fun hc hd he => by simpa [List.count_append] using h.tries hc hd he, h.tries0,
        fun hgo => by simpa [List.count_append] using h.once hgo, by simpa [List.count_append] using h.once2, h.over⟩
    · simp only [List.append_nil]
      exact ⟨h.period, h.max, h.limit, by rw [hs]; exact h.clock, h.seen, h.quiet, h.out, h.phase, h.phase2, h.starting,
        h.tries, h.tries0, h.once, h.once2, h.over⟩
  | created ok =>
    have hs : secondsIn (ops ++ [.created ok]) = secondsIn ops := by simp [aux_al_seconds, secondsIn]
    simp only [Alive.step]
    split
    · simp only [List.append_nil]
      exact ⟨h.period, h.max, h.limit, by rw [hs]; exact h.clock, h.seen, h.quiet, h.out, h.phase, h.phase2, h.starting,
        h.tries, h.tries0, h.once, h.once2, h.over⟩
    · rename_i hc0
      simp only [Bool.or_eq_true, Bool.not_eq_true', decide_eq_true_eq, not_or, Bool.not_eq_false, ne_eq, Decidable.not_not] at hc0
      obtain ⟨hip, ht⟩ := hc0
      split
      · have e1 : a.activity.2.period = a.period ∧ a.activity.2.maxUnreply = a.maxUnreply ∧ a.activity.2.limit = a.limit ∧
            a.activity.2.clock = a.clock ∧ a.activity.2.seen ≤ a.activity.2.bytes ∧
            a.activity.2.outstanding = a.outstanding ∧ a.activity.2.tries = a.tries ∧ a.activity.2.gone = a.gone := by
          have := h.seen
          simp only [Alive.activity]
          split <;> simp <;> omega
        obtain ⟨e1, e2, e3, e4, e5, e6, e7, e8⟩ := e1
        refine ⟨e1.trans h.period, e2.trans h.max, e3.trans h.limit, by rw [hs]; exact e4.trans h.clock, e5, ?_, ?_, by simp, by simp,
          by simp, by simp, ?_, ?_, ?_, ?_⟩
        · intro _ hq; rw [aux_al_silent] at hq; simp [silent] at hq
        · rw [hu]; simp only [e6]; simpa [unanswered] using h.out
        · intro hp; simp only [e7]; exact h.tries0 (by simpa only [e1] using hp)
        · intro hgo; simpa [List.count_append] using h.once (by simpa only [e8] using hgo)
        · simpa [List.count_append] using h.once2
        · intro hgo
          have := h.over (by simpa only [e8] using hgo)
          simp [ht] at this
      · simp only [List.append_nil]
        exact ⟨h.period, h.max, h.limit, by rw [hs]; exact h.clock, h.seen, fun hq => h.quiet (.inl hip), h.out, by simp, by simp,
          by simp, by simp, h.tries0, h.once, h.once2, by simp⟩
  | chanClosed n =>
    have hs : secondsIn (ops ++ [.chanClosed n]) = secondsIn ops := by simp [aux_al_seconds, secondsIn]
    simp only [Alive.step]
    split
    · exact ⟨h.period, h.max, h.limit, by rw [hs]; exact h.clock, by have := h.seen; simp only; omega,
        fun _ _ => by have := h.seen; simp only; omega, by rw [hu]; simpa [unanswered, Alive.fail] using h.out,
        fun hc => by simpa using h.phase hc, fun hc => by simpa using h.phase2 hc, fun hc hd => by simpa using h.starting hc hd,
        fun hc hd he => by simpa [List.count_append] using h.tries hc hd he, h.tries0,
        fun hgo => by simpa [List.count_append] using h.once hgo, by simpa [List.count_append] using h.once2, h.over⟩
    · simp only [List.append_nil]
      exact ⟨h.period, h.max, h.limit, by rw [hs]; exact h.clock, h.seen, h.quiet, h.out, h.phase, h.phase2, h.starting,
        h.tries, h.tries0, h.once, h.once2, h.over⟩
  | connClosed =>
    have hs : secondsIn (ops ++ [.connClosed]) = secondsIn ops := by simp [aux_al_seconds, secondsIn]
    simp only [Alive.step, List.append_nil]
    exact ⟨h.period, h.max, h.limit, by rw [hs]; exact h.clock, h.seen, fun hq => h.quiet (.inl (by simpa using hq)), h.out,
      by simp, by simp, by simp, by simp, h.tries0, by simp, h.once2, by simp⟩
  | wait s =>
    have hs : secondsIn (ops ++ [.wait s]) = secondsIn ops + s := by simp [aux_al_seconds, secondsIn]
    simp only [Alive.step, List.append_nil]
    exact ⟨h.period, h.max, h.limit, by rw [hs]; simp only; rw [h.clock], h.seen, h.quiet, h.out, h.phase, h.phase2, h.starting,
        h.tries, h.tries0, h.once, h.once2, h.over⟩

theorem aux_al_run {a0 : Alive} (ops : List AliveOp) : ∀ (before : List AliveOp) (log : List AliveEvent) (a : Alive),
    aux_al_Inv a0 before log a → aux_al_Inv a0 (before ++ ops) (log ++ (a.run ops).1) (a.run ops).2 := by
  induction ops with
  | nil => intro before log a h; simpa [Alive.run] using h
  | cons op ops ih =>
    intro before log a h
    have := ih _ _ _ (aux_al_step h op)
    simpa [Alive.run] using this

theorem aux_al_start {p m b : Nat} {f : Bool} {a : Alive} (h : Alive.enable p m f b = some a) : aux_al_Inv a [] [] a := by
  simp only [Alive.enable] at h
  split at h
  · simp at h
  · simp only [Option.some.injEq] at h
    subst h
    constructor <;> simp [secondsIn, unanswered]

theorem aux_al_enabled {p m b : Nat} {f : Bool} {a : Alive} (h : Alive.enable p m f b = some a) :
    a.period = p ∧ a.maxUnreply = m ∧ 3 ≤ a.limit ∧
      (m * p / 1000000 < 2147483648 → ((m * p / 1000000 : Nat) : Int) ≤ a.limit) := by
  simp only [Alive.enable] at h
  split at h
  · simp at h
  · simp only [Option.some.injEq] at h
    subst h
    refine ⟨rfl, rfl, ?_, ?_⟩
    · simp only; split <;> omega
    · intro hlt
      have : i32 ((m * p / 1000000 : Nat) : Int) = ((m * p / 1000000 : Nat) : Int) := by
        simp only [i32]
        generalize m * p / 1000000 = x at *
        omega
      rw [this]
      generalize m * p / 1000000 = x at *
      simp only; split <;> omega

/-- **C40** (only a dead peer): the failure action is triggered only by a periodic check, if no octet arrived
since the period started, and either the channel is ready and the configured number of probes has no answer, or
the channel was requested and is not ready after the time configured (3 seconds at least) or, for periods up to
40 ms, after as many checks as probes configured and ten more. -/
theorem C40_only_dead_peer (p m b : Nat) (f : Bool) (a : Alive) (he : Alive.enable p m f b = some a)
    (ops : List AliveOp) (op : AliveOp) (hf : .failed ∈ ((a.run ops).2.step op).1) :
    op = .tick ∧ silent (a.run ops).1 false = true ∧
    ((.ready ∈ (a.run ops).1 ∧ (m : Int) ≤ unanswered (a.run ops).1) ∨
     (.ready ∉ (a.run ops).1 ∧ .starting ∈ (a.run ops).1 ∧
      ((3 ≤ secondsIn ops ∧ (m * p / 1000000 < 2147483648 → m * p / 1000000 ≤ secondsIn ops)) ∨
       (p ≤ 40000 ∧ m + 10 ≤ (a.run ops).1.count .period)))) := by
  have h := aux_al_run ops [] [] a (aux_al_start he)
  obtain ⟨h1, h2, h3, h4⟩ := aux_al_enabled he
  simp only [List.nil_append] at h
  have hP := h.period.trans h1
  have hM := h.max.trans h2
  rw [← h.limit] at h3 h4
  generalize (a.run ops).1 = log at *
  generalize (a.run ops).2 = s at *
  cases op with
  | tick =>
    refine ⟨rfl, ?_⟩
    simp only [Alive.step] at hf
    split at hf
    · simp at hf
    · rename_i ht
      split at hf
      · simp at hf
      · split at hf
        · simp at hf
        · split at hf
          · simp at hf
          · rename_i hip
            simp only [Bool.not_eq_true', Bool.not_eq_false] at hip
            by_cases hact : s.seen < s.bytes
            · simp [Alive.activity, hact] at hf
            · simp only [Alive.activity, hact, if_false, Bool.false_eq_true] at hf
              have hq : silent log false = true := by
                cases hs : silent log false with
                | true => rfl
                | false =>
                  have := h.quiet (.inl hip) hs
                  simp [this] at hact
              refine ⟨hq, .inr ⟨(h.phase ht).1, h.starting ht hip, ?_⟩⟩
              split at hf
              · rename_i hl
                rw [h.clock] at hl
                left
                refine ⟨by omega, fun hlt => ?_⟩
                have := h4 hlt
                generalize m * p / 1000000 = x at *
                omega
              · split at hf
                · rename_i htr
                  right
                  by_cases hp : s.period ≤ 40000
                  · have := h.tries ht hip hp
                    omega
                  · have := h.tries0 (by omega)
                    omega
                · simp at hf
    · rename_i ht
      split at hf
      · simp at hf
      · by_cases hact : s.seen < s.bytes
        · simp [Alive.activity, hact] at hf
        · simp only [Alive.activity, hact, if_false, Bool.false_eq_true] at hf
          have hq : silent log false = true := by
            cases hs : silent log false with
            | true => rfl
            | false =>
              have := h.quiet (.inr ht) hs
              simp [this] at hact
          refine ⟨hq, .inl ⟨h.phase2 ht, ?_⟩⟩
          split at hf
          · rename_i hl
            rw [h.out, ← hM]
            omega
          · split at hf <;> simp at hf
  | octets n => simp only [Alive.step] at hf; split at hf <;> simp at hf
  | answer n => simp only [Alive.step] at hf; split at hf <;> simp at hf
  | created ok =>
    simp only [Alive.step] at hf
    split at hf
    · simp at hf
    · split at hf <;> simp at hf
  | chanClosed n => simp only [Alive.step] at hf; split at hf <;> simp at hf
  | connClosed => simp [Alive.step] at hf
  | wait s => simp [Alive.step] at hf

/-- One probe answered, then two without answer: failure at the check after them. -/
example : ∃ a, Alive.enable 1000000 2 true 10 = some a ∧
    (a.run [.tick, .created true, .tick, .answer 20, .tick, .tick, .tick]).1 =
      [.period, .starting, .period, .ready, .period, .probe, .octets, .answer, .period, .period, .probe, .period, .probe] ∧
    ((a.run [.tick, .created true, .tick, .answer 20, .tick, .tick, .tick]).2.step .tick).1 = [.period, .failed] :=
  ⟨_, rfl, by decide +kernel, by decide +kernel⟩

/-- **C40**: the failure action is triggered once at most. -/
theorem C40_at_most_once (p m b : Nat) (f : Bool) (a : Alive) (he : Alive.enable p m f b = some a)
    (ops : List AliveOp) : (a.run ops).1.count .failed ≤ 1 := by
  have h := aux_al_run ops [] [] a (aux_al_start he)
  simpa using h.once2

/-- Checks until failure. -/
def aux_al_need (a : Alive) : Nat := (a.maxUnreply - a.outstanding) + 1 + (if a.seen < a.bytes then 1 else 0)

theorem aux_al_check (ops : List AliveOp) : ∀ (a : Alive), NothingArrives ops → a.timer = .check → a.connOk = true →
    a.opened = true → aux_al_need a ≤ ops.count .tick → .failed ∈ (a.run ops).1 := by
  induction ops with
  | nil => intro a _ _ _ _ h; simp [aux_al_need] at h
  | cons op ops ih =>
    intro a hn ht hc ho hcount
    have hn' : NothingArrives ops := fun x hx => hn x (List.mem_cons_of_mem _ hx)
    rcases hn op List.mem_cons_self with rfl | ⟨s, rfl⟩
    · simp only [Alive.run, List.mem_append]
      simp only [List.count_cons_self] at hcount
      by_cases hact : a.seen < a.bytes
      · right
        have e : (a.step .tick).2 = { a with seen := a.bytes } := by
          simp [Alive.step, ht, hc, Alive.activity, hact]
        rw [e]
        simp only [aux_al_need, hact, if_true] at hcount
        exact ih _ hn' ht hc ho (by simp [aux_al_need]; omega)
      · by_cases hm : a.maxUnreply ≤ a.outstanding
        · left; simp [Alive.step, ht, hc, Alive.activity, hact, hm]
        · right
          have e : (a.step .tick).2 = { a with outstanding := a.outstanding + 1 } := by
            simp [Alive.step, ht, hc, Alive.activity, hact, hm, ho]
          rw [e]
          simp only [aux_al_need, hact, if_false] at hcount
          exact ih _ hn' ht hc ho (by simp [aux_al_need, hact]; omega)
    · simp only [Alive.run, Alive.step, List.nil_append]
      rw [List.count_cons_of_ne (by simp)] at hcount
      exact ih _ hn' ht hc ho hcount

/-- **C40 (partial)** (a dead peer is detected): once the channel is ready, if nothing arrives any more the
failure action is triggered by the time of the check number `max + 2`.
Missing: a channel that the peer refuses to open (`C40_refused_never_fails`) or closes
(`C40_closed_never_fails`). -/
theorem C40_dead_peer_detected_partial (p m b : Nat) (f : Bool) (a : Alive) (he : Alive.enable p m f b = some a)
    (before after : List AliveOp) (ht : (a.run before).2.timer = .check) (hc : (a.run before).2.connOk = true)
    (ho : (a.run before).2.opened = true) (hn : NothingArrives after) (hcount : m + 2 ≤ after.count .tick) :
    .failed ∈ ((a.run before).2.run after).1 := by
  have h := aux_al_run before [] [] a (aux_al_start he)
  have h2 := (aux_al_enabled he).2.1
  refine aux_al_check after _ hn ht hc ho ?_
  have := h.max
  simp only [aux_al_need]
  split <;> omega

example : ∃ a, Alive.enable 1000000 2 true 10 = some a ∧
    let s := (a.run [.tick, .created true, .tick, .answer 20]).2
    s.timer = .check ∧ s.connOk = true ∧ s.opened = true ∧
    NothingArrives [.tick, .wait 1, .tick, .tick, .tick] ∧
    2 + 2 ≤ [AliveOp.tick, .wait 1, .tick, .tick, .tick].count .tick ∧
    (s.run [.tick, .wait 1, .tick, .tick]).1.count .failed = 0 :=
  ⟨_, rfl, by decide +kernel, by decide +kernel, by decide +kernel, by simp [NothingArrives], by decide +kernel,
    by decide +kernel⟩

/-- Checks until failure when the time given to the creation of the channel is over. -/
def aux_al_need2 (a : Alive) : Nat := (if a.inProgress then 0 else 1) + 1 + (if a.seen < a.bytes then 1 else 0)

theorem aux_al_create (ops : List AliveOp) : ∀ (a : Alive), NothingArrives ops → a.timer = .create → a.connOk = true →
    a.channel = false → a.limit ≤ a.clock → aux_al_need2 a ≤ ops.count .tick → .failed ∈ (a.run ops).1 := by
  induction ops with
  | nil => intro a _ _ _ _ _ h; simp [aux_al_need2] at h
  | cons op ops ih =>
    intro a hn ht hc ho hl hcount
    have hn' : NothingArrives ops := fun x hx => hn x (List.mem_cons_of_mem _ hx)
    rcases hn op List.mem_cons_self with rfl | ⟨s, rfl⟩
    · simp only [Alive.run, List.mem_append]
      simp only [List.count_cons_self] at hcount
      cases hi : a.inProgress with
      | false =>
        right
        have e : (a.step .tick).2 =
            { a with inProgress := true, tries := if a.period ≤ 40000 then a.maxUnreply + 10 else a.tries } := by
          simp [Alive.step, ht, hc, ho, hi]
        rw [e]
        simp only [aux_al_need2, hi] at hcount
        exact ih _ hn' ht hc ho hl (by simp only [aux_al_need2]; simp at hcount ⊢; omega)
      | true =>
        by_cases hact : a.seen < a.bytes
        · right
          have e : (a.step .tick).2 = { a with seen := a.bytes } := by
            simp [Alive.step, ht, hc, Alive.activity, hact, hi, ho]
          rw [e]
          simp only [aux_al_need2, hact, if_true, hi] at hcount
          exact ih _ hn' ht hc ho hl (by simp only [aux_al_need2, hi]; simp at hcount ⊢; omega)
        · left; simp [Alive.step, ht, hc, Alive.activity, hact, hl, hi, ho]
    · simp only [Alive.run, Alive.step, List.nil_append]
      rw [List.count_cons_of_ne (by simp)] at hcount
      exact ih _ hn' ht hc ho (by simp only; omega) hcount

theorem aux_al_create_stays (ops : List AliveOp) : ∀ (a : Alive), NothingArrives ops → a.timer = .create → a.connOk = true →
    a.channel = false → .failed ∉ (a.run ops).1 → (a.run ops).2.timer = .create ∧ (a.run ops).2.connOk = true ∧
      (a.run ops).2.channel = false ∧ (a.run ops).2.limit = a.limit ∧ (a.run ops).2.clock = a.clock + secondsIn ops := by
  induction ops with
  | nil => intro a _ h1 h2 h3 _; exact ⟨h1, h2, h3, rfl, rfl⟩
  | cons op ops ih =>
    intro a hn ht hc ho hf
    have hn' : NothingArrives ops := fun x hx => hn x (List.mem_cons_of_mem _ hx)
    simp only [Alive.run, List.mem_append, not_or] at hf ⊢
    rcases hn op List.mem_cons_self with rfl | ⟨s, rfl⟩
    · have key : (a.step .tick).2.timer = .create ∧ (a.step .tick).2.connOk = true ∧ (a.step .tick).2.channel = false ∧
          (a.step .tick).2.limit = a.limit ∧ (a.step .tick).2.clock = a.clock := by
        have hf := hf.1
        cases hi : a.inProgress with
        | false => simp [Alive.step, ht, hc, ho, hi]
        | true =>
          by_cases hact : a.seen < a.bytes
          · simp [Alive.step, ht, hc, ho, hi, Alive.activity, hact]
          · by_cases hl : a.limit ≤ a.clock
            · simp [Alive.step, ht, hc, ho, hi, Alive.activity, hact, hl] at hf
            · by_cases htr : a.tries - 1 = 0
              · simp [Alive.step, ht, hc, ho, hi, Alive.activity, hact, hl, htr] at hf
              · simp [Alive.step, ht, hc, ho, hi, Alive.activity, hact, hl, htr]
      obtain ⟨k1, k2, k3, k4, k5⟩ := key
      obtain ⟨j1, j2, j3, j4, j5⟩ := ih _ hn' k1 k2 k3 hf.2
      exact ⟨j1, j2, j3, j4.trans k4, by rw [j5, k5]; rfl⟩
    · obtain ⟨j1, j2, j3, j4, j5⟩ := ih { a with clock := a.clock + s } hn' ht hc ho hf.2
      exact ⟨j1, j2, j3, j4, by simp only [Alive.step, j5, secondsIn]; omega⟩

theorem aux_al_run_append (a : Alive) (x y : List AliveOp) :
    a.run (x ++ y) = ((a.run x).1 ++ ((a.run x).2.run y).1, ((a.run x).2.run y).2) := by
  induction x generalizing a with
  | nil => rfl
  | cons op x ih => simp [Alive.run, ih]

/-- **C40 (partial)** (no answer to the channel creation): from the moment the check is enabled, if nothing
arrives any more, once the time configured has passed the failure action is triggered at the third check.
Missing: as above. -/
theorem C40_no_channel_detected_partial (p m b : Nat) (f : Bool) (a : Alive) (he : Alive.enable p m f b = some a)
    (before first after : List AliveOp) (ht : (a.run before).2.timer = .create) (hc : (a.run before).2.connOk = true)
    (hn : NothingArrives (first ++ after))
    (h3 : 3 ≤ secondsIn first) (hs : m * p / 1000000 ≤ secondsIn first) (hcount : 3 ≤ after.count .tick) :
    .failed ∈ ((a.run before).2.run (first ++ after)).1 := by
  have h := aux_al_run before [] [] a (aux_al_start he)
  rw [aux_al_run_append, List.mem_append]
  by_cases hf : .failed ∈ ((a.run before).2.run first).1
  · exact .inl hf
  · right
    have hn1 : NothingArrives first := fun x hx => hn x (List.mem_append_left _ hx)
    have hn2 : NothingArrives after := fun x hx => hn x (List.mem_append_right _ hx)
    obtain ⟨k1, k2, k3, k4, k5⟩ := aux_al_create_stays first _ hn1 ht hc (h.phase ht).2 hf
    refine aux_al_create after _ hn2 k1 k2 k3 ?_ ?_
    · rw [k4, k5, h.limit]
      have hl : a.limit ≤ (secondsIn first : Int) := by
        simp only [Alive.enable] at he
        split at he
        · simp at he
        · simp only [Option.some.injEq] at he
          subst he
          have : i32 ((m * p / 1000000 : Nat) : Int) ≤ ((m * p / 1000000 : Nat) : Int) := by
            simp only [i32]
            generalize m * p / 1000000 = x at *
            omega
          generalize m * p / 1000000 = x at *
          simp only
          split <;> omega
      omega
    · simp only [aux_al_need2]
      split <;> split <;> omega

example : ∃ a, Alive.enable 1000000 2 true 10 = some a ∧
    let s := (a.run [.wait 1, .octets 7]).2
    s.timer = .create ∧ s.connOk = true ∧
    NothingArrives ([.tick, .wait 1, .tick, .wait 2] ++ [.tick, .tick, .tick]) ∧
    3 ≤ secondsIn [.tick, .wait 1, .tick, .wait 2] ∧ 2 * 1000000 / 1000000 ≤ secondsIn [.tick, .wait 1, .tick, .wait 2] :=
  ⟨_, rfl, by decide +kernel, by decide +kernel, by simp [NothingArrives], by decide +kernel, by decide +kernel⟩

/-- **C40** (full statement of the detection, violated): from any state in which the check is not over and the
connection works, if nothing arrives any more and time passes, checks lead to the failure action. -/
def C40_detection_statement : Prop :=
  ∀ (p m b : Nat) (f : Bool) (a : Alive), Alive.enable p m f b = some a → ∀ before : List AliveOp,
    (a.run before).2.gone = false → (a.run before).2.connOk = true →
    ∃ n, ∀ after : List AliveOp, NothingArrives after → n ≤ after.count .tick → n ≤ secondsIn after →
      .failed ∈ ((a.run before).2.run after).1

theorem aux_al_stopped (ops : List AliveOp) : ∀ (a : Alive), NothingArrives ops → a.timer = .none → (a.run ops).1 = [] := by
  induction ops with
  | nil => intro a _ _; rfl
  | cons op ops ih =>
    intro a hn ht
    have hn' : NothingArrives ops := fun x hx => hn x (List.mem_cons_of_mem _ hx)
    rcases hn op List.mem_cons_self with rfl | ⟨s, rfl⟩
    · simp only [Alive.run, Alive.step, ht, List.nil_append]
      exact ih _ hn' ht
    · simp only [Alive.run, Alive.step, List.nil_append]
      exact ih _ hn' ht

/-- **C40 (fault)**: if the channel cannot be created, e.g. the peer does not support the profile, the check ends
with no notice: however long nothing arrives, there is no failure. -/
theorem C40_refused_never_fails (p m b : Nat) (f : Bool) (a : Alive) (he : Alive.enable p m f b = some a)
    (after : List AliveOp) (hn : NothingArrives after) :
    let s := (a.run [.tick, .octets 99, .created false]).2
    s.gone = false ∧ s.connOk = true ∧ (s.run after).1 = [] := by
  have key : (a.run [.tick, .octets 99, .created false]).2.gone = false ∧
      (a.run [.tick, .octets 99, .created false]).2.connOk = true ∧
      (a.run [.tick, .octets 99, .created false]).2.timer = .none := by
    simp only [Alive.enable] at he
    split at he
    · simp at he
    · simp only [Option.some.injEq] at he
      subst he
      simp [Alive.run, Alive.step]
  exact ⟨key.1, key.2.1, aux_al_stopped _ _ hn key.2.2⟩

example : ∃ a, Alive.enable 1000000 2 true 10 = some a ∧ NothingArrives [.tick, .wait 100] :=
  ⟨_, rfl, by simp [NothingArrives]⟩

/-- **C40 (fault)**: if the peer closes the channel the next check that would send a probe ends the checks:
there is no failure however long nothing arrives. -/
theorem C40_closed_never_fails (after : List AliveOp) (hn : NothingArrives after) :
    ∃ a, Alive.enable 1000000 2 true 10 = some a ∧
    let s := (a.run [.tick, .created true, .chanClosed 99, .tick, .tick]).2
    s.gone = false ∧ s.connOk = true ∧ (s.run after).1 = [] :=
  ⟨_, rfl, by decide +kernel, by decide +kernel, aux_al_stopped _ _ hn (by decide +kernel)⟩

theorem C40_detection_statement_false : ¬ C40_detection_statement := by
  intro h
  obtain ⟨a, he⟩ : ∃ a, Alive.enable 1000000 2 true 10 = some a := ⟨_, rfl⟩
  have key := C40_refused_never_fails 1000000 2 10 true a he
  obtain ⟨n, hn⟩ := h 1000000 2 10 true a he [.tick, .octets 99, .created false] (key [] (by simp [NothingArrives])).1
    (key [] (by simp [NothingArrives])).2.1
  have hx : NothingArrives (List.replicate n AliveOp.tick ++ [AliveOp.wait n]) := by
    intro op hop
    simp only [List.mem_append, List.mem_replicate, List.mem_singleton] at hop
    rcases hop with hop | hop
    · exact .inl hop.2
    · exact .inr ⟨n, hop⟩
  have hc : n ≤ (List.replicate n AliveOp.tick ++ [AliveOp.wait n]).count .tick := by simp [List.count_append]
  have hs : n ≤ secondsIn (List.replicate n AliveOp.tick ++ [AliveOp.wait n]) := by
    rw [aux_al_seconds]
    simp only [secondsIn]
    omega
  have := hn _ hx hc hs
  rw [(key _ hx).2.2] at this
  simp at this

/-- **C40 (fault)**: with a period of 20 ms the failure is triggered after the check number 12 although no second
has passed; the documentation gives 3 seconds at least to the creation of the channel. -/
theorem C40_early_failure : ∃ a, Alive.enable 20000 1 true 10 = some a ∧
    (a.run (List.replicate 12 .tick)).1.count .failed = 1 ∧ secondsIn (List.replicate 12 .tick) = 0 :=
  ⟨_, rfl, by decide +kernel, by decide +kernel⟩

end Verif.Props
