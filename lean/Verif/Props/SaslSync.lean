import Verif.Spec.SaslSync
/-!
# Waiting for SASL
-/
namespace Verif.Props
open Verif.Model Verif.Spec

/-! ## One notification -/

/-- What the task has still to do with the queue. -/
def aux_sy_left : SyTask → Bool
  | .begun | .steps => true
  | .notes p _ => !p.isEmpty
  | .over => false

structure SyInv (s : Sy) : Prop where
  good : s.bad = false
  places : s.places = true
  refs : s.refs = (if aux_sy_left s.task then 1 else 0) + (if s.stored then 1 else 0)
  gone : s.gone = true ↔ s.refs = 0
  stored : s.stored = true → s.callerRef = true ∨ s.taskRef = true
  kept : s.stored = false → ∃ b t, s.caller = .returned b t
  held : s.caller = .waiting ∨ (∃ b, s.caller = .status b ∨ s.caller = .message b) → s.stored = true ∧ s.callerRef = true
  notes : ∀ p d, s.task = .notes p d → p.length ≤ 1 ∧ d ≤ 2 ∧ (p = [] → d = 0)
  tref : s.task = .steps → s.taskRef = true
  late : ∀ b, s.caller = .returned b true → s.task ≠ .over → s.callerRef = true
  wait : s.caller = .waiting → (s.task = .begun ∨ s.task = .steps ∨ (∃ p, s.task = .notes p 0 ∧ p ≠ [])) ∧ s.queue = [] ∨
    (∃ b, (∃ p, s.task = .notes p 1) ∧ s.queue = [.status b] ∧ s.authed = b) ∨
    (∃ b, ((∃ p, s.task = .notes p 2) ∨ s.task = .notes [] 0 ∨ s.task = .over) ∧ s.queue = [.status b, .message] ∧ s.authed = b)
  stat : ∀ b, s.caller = .status b → s.authed = b ∧ ((∃ p, s.task = .notes p 1) ∧ s.queue = [] ∨
    ((∃ p, s.task = .notes p 2) ∨ s.task = .notes [] 0 ∨ s.task = .over) ∧ s.queue = [.message])
  msg : ∀ b, (s.caller = .message b ∨ s.caller = .returned b false) →
    s.authed = b ∧ ((∃ p, s.task = .notes p 2) ∨ s.task = .notes [] 0 ∨ s.task = .over)
  nref : s.taskRef = true → s.task ≠ .over

theorem aux_sy_start : SyInv (Sy.start true) := by
  constructor <;> simp [Sy.start, aux_sy_left]

set_option maxHeartbeats 2000000 in
theorem aux_sy_step (s : Sy) (op : SyOp) (h : SyInv s) (hm : op ≠ .task .malformed)
    (hr : op = .release → ∀ b : Bool, s.caller = .returned b true → s.task = .over) : SyInv (s.step op) := by
  obtain ⟨h1, h2, h3, h4, h5, h6, h7, h8, h9, h10, h11, h12, h13, h14⟩ := h
  obtain ⟨places, task, caller, queue, refs, gone, stored, callerRef, taskRef, authed, bad⟩ := s
  simp only at h1 h2 h3 h4 h5 h6 h7 h8 h9 h10 h11 h12 h13 h14 hr
  subst h1 h2
  have hh : SyInv ⟨true, task, caller, queue, refs, gone, stored, callerRef, taskRef, authed, false⟩ :=
    ⟨rfl, rfl, h3, h4, h5, h6, h7, h8, h9, h10, h11, h12, h13, h14⟩
  cases op with
  | release =>
    cases caller with
    | returned b t => simp only [Sy.step, Sy.settle, Sy.unref, Sy.connGone] at * <;> constructor <;> grind
    | _ => exact hh
  | timeout =>
    cases caller with
    | waiting => simp only [Sy.step, Sy.timeout] at * <;> constructor <;> grind
    | _ => exact hh
  | caller =>
    cases caller with
    | returned b t => exact hh
    | _ => simp only [Sy.step, Sy.callerStep, Sy.unref] at * <;> constructor <;> grind
  | task c =>
    cases task with
    | begun =>
      cases c <;> first | exact hh | cases caller <;> simp only [Sy.step, Sy.taskStep, Sy.touchConn, Sy.connGone, aux_sy_left] at * <;> clear hh <;> constructor <;> simp_all [aux_sy_left]
    | steps =>
      cases c <;> first | exact hh | cases caller <;> simp only [Sy.step, Sy.taskStep, Sy.touchConn, Sy.connGone, aux_sy_left] at * <;> clear hh <;> constructor <;> simp_all [aux_sy_left]
    | notes p d =>
      have h8' := h8 p d rfl
      clear hh hr hm
      match p, d, h8' with
      | [], 0, _ =>
        rcases caller with _ | _ | _ | ⟨ok, _ | _⟩ <;>
          simp [aux_sy_left] at h3 h6 h7 h10 h11 h12 h13 <;>
          simp only [Sy.step, Sy.taskStep, Sy.settle, Sy.unref, Sy.connGone] <;> constructor <;> grind [aux_sy_left]
      | [], d + 1, h8' => exact absurd (h8'.2.2 rfl) (by omega)
      | [b], 0, _ =>
        rcases caller with _ | _ | _ | ⟨ok, _ | _⟩ <;>
          simp [aux_sy_left] at h3 h6 h7 h10 h11 h12 h13 <;>
          simp only [Sy.step, Sy.taskStep, Sy.push, Sy.touchConn, Sy.connGone] <;> constructor <;> grind [aux_sy_left]
      | [b], 1, _ =>
        rcases caller with _ | _ | _ | ⟨ok, _ | _⟩ <;>
          simp [aux_sy_left] at h3 h6 h7 h10 h11 h12 h13 <;>
          simp only [Sy.step, Sy.taskStep, Sy.push] <;> constructor <;> grind [aux_sy_left]
      | [b], 2, _ =>
        rcases caller with _ | _ | _ | ⟨ok, _ | _⟩ <;>
          simp [aux_sy_left] at h3 h6 h7 h10 h11 h12 h13 <;>
          simp only [Sy.step, Sy.taskStep, Sy.unref] <;> constructor <;> grind [aux_sy_left]
    | over => exact hh

theorem aux_sy_run (s : Sy) (ops : List SyOp) (h : SyInv s) (hm : SyOp.task .malformed ∉ ops) (hp : SyPatient s ops) :
    SyInv (s.run ops) := by
  induction ops generalizing s with
  | nil => exact h
  | cons op ops ih =>
    simp only [List.mem_cons, not_or] at hm
    exact ih _ (aux_sy_step s op h (fun hh => hm.1 hh.symm) hp.1) hm.2 hp.2

/-- If all replies can be parsed, places for the results are given, and after a timeout the connection is kept until the
negotiation ended: nothing is used after its release; what the call returns, unless it timed out, is whether the
connection is authenticated; and in the end the queue is released. -/
theorem C123_call_partial (ops : List SyOp) (hm : SyOp.task .malformed ∉ ops) (hp : SyPatient (Sy.start true) ops) :
    ((Sy.start true).run ops).bad = false ∧
    (∀ b : Bool, ((Sy.start true).run ops).caller = .returned b false → ((Sy.start true).run ops).authed = b) ∧
    (SyDone ((Sy.start true).run ops) → ((Sy.start true).run ops).gone = true) := by
  have h := aux_sy_run _ ops aux_sy_start hm hp
  refine ⟨h.good, fun b hb => (h.msg b (Or.inr hb)).1, ?_⟩
  rintro ⟨h1, _, h3⟩
  obtain ⟨a1, a2, a3, a4, a5, a6, a7, a8, a9, a10, a11, a12, a13, a14⟩ := h
  grind [aux_sy_left]

/-! ## What the code gets wrong -/

/-- Nothing is used after its release or without having been given; the call says whether the connection is
authenticated. -/
def C123_statement : Prop := ∀ (places : Bool) (ops : List SyOp),
  ((Sy.start places).run ops).bad = false ∧
  (∀ b t : Bool, ((Sy.start places).run ops).caller = .returned b t → ((Sy.start places).run ops).authed = b)

/-- References of the queue that are still to be dropped. -/
def aux_sy_pending (s : Sy) : Nat :=
  (match s.task with | .begun | .steps => 1 | .notes p _ => p.length | .over => 0) + if s.stored then 1 else 0

/-- `e` references too many will be dropped. -/
def SyDebt (e : Nat) (s : Sy) : Prop :=
  s.bad = true ∨ (s.refs + e = aux_sy_pending s ∧ (s.gone = true ↔ s.refs = 0) ∧ (s.stored = true → s.callerRef = true ∨ s.taskRef = true) ∧
    (s.task = .over → s.taskRef = false))

theorem aux_sy_debt_step (e : Nat) (s : Sy) (op : SyOp) (h : SyDebt e s) (hs : ¬ (s.task = .steps ∧ op = .task .malformed)) :
    SyDebt e (s.step op) := by
  obtain ⟨places, task, caller, queue, refs, gone, stored, callerRef, taskRef, authed, bad⟩ := s
  simp only [SyDebt, aux_sy_pending] at *
  cases op with
  | release =>
    cases caller <;> simp only [Sy.step, Sy.settle, Sy.unref, Sy.connGone] at * <;> grind
  | timeout => cases caller <;> simp only [Sy.step, Sy.timeout] at * <;> grind
  | caller => cases caller <;> simp only [Sy.step, Sy.callerStep, Sy.unref] at * <;> grind
  | task c =>
    cases task with
    | begun => cases c <;> simp only [Sy.step, Sy.taskStep, Sy.touchConn, Sy.connGone] at * <;> grind
    | steps => cases c <;> simp only [Sy.step, Sy.taskStep] at * <;> grind
    | over => exact h
    | notes p d =>
      match p, d with
      | [], d => simp only [Sy.step, Sy.taskStep, Sy.settle, Sy.unref, Sy.connGone] at * <;> grind
      | b :: bs, 0 => simp only [Sy.step, Sy.taskStep, Sy.push, Sy.touchConn, Sy.connGone] at * <;> grind
      | b :: bs, 1 => simp only [Sy.step, Sy.taskStep, Sy.push] at * <;> grind
      | b :: bs, d + 2 => simp only [Sy.step, Sy.taskStep, Sy.unref] at * <;> grind

theorem aux_sy_past (s : Sy) (op : SyOp) (h : s.task ≠ .begun ∧ s.task ≠ .steps) :
    (s.step op).task ≠ .begun ∧ (s.step op).task ≠ .steps := by
  obtain ⟨places, task, caller, queue, refs, gone, stored, callerRef, taskRef, authed, bad⟩ := s
  cases op with
  | release =>
    cases caller <;> simp only [Sy.step, Sy.settle, Sy.unref, Sy.connGone] at * <;> grind
  | timeout => cases caller <;> simp only [Sy.step, Sy.timeout] at * <;> grind
  | caller => cases caller <;> simp only [Sy.step, Sy.callerStep, Sy.unref] at * <;> grind
  | task c =>
    cases task with
    | begun => exact absurd rfl h.1
    | steps => exact absurd rfl h.2
    | over => exact h
    | notes p d =>
      match p, d with
      | [], d => simp only [Sy.step, Sy.taskStep, Sy.settle, Sy.unref, Sy.connGone] at * <;> grind
      | b :: bs, 0 => simp only [Sy.step, Sy.taskStep, Sy.push, Sy.touchConn, Sy.connGone] at * <;> grind
      | b :: bs, 1 => simp only [Sy.step, Sy.taskStep, Sy.push] at * <;> grind
      | b :: bs, d + 2 => simp only [Sy.step, Sy.taskStep, Sy.unref] at * <;> grind

theorem aux_sy_debt_late (s : Sy) (ops : List SyOp) (h : SyDebt 1 s) (hp : s.task ≠ .begun ∧ s.task ≠ .steps) : SyDebt 1 (s.run ops) := by
  induction ops generalizing s with
  | nil => exact h
  | cons op ops ih => exact ih _ (aux_sy_debt_step 1 s op h (fun hh => hp.2 hh.1)) (aux_sy_past s op hp)

theorem aux_sy_debt_malformed (e : Nat) (s : Sy) (h : SyDebt e s) (ht : s.task = .steps) :
    SyDebt (e + 1) (s.step (.task .malformed)) := by
  obtain ⟨places, task, caller, queue, refs, gone, stored, callerRef, taskRef, authed, bad⟩ := s
  simp only [SyDebt, aux_sy_pending] at *
  subst ht
  simp only [Sy.step, Sy.taskStep] at *
  grind

theorem aux_sy_debt_early (s : Sy) (ops : List SyOp) (h : SyDebt 0 s) (hp : (s.run ops).task = .begun ∨ (s.run ops).task = .steps) :
    SyDebt 0 (s.run ops) := by
  induction ops generalizing s with
  | nil => exact h
  | cons op ops ih =>
    refine ih _ (aux_sy_debt_step 0 s op h ?_) hp
    rintro ⟨h1, rfl⟩
    have hq : (s.step (.task .malformed)).task ≠ .begun ∧ (s.step (.task .malformed)).task ≠ .steps := by
      obtain ⟨places, task, caller, queue, refs, gone, stored, callerRef, taskRef, authed, bad⟩ := s
      simp only at h1
      subst h1
      simp [Sy.step, Sy.taskStep]
    have hall : ∀ (ops : List SyOp) (t : Sy), (t.task ≠ .begun ∧ t.task ≠ .steps) → (t.run ops).task ≠ .begun ∧ (t.run ops).task ≠ .steps := by
      intro ops
      induction ops with
      | nil => exact fun t ht => ht
      | cons op ops ih => exact fun t ht => ih _ (aux_sy_past t op ht)
    have := hall ops _ hq
    rcases hp with hp | hp
    · exact this.1 hp
    · exact this.2 hp

/-- **Violation**: if the peer sends a reply that cannot be parsed, then whatever the schedule, and whether the call times
out or not, memory is used after its release by the time everything ended. -/
theorem C123_malformed (places : Bool) (before after : List SyOp) (hs : ((Sy.start places).run before).task = .steps)
    (hd : SyDone ((((Sy.start places).run before).step (.task .malformed)).run after)) :
    ((((Sy.start places).run before).step (.task .malformed)).run after).bad = true := by
  have h0 : SyDebt 0 (Sy.start places) := by
    right
    simp [Sy.start, aux_sy_pending]
  have h1 := aux_sy_debt_early _ before h0 (Or.inr hs)
  have h2 := aux_sy_debt_malformed 0 _ h1 hs
  have hq : ((((Sy.start places).run before)).step (.task .malformed)).task ≠ .begun ∧
      ((((Sy.start places).run before)).step (.task .malformed)).task ≠ .steps := by
    generalize (Sy.start places).run before = s at hs
    obtain ⟨places, task, caller, queue, refs, gone, stored, callerRef, taskRef, authed, bad⟩ := s
    simp only at hs
    subst hs
    simp [Sy.step, Sy.taskStep]
  have h3 := aux_sy_debt_late _ after h2 hq
  rcases h3 with h3 | ⟨h3, h4, h5, h6⟩
  · exact h3
  · obtain ⟨d1, _, d3⟩ := hd
    exfalso
    have h7 := h6 d1
    simp only [aux_sy_pending, d1] at h3
    grind

/-- **Violation**: a call that timed out told an error, and the connection gets authenticated all the same. -/
theorem C123_late_success :
    ((Sy.start true).run [.task .proceed, .timeout, .task (.result true), .task .early]).caller = .returned false true ∧
    ((Sy.start true).run [.task .proceed, .timeout, .task (.result true), .task .early]).authed = true := by
  decide +kernel

/-- **Violation**: after a timeout the connection is released while the negotiation has no reference of it. -/
theorem C123_timeout_release : ((Sy.start true).run [.timeout, .release, .task .early]).bad = true := by
  decide +kernel

/-- **Violation**: the places for the results can be NULL, except that at a timeout they are written. -/
theorem C123_no_places : ((Sy.start false).run [.timeout]).bad = true := by
  decide +kernel

theorem C123_statement_false : ¬ C123_statement := fun h =>
  absurd (h true _).1 (by rw [C123_timeout_release]; decide)

/-- A negotiation that succeeds: the connection is released by the caller while the task ends. -/
example : SyPatient (Sy.start true) [.task .proceed, .task (.result true), .task .early, .caller, .task .early, .caller, .caller, .release, .task .early, .task .early] ∧
    SyDone ((Sy.start true).run [.task .proceed, .task (.result true), .task .early, .caller, .task .early, .caller, .caller, .release, .task .early, .task .early]) ∧
    ((Sy.start true).run [.task .proceed, .task (.result true), .task .early, .caller, .task .early, .caller, .caller, .release, .task .early, .task .early]).caller = .returned true false := by
  refine ⟨?_, ⟨by decide +kernel, ⟨true, false, by decide +kernel⟩, by decide +kernel⟩, by decide +kernel⟩
  simp only [SyPatient, and_true]
  refine ⟨?_, ?_, ?_, ?_, ?_, ?_, ?_, ?_, ?_, ?_⟩ <;> intro h <;> first | cases h | skip
  intro b
  revert b
  decide +kernel

/-- A reply that cannot be parsed. -/
example : ((Sy.start true).run [.task .proceed]).task = .steps ∧
    SyDone ((((Sy.start true).run [.task .proceed]).step (.task .malformed)).run
      [.task .early, .task .early, .task .early, .caller, .caller, .caller, .task .early, .task .early, .task .early, .task .early, .release]) := by
  exact ⟨by decide +kernel, by decide +kernel, ⟨false, false, by decide +kernel⟩, by decide +kernel⟩

end Verif.Props
