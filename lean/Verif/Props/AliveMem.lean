import Verif.Spec.AliveMem
/-!
# Memory of the alive check
-/
namespace Verif.Props
open Verif.Model Verif.Spec

/-- The thread that runs events has taken the close handler away. -/
def aux_am_mine : AmTick → Bool
  | .asked _ r | .told _ r => r
  | _ => false

structure AmInv (s : Am) : Prop where
  conn : s.conn = s.own
  drops : s.drops = if s.own then 0 else 1
  inst : s.close = .installed → s.own = true ∧ aux_am_mine s.tick = false
  mine : aux_am_mine s.tick = true → s.own = true ∧ s.close = .removed
  taken : s.close = .taken ∨ s.close = .unset → s.own = true
  free : s.freed = true ↔ s.others = 0 ∧ s.own = false ∧ s.close.hasRef = false ∧ s.create.hasRef = false

theorem aux_am_step (s : Am) (op : AmOp) (h : AmInv s) : AmInv (s.step op) := by
  obtain ⟨h1, h2, h3, h4, h5, h6⟩ := h
  obtain ⟨handler, isOk, others, own, freed, conn, chan, close, timer, tick, create, told, drops, bad⟩ := s
  simp only at h1 h2 h3 h4 h5 h6
  subst h1
  cases op with
  | take => simp only [Am.step]; constructor <;> grind
  | drop => simp only [Am.step, Am.settle]; constructor <;> grind
  | breaks => simp only [Am.step]; constructor <;> grind
  | runHandlers => simp only [Am.step]; constructor <;> grind [AmClose.hasRef]
  | closeStep =>
    cases close <;> simp only [Am.step, Am.stepClose, Am.touch, Am.freeReference, Am.settle] <;> constructor <;> grind [AmClose.hasRef]
  | tickStart => simp only [Am.step]; constructor <;> grind [aux_am_mine]
  | tickStep c =>
    cases tick <;> cases c <;> simp only [Am.step, Am.stepTick, Am.touch, Am.freeReference, Am.removeEvent, Am.settle] <;> constructor <;> grind [aux_am_mine, AmClose.hasRef, AmChan.hasRef]
  | createStep ok =>
    cases create <;> simp only [Am.step, Am.stepCreate, Am.touch, Am.settle] <;> constructor <;> grind [AmChan.hasRef]

theorem aux_am_run (s : Am) (ops : List AmOp) (h : AmInv s) : AmInv (s.run ops) := by
  induction ops generalizing s with
  | nil => exact h
  | cons op ops ih => exact ih _ (aux_am_step s op h)

theorem aux_am_enable (handler : Bool) (others : Nat) : AmInv (Am.enable handler others) := by
  constructor <;> simp [Am.enable, aux_am_mine]

/-- Whatever the schedule, the reference of the connection that the check takes is dropped at most once: by the close
handler or by the failure, never by both. The connection is released exactly when everybody dropped its references. -/
theorem C121_once (handler : Bool) (others : Nat) (ops : List AmOp) :
    ((Am.enable handler others).run ops).drops ≤ 1 ∧
    (((Am.enable handler others).run ops).own = true ↔ ((Am.enable handler others).run ops).drops = 0) ∧
    (((Am.enable handler others).run ops).freed = true → ((Am.enable handler others).run ops).drops = 1 ∧
      ((Am.enable handler others).run ops).others = 0) := by
  have h := aux_am_run _ ops (aux_am_enable handler others)
  obtain ⟨h1, h2, h3, h4, h5, h6⟩ := h
  refine ⟨?_, ?_, ?_⟩ <;> grind

/-- A connection given to the failure handler was not released. -/
theorem C121_told (handler : Bool) (others : Nat) (ops : List AmOp) (op : AmOp)
    (h0 : ((Am.enable handler others).run ops).told ≠ some true)
    (h1 : (((Am.enable handler others).run ops).step op).told = some true) :
    (((Am.enable handler others).run ops).step op).freed = false := by
  have h := aux_am_run _ ops (aux_am_enable handler others)
  generalize (Am.enable handler others).run ops = s at *
  obtain ⟨a1, a2, a3, a4, a5, a6⟩ := h
  obtain ⟨handler, isOk, others, own, freed, conn, chan, close, timer, tick, create, told, drops, bad⟩ := s
  cases op with
  | tickStep c =>
    cases tick <;> cases c <;> simp only [Am.step, Am.stepTick, Am.touch, Am.freeReference, Am.removeEvent, Am.settle] at * <;> grind
  | closeStep =>
    cases close <;> simp only [Am.step, Am.stepClose, Am.touch, Am.freeReference, Am.settle] at * <;> grind
  | createStep ok =>
    cases create <;> simp only [Am.step, Am.stepCreate, Am.touch, Am.settle] at * <;> grind
  | _ => simp only [Am.step, Am.settle] at * <;> grind

/-! ## With a reference kept -/

structure AmKeep (s : Am) : Prop where
  inv : AmInv s
  good : s.bad = false
  quiet : s.others = 0 → AmQuiet s

theorem aux_am_keep_step (s : Am) (op : AmOp) (h : AmKeep s) (hk : op = .drop → s.others = 1 → AmQuiet s) : AmKeep (s.step op) := by
  refine ⟨aux_am_step s op h.inv, ?_, ?_⟩
  all_goals
    obtain ⟨⟨a1, a2, a3, a4, a5, a6⟩, h2, h3⟩ := h
    obtain ⟨handler, isOk, others, own, freed, conn, chan, close, timer, tick, create, told, drops, bad⟩ := s
    simp only [AmQuiet] at *
    cases op with
    | tickStep c =>
      cases tick <;> cases c <;> simp only [Am.step, Am.stepTick, Am.touch, Am.freeReference, Am.removeEvent, Am.settle] at * <;> grind
    | closeStep =>
      cases close <;> simp only [Am.step, Am.stepClose, Am.touch, Am.freeReference, Am.settle] at * <;> grind
    | createStep ok =>
      cases create <;> simp only [Am.step, Am.stepCreate, Am.touch, Am.settle] at * <;> grind
    | _ => simp only [Am.step, Am.settle] at * <;> grind

theorem aux_am_keep (s : Am) (ops : List AmOp) (h : AmKeep s) (hk : AmKept s ops) : AmKeep (s.run ops) := by
  induction ops generalizing s with
  | nil => exact h
  | cons op ops ih => exact ih _ (aux_am_keep_step s op h hk.1) hk.2

/-- If somebody keeps a reference of the connection until nothing of the check is left, the data of the check is not
used after its release, and no event is left then. -/
theorem C121_kept_partial (handler : Bool) (others : Nat) (h0 : 0 < others) (ops : List AmOp)
    (hk : AmKept (Am.enable handler others) ops) :
    ((Am.enable handler others).run ops).bad = false ∧ (((Am.enable handler others).run ops).freed = true →
      ((Am.enable handler others).run ops).timer = .none ∧ ((Am.enable handler others).run ops).tick = .idle) := by
  have h := aux_am_keep _ ops ⟨aux_am_enable handler others, rfl, fun hh => by simp [Am.enable] at hh; omega⟩ hk
  refine ⟨h.good, fun hf => ?_⟩
  have := h.quiet (h.inv.free.mp hf).1
  exact ⟨this.2.1, this.2.2.1⟩

/-- Nobody closes the connection. -/
structure AmCalm (s : Am) : Prop where
  handler : s.handler = true
  isOk : s.isOk = true
  close : s.close = .installed ∨ s.close = .removed
  conn : s.conn = true → s.close = .installed ∨ aux_am_mine s.tick = true
  failing : ∀ ev, s.tick = .failing ev → s.conn = true ∧ s.close = .installed
  asked : ∀ ev r, s.tick = .asked ev r → r = true
  mine : aux_am_mine s.tick = true → s.conn = true
  told : s.told ≠ some false

theorem aux_am_calm_step (s : Am) (op : AmOp) (h : AmCalm s) (hb : op ≠ .breaks) : AmCalm (s.step op) := by
  obtain ⟨a1, a2, a3, a4, a5, a6, a7, a8⟩ := h
  obtain ⟨handler, isOk, others, own, freed, conn, chan, close, timer, tick, create, told, drops, bad⟩ := s
  simp only at a1 a2 a3 a4 a5 a6 a7 a8
  subst a1 a2
  cases op with
  | tickStep c =>
    cases tick <;> cases c <;> simp only [Am.step, Am.stepTick, Am.touch, Am.freeReference, Am.removeEvent, Am.settle] at * <;> constructor <;> grind [aux_am_mine]
  | closeStep =>
    cases close <;> simp only [Am.step, Am.stepClose, Am.touch, Am.freeReference, Am.settle] at * <;> constructor <;> grind
  | createStep ok =>
    cases create <;> simp only [Am.step, Am.stepCreate, Am.touch, Am.settle] at * <;> constructor <;> grind
  | breaks => exact absurd rfl hb
  | tickStart => simp only [Am.step, Am.settle] at * <;> constructor <;> grind [aux_am_mine]
  | _ => simp only [Am.step, Am.settle] at * <;> constructor <;> grind

theorem aux_am_calm (s : Am) (ops : List AmOp) (h : AmCalm s) (hb : AmOp.breaks ∉ ops) : AmCalm (s.run ops) := by
  induction ops generalizing s with
  | nil => exact h
  | cons op ops ih =>
    simp only [List.mem_cons, not_or] at hb
    exact ih _ (aux_am_calm_step s op h (fun hh => hb.1 hh.symm)) hb.2

/-- Without a close of the connection, the failure handler gets the connection. -/
theorem C121_handler_partial (others : Nat) (ops : List AmOp) (hb : AmOp.breaks ∉ ops) :
    ((Am.enable true others).run ops).told ≠ some false :=
  (aux_am_calm _ ops (by constructor <;> simp [Am.enable, aux_am_mine]) hb).told

/-! ## The event ends with the connection -/

structure AmStops (s : Am) : Prop where
  isOk : s.isOk = false
  create : s.create = .unasked ∨ s.create = .over
  close : s.close = .taken ∨ (s.close = .unset ∨ s.close = .released ∨ s.close = .over) ∧ s.timer = .none

theorem aux_am_stops (s : Am) (op : AmOp) (h : AmStops s) : AmStops (s.step op) := by
  obtain ⟨h1, h2, h3⟩ := h
  obtain ⟨handler, isOk, others, own, freed, conn, chan, close, timer, tick, create, told, drops, bad⟩ := s
  simp only at h1 h2 h3
  cases op with
  | tickStep c =>
    cases tick <;> cases c <;> simp only [Am.step, Am.stepTick, Am.touch, Am.freeReference, Am.removeEvent, Am.settle] <;> constructor <;> grind
  | closeStep =>
    cases close <;> simp only [Am.step, Am.stepClose, Am.touch, Am.freeReference, Am.settle] at * <;> constructor <;> grind
  | createStep ok =>
    cases create <;> simp only [Am.step, Am.stepCreate, Am.touch, Am.settle] at * <;> constructor <;> grind
  | _ => simp only [Am.step, Am.settle] <;> constructor <;> grind

structure AmOk (s : Am) : Prop where
  taken : s.close = .taken → s.isOk = false

theorem aux_am_ok (s : Am) (op : AmOp) (h : AmOk s) : AmOk (s.step op) := by
  obtain ⟨h1⟩ := h
  obtain ⟨handler, isOk, others, own, freed, conn, chan, close, timer, tick, create, told, drops, bad⟩ := s
  simp only at h1
  cases op with
  | tickStep c =>
    cases tick <;> cases c <;> simp only [Am.step, Am.stepTick, Am.touch, Am.freeReference, Am.removeEvent, Am.settle] <;> constructor <;> grind
  | closeStep =>
    cases close <;> simp only [Am.step, Am.stepClose, Am.touch, Am.freeReference, Am.settle] at * <;> constructor <;> grind
  | createStep ok =>
    cases create <;> simp only [Am.step, Am.stepCreate, Am.touch, Am.settle] at * <;> constructor <;> grind
  | _ => simp only [Am.step, Am.settle] <;> constructor <;> grind

theorem aux_am_append (s : Am) (a b : List AmOp) : s.run (a ++ b) = (s.run a).run b := by
  induction a generalizing s with
  | nil => rfl
  | cons x xs ih => exact ih _

/-- If no channel is being created when the close handler starts, then no event is installed at any time after the
handler made its first step. -/
theorem C121_stops_partial (handler : Bool) (others : Nat) (before after : List AmOp)
    (h1 : ((Am.enable handler others).run before).close = .taken)
    (h2 : ((Am.enable handler others).run before).create = .unasked ∨ ((Am.enable handler others).run before).create = .over) :
    ((Am.enable handler others).run (before ++ after)).close = .taken ∨
    ((Am.enable handler others).run (before ++ after)).timer = .none := by
  have hok : ∀ (ops : List AmOp) (s : Am), AmOk s → AmOk (s.run ops) := by
    intro ops
    induction ops with
    | nil => intro s h; exact h
    | cons op ops ih => intro s h; exact ih _ (aux_am_ok s op h)
  have hst : ∀ (ops : List AmOp) (s : Am), AmStops s → AmStops (s.run ops) := by
    intro ops
    induction ops with
    | nil => intro s h; exact h
    | cons op ops ih => intro s h; exact ih _ (aux_am_stops s op h)
  rw [aux_am_append]
  have h0 := (hok before _ (by constructor; simp [Am.enable])).taken h1
  rcases (hst after _ ⟨h0, h2, .inl h1⟩).close with h | h
  · exact .inl h
  · exact .inr h.2

/-- The check runs while the connection breaks. -/
example : ((Am.enable true 1).run [.tickStart, .tickStep .create, .createStep true, .createStep true, .createStep true, .createStep true,
      .tickStart, .breaks, .runHandlers]).close = .taken ∧
    ((Am.enable true 1).run [.tickStart, .tickStep .create, .createStep true, .createStep true, .createStep true, .createStep true,
      .tickStart, .breaks, .runHandlers]).create = .over ∧
    ((Am.enable true 1).run [.tickStart, .tickStep .create, .createStep true, .createStep true, .createStep true, .createStep true,
      .tickStart, .breaks, .runHandlers]).timer = .check ∧
    ((Am.enable true 1).run ([.tickStart, .tickStep .create, .createStep true, .createStep true, .createStep true, .createStep true,
      .tickStart, .breaks, .runHandlers] ++ [.closeStep, .closeStep])).timer = .none := by decide +kernel

/-! ## What the code gets wrong -/

/-- Nothing is used after its release, the failure handler gets the connection, and no event is left once the
connection was released. -/
def C121_statement : Prop := ∀ (handler : Bool) (others : Nat) (ops : List AmOp), 0 < others →
  ((Am.enable handler others).run ops).bad = false ∧ ((Am.enable handler others).run ops).told ≠ some false ∧
  (((Am.enable handler others).run ops).freed = true → ((Am.enable handler others).run ops).timer = .none)

/-- The connection is closed and released while the event runs. -/
theorem C121_tick_of_released :
    ((Am.enable true 1).run [.tickStart, .breaks, .runHandlers, .closeStep, .closeStep, .closeStep, .drop, .tickStep .stay]).bad = true := by
  decide +kernel

/-- The check fails while the close handler runs: the failure handler gets NULL. -/
theorem C121_handler_null :
    ((Am.enable true 1).run [.tickStart, .tickStep .fail, .breaks, .runHandlers, .closeStep, .closeStep, .tickStep .stay, .tickStep .stay]).told = some false := by
  decide +kernel

/-- The connection is closed while the creation of the channel is told: the event is installed afterwards, stays when
the connection is released and runs on released memory. -/
theorem C121_event_left :
    ((Am.enable true 1).run [.tickStart, .tickStep .create, .createStep true, .breaks, .runHandlers, .closeStep, .closeStep, .closeStep,
      .createStep true, .createStep true, .createStep true, .drop]).freed = true ∧
    ((Am.enable true 1).run [.tickStart, .tickStep .create, .createStep true, .breaks, .runHandlers, .closeStep, .closeStep, .closeStep,
      .createStep true, .createStep true, .createStep true, .drop]).timer = .check ∧
    ((Am.enable true 1).run [.tickStart, .tickStep .create, .createStep true, .breaks, .runHandlers, .closeStep, .closeStep, .closeStep,
      .createStep true, .createStep true, .createStep true, .drop, .tickStart, .tickStep .stay]).bad = true := by
  decide +kernel

theorem C121_statement_false : ¬ C121_statement := by
  intro h
  exact (h true 1 _ (by omega)).2.1 C121_handler_null

/-- A connection with a check that fails; everything is released. -/
example : AmKept (Am.enable true 1) [.tickStart, .tickStep .create, .createStep true, .createStep true, .createStep true, .createStep true,
    .tickStart, .tickStep .fail, .tickStep .stay, .tickStep .stay, .tickStep .stay, .tickStep .stay, .breaks, .drop] ∧
    ((Am.enable true 1).run [.tickStart, .tickStep .create, .createStep true, .createStep true, .createStep true, .createStep true,
    .tickStart, .tickStep .fail, .tickStep .stay, .tickStep .stay, .tickStep .stay, .tickStep .stay, .breaks, .drop]).freed = true := by
  refine ⟨?_, by decide +kernel⟩
  simp only [AmKept, and_true]
  refine ⟨?_, ?_, ?_, ?_, ?_, ?_, ?_, ?_, ?_, ?_, ?_, ?_, ?_, ?_⟩ <;> intro h <;> first | cases h | skip
  intro _
  decide +kernel

/-- The handler is told a failure. -/
example : ((Am.enable true 1).run [.tickStart, .tickStep .fail, .tickStep .stay]).told ≠ some true ∧
    (((Am.enable true 1).run [.tickStart, .tickStep .fail, .tickStep .stay]).step (.tickStep .stay)).told = some true := by decide +kernel

end Verif.Props
