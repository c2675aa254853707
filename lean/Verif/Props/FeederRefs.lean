import Verif.Model.FeederRefs
/-!
# C131: the memory of feeders and the notification of their end
-/
namespace Verif.Props
open Verif.Model

structure FdInv (s : Fd) : Prop where
  count : s.count = s.app + s.msgs + s.tasks + s.lost
  bad : s.bad = false
  asking : s.asking.length ≤ s.app
  ending : s.ending = true → 0 < s.msgs
  rel : s.released = if s.count = 0 then 1 else 0

theorem aux_fd_drop (s : Fd) : s.drop =
    { s with bad := s.bad || decide (s.count = 0), count := s.count - 1, released := if s.count = 1 then s.released + 1 else s.released,
             chanDrops := if s.count = 1 ∧ s.channel then s.chanDrops + 1 else s.chanDrops } := by
  simp only [Fd.drop]
  split
  · simp_all
  · split
    · simp_all
    · simp_all

theorem aux_fd_touch (s : Fd) : s.touch = { s with bad := s.bad || decide (s.count = 0) } := by
  simp only [Fd.touch]; split <;> simp_all

theorem aux_fd_notify (s : Fd) : s.notify =
    { s with done := true, count := s.count + 1,
             tasks := if s.pool ∧ s.ctx then s.tasks + 1 else s.tasks, lost := if s.pool ∧ s.ctx then s.lost else s.lost + 1 } := by
  simp only [Fd.notify]; split <;> simp_all

theorem aux_fd_step (s : Fd) (op : FdOp) (h : FdInv s) : FdInv (s.step op) := by
  obtain ⟨h1, h2, h3, h4, h5⟩ := h
  cases op <;> simp only [Fd.step, aux_fd_drop, aux_fd_touch, aux_fd_notify]
  case askEnd t =>
    split
    · rename_i ht
      have := List.length_erase_of_mem ht
      have := List.length_pos_of_mem ht
      constructor <;> grind
    · exact ⟨h1, h2, h3, h4, h5⟩
  all_goals
    repeat' split
    all_goals first
      | exact ⟨h1, h2, h3, h4, h5⟩
      | (constructor <;> grind)

theorem aux_fd_run (ops : List FdOp) : ∀ s : Fd, FdInv s → FdInv (s.run ops) := by
  induction ops with
  | nil => intro s h; exact h
  | cons o ops ih => intro s h; exact ih _ (aux_fd_step s o h)

theorem aux_fd_new : FdInv Fd.new := by constructor <;> simp [Fd.new]

/-- **C131**, part: whatever the threads do, a feeder is not used after it was released, is released at most once, and only when neither the
application, a message nor a task has a reference. -/
theorem C131_memory_partial (ops : List FdOp) : let s := Fd.new.run ops
    s.bad = false ∧ s.released ≤ 1 ∧ (s.released = 1 → s.app = 0 ∧ s.msgs = 0 ∧ s.tasks = 0) ∧
    (s.app = 0 → s.msgs = 0 → s.tasks = 0 → s.lost = 0 → s.released = 1) := by
  obtain ⟨h1, h2, _, _, h5⟩ := aux_fd_run ops _ aux_fd_new
  refine ⟨h2, ?_, ?_, ?_⟩ <;> grind

example : let s := Fd.new.run [.ref, .setHandler, .send .queued, .round, .pause false, .round, .send .queued, .unref, .eof, .round, .roundEnd, .task]
    (s.bad, s.released, s.calls, s.chanRefs, s.chanDrops) = (false, 1, 1, 1, 1) := by decide +kernel

/-- Histories in which no thread asks the feeder whether it ended, and the pool takes tasks. -/
def FdQuiet (ops : List FdOp) : Prop := ∀ o ∈ ops, (∀ t, o ≠ .ask t) ∧ o ≠ .poolEnds

structure FdSure (s : Fd) : Prop where
  lost : s.lost = 0
  pool : s.pool = true
  ctx : 0 < s.msgs → s.ctx = true
  nobody : s.asking = []
  once : s.calls + s.tasks = if s.done then 1 else 0
  ending : s.ending = true → s.done = false ∧ 0 < s.msgs
  comp : s.handler = true → s.done = decide (0 < s.completed)
  handler : s.done = true → 0 < s.completed

theorem aux_fd_sure_step (s : Fd) (op : FdOp) (hq : (∀ t, op ≠ .ask t) ∧ op ≠ .poolEnds) (hk : s.handler = true) (h : FdSure s) :
    FdSure (s.step op) ∧ (s.step op).handler = true := by
  obtain ⟨h1, h2, h3, h4, h5, h6, h7, h8⟩ := h
  obtain ⟨q1, q2⟩ := hq
  cases op <;> simp only [Fd.step, aux_fd_drop, aux_fd_touch, aux_fd_notify]
  case ask t => exact absurd rfl (q1 t)
  case poolEnds => exact absurd rfl q2
  all_goals
    repeat' split
    all_goals first
      | exact ⟨⟨h1, h2, h3, h4, h5, h6, h7, h8⟩, hk⟩
      | (refine ⟨?_, ?_⟩ <;> (try constructor) <;> grind)

theorem aux_fd_sure_run (ops : List FdOp) : ∀ s : Fd, FdQuiet ops → s.handler = true → FdSure s → FdSure (s.run ops) ∧ (s.run ops).handler = true := by
  induction ops with
  | nil => intro s _ hk h; exact ⟨h, hk⟩
  | cons o ops ih =>
    intro s hq hk h
    have := aux_fd_sure_step s o (hq o List.mem_cons_self) hk h
    exact ih _ (fun o ho => hq o (List.mem_cons_of_mem _ ho)) this.2 this.1

/-- **C131**, part: when the application sets the handler before it sends the feeder, no thread asks whether the feeder ended and the pool
takes tasks, then a task that calls the handler is made exactly when a message ends with the content of the feeder, once; and the feeder is
released exactly when nobody has a reference. -/
theorem C131_told_partial (ops : List FdOp) (hq : FdQuiet ops) : let s := Fd.new.run (.setHandler :: ops)
    s.calls + s.tasks = (if 0 < s.completed then 1 else 0) ∧ (s.released = 1 ↔ s.app = 0 ∧ s.msgs = 0 ∧ s.tasks = 0) := by
  have hs := aux_fd_sure_run ops (Fd.new.step .setHandler) hq (by decide) (by constructor <;> simp [Fd.new, Fd.step])
  have hi := aux_fd_run (.setHandler :: ops) _ aux_fd_new
  change FdSure (Fd.new.run (.setHandler :: ops)) ∧ _ at hs
  obtain ⟨⟨h1, h2, h3, h4, h5, h6, h7, h8⟩, hk⟩ := hs
  obtain ⟨i1, i2, i3, i4, i5⟩ := hi
  change (Fd.new.run (.setHandler :: ops)).handler = true at hk
  refine ⟨?_, ?_⟩ <;> grind

example : FdQuiet [.ref, .send .queued, .round, .pause true, .round, .send .queued, .eof, .round, .roundEnd, .unref, .task] := by
  intro o ho; simp at ho; rcases ho with h | h | h | h | h | h | h | h | h | h | h <;> subst h <;> simp
example : let s := Fd.new.run (.setHandler :: [.ref, .send .queued, .round, .pause true, .round, .send .queued, .eof, .round, .roundEnd, .unref, .task])
    (s.completed, s.calls, s.released) = (1, 1, 1) := by decide +kernel

structure FdChan (s : Fd) : Prop where
  refs : s.chanDrops = if s.released = 1 ∧ 0 < s.chanRefs then 1 else 0
  chan : s.channel = decide (0 < s.chanRefs)
  ctx : s.channel = true → s.ctx = true
  task : 0 < s.tasks ∨ 0 < s.calls → s.ctx = true

theorem aux_fd_chan_step (s : Fd) (op : FdOp) (hi : FdInv s) (h : FdChan s) : FdChan (s.step op) := by
  obtain ⟨h1, h2, h3, h4⟩ := h
  obtain ⟨i1, i2, i3, i4, i5⟩ := hi
  cases op <;> simp only [Fd.step, aux_fd_drop, aux_fd_touch, aux_fd_notify]
  case askEnd t =>
    split
    · rename_i ht
      have := List.length_pos_of_mem ht
      constructor <;> grind
    · exact ⟨h1, h2, h3, h4⟩
  all_goals
    repeat' split
    all_goals first
      | exact ⟨h1, h2, h3, h4⟩
      | (constructor <;> grind)

theorem aux_fd_chan_run (ops : List FdOp) : ∀ s : Fd, FdInv s → FdChan s → FdChan (s.run ops) := by
  induction ops with
  | nil => intro s _ h; exact h
  | cons o ops ih => intro s hi h; exact ih _ (aux_fd_step s o hi) (aux_fd_chan_step s o hi h)

/-- **C131**, part: a feeder never gives back a reference of its channel that it did not take, gives none back before it is released, and a
released feeder that took one gave it back. -/
theorem C131_channel_partial (ops : List FdOp) : let s := Fd.new.run ops
    s.chanDrops ≤ s.chanRefs ∧ (s.released = 0 → s.chanDrops = 0) ∧ (s.released = 1 → s.chanRefs ≤ 1 → s.chanDrops = s.chanRefs) := by
  obtain ⟨h1, h2, h3, h4⟩ := aux_fd_chan_run ops _ aux_fd_new (by constructor <;> simp [Fd.new])
  refine ⟨?_, ?_, ?_⟩ <;> grind

example : let s := Fd.new.run [.send .queued, .eof, .round]; (s.released, s.chanRefs, s.chanDrops) = (1, 1, 1) := by decide +kernel

structure FdWith (s : Fd) : Prop where
  calls : s.calls = s.withChannel
  task : 0 < s.tasks ∨ 0 < s.calls → s.channel = true

theorem aux_fd_with_step (s : Fd) (op : FdOp) (hc : s.ctx = true → s.channel = true) (hp : s.channel = true ∨ s.paused = false)
    (hn : s.channel = true ∨ ∀ c, op ≠ .pause c) (h : FdWith s) :
    FdWith (s.step op) ∧ ((s.step op).ctx = true → (s.step op).channel = true) ∧ ((s.step op).channel = true ∨ (s.step op).paused = false) ∧
    (s.channel = true → (s.step op).channel = true) := by
  obtain ⟨h1, h2⟩ := h
  cases op <;> simp only [Fd.step, aux_fd_drop, aux_fd_touch, aux_fd_notify]
  case pause c =>
    rcases hn with hn | hn
    · split <;> exact ⟨⟨h1, h2⟩, hc, .inl hn, fun h => h⟩
    · exact absurd rfl (hn c)
  all_goals
    repeat' split
    all_goals first
      | exact ⟨⟨h1, h2⟩, hc, hp, fun h => h⟩
      | (refine ⟨?_, ?_, ?_, ?_⟩ <;> (try constructor) <;> grind)

theorem aux_fd_with_run (ops : List FdOp) : ∀ s : Fd, (s.ctx = true → s.channel = true) → (s.channel = true ∨ s.paused = false) →
    (s.channel = true ∨ ∀ o ∈ ops, ∀ c, o ≠ .pause c) → FdWith s →
    FdWith (s.run ops) ∧ ((s.run ops).ctx = true → (s.run ops).channel = true) ∧ ((s.run ops).channel = true ∨ (s.run ops).paused = false) := by
  induction ops with
  | nil => intro s h1 h2 _ h; exact ⟨h, h1, h2⟩
  | cons o ops ih =>
    intro s h1 h2 h3 h
    have := aux_fd_with_step s o h1 h2 (h3.imp id fun q => q o List.mem_cons_self) h
    refine ih _ this.2.1 this.2.2.1 ?_ this.1
    rcases h3 with h3 | h3
    · exact .inl (this.2.2.2 h3)
    · exact .inr fun o ho => h3 o (List.mem_cons_of_mem _ ho)

/-- **C131**, part: when the feeder was sent before it was paused for the first time, every call of the handler gets the channel. -/
theorem C131_with_partial (pre post : List FdOp) (hp : ∀ o ∈ pre, ∀ c, o ≠ .pause c) (hc : (Fd.new.run pre).channel = true) :
    let s := Fd.new.run (pre ++ post)
    s.withChannel = s.calls := by
  have h1 := aux_fd_with_run pre Fd.new (by decide) (by decide) (.inr hp) (by constructor <;> simp [Fd.new])
  have h2 := aux_fd_with_run post (Fd.new.run pre) h1.2.1 h1.2.2 (.inl hc) h1.1
  simp only [Fd.run, List.foldl_append] at h2 ⊢
  exact h2.1.calls.symm

example : let pre : List FdOp := [.ref, .setHandler, .send .queued]; (∀ o ∈ pre, ∀ c, o ≠ .pause c) ∧ (Fd.new.run pre).channel = true ∧
    (Fd.new.run (pre ++ [.pause false, .round, .send .queued, .eof, .round, .roundEnd, .task])).withChannel = 1 := by
  refine ⟨?_, by decide, by decide +kernel⟩
  intro o ho c; simp at ho; rcases ho with h | h | h <;> subst h <;> simp

/-- The full statement, for histories in which the handler is set first: the handler is called at most once, and with the channel; when
everything ended the feeder was released with its references of the channel, and the handler was called if a message ended with the content; a
call that sends and answers false leaves the feeder to the application. -/
def C131_statement : Prop := ∀ ops : List FdOp, let s := Fd.new.run (.setHandler :: ops)
  s.calls ≤ 1 ∧ s.withChannel = s.calls ∧
  (s.app = 0 → s.msgs = 0 → s.tasks = 0 → s.released = 1 ∧ s.chanDrops = s.chanRefs ∧ (0 < s.completed → s.calls = 1)) ∧
  ∀ r, (s.step (.send r)).answers = s.answers ++ [false] → (s.step (.send r)).app = s.app

/-- The application asks for the status while the last frame is made: the handler is called twice. -/
theorem C131_twice : (Fd.new.run (.setHandler :: [.ref, .send .queued, .eof, .round, .ask 1, .roundEnd, .askEnd 1, .task, .task])).calls = 2 := by
  decide +kernel

/-- The application asks for the status before it sends a feeder without content: the handler is never called though a message ended with the
feeder, and its memory is never released. -/
theorem C131_early : let s := Fd.new.run (.setHandler :: [.eof, .ask 1, .askEnd 1, .send .queued, .round])
    s.completed = 1 ∧ s.calls = 0 ∧ s.app = 0 ∧ s.msgs = 0 ∧ s.tasks = 0 ∧ s.released = 0 := by
  decide +kernel

/-- The content ends while the pool is stopped: the same. -/
theorem C131_stopped : let s := Fd.new.run (.setHandler :: [.send .queued, .poolEnds, .eof, .round, .roundEnd])
    s.completed = 1 ∧ s.calls = 0 ∧ s.app = 0 ∧ s.msgs = 0 ∧ s.tasks = 0 ∧ s.released = 0 := by
  decide +kernel

/-- Two calls that send answer false; after one the application must release the feeder, after the other it was released. -/
theorem C131_owner : let s := Fd.new.run [.send .refused]; let t := Fd.new.run [.send .unqueued]
    s.answers = t.answers ∧ s.answers = [false] ∧ s.app = 1 ∧ s.released = 0 ∧ t.app = 0 ∧ t.released = 1 := by
  decide +kernel

/-- A feeder sent twice keeps a reference of its channel for ever. -/
theorem C131_leak : let s := Fd.new.run [.ref, .send .queued, .send .queued, .eof, .round, .round]
    s.released = 1 ∧ s.chanRefs = 2 ∧ s.chanDrops = 1 := by
  decide +kernel

/-- A feeder paused before it was sent: the reference the call that sends should take stays with the application, and the handler gets no
channel. -/
theorem C131_paused : let s := Fd.new.run (.setHandler :: [.pause false, .send .queued, .eof, .round, .roundEnd, .task])
    s.answers = [true] ∧ s.app = 1 ∧ s.released = 0 ∧ s.calls = 1 ∧ s.withChannel = 0 := by
  decide +kernel

theorem C131_statement_false : ¬ C131_statement := by
  intro h
  have := (h [.ref, .send .queued, .eof, .round, .ask 1, .roundEnd, .askEnd 1, .task, .task]).1
  rw [C131_twice] at this
  omega

end Verif.Props
