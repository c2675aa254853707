import Verif.Spec.CtxStart
/-!
# C132: starting a context, ending it and starting it again in a child
-/
namespace Verif.Props
open Verif.Model Verif.Spec

/-- What an application does that follows the documentation: it starts a context that has no threads in this process and was not ended, has a
reference when it calls, starts the context in a child before it ends it there, and calls `vortex_ctx_reinit` only in a child. The threads of
the pool can be created. -/
def ItFair (s : It) : ItOp → Prop
  | .init e => s.readers = 0 ∧ s.senders = 0 ∧ s.workers = 0 ∧ s.ended = false ∧ 0 < s.app ∧ e.want ≤ e.got
  | .exit _ => 0 < s.app ∧ (s.initialized = true → s.ended = false → s.senders = 1)
  | .fork => True
  | .reinit => 0 < s.app ∧ s.readers = 0 ∧ s.senders = 0 ∧ s.workers = 0
  | .free => True

def ItFairRun (s : It) : List ItOp → Prop
  | [] => True
  | o :: ops => ItFair s o ∧ ItFairRun (s.step o) ops

structure ItInv (s : It) : Prop where
  bad : s.bad = false
  refs : s.app + s.senders + s.workers ≤ s.refs
  freed : s.freed = true ↔ s.refs = 0
  reader : 0 < s.readers → s.app < s.refs
  readers : s.readers ≤ 1
  senders : s.senders ≤ s.readers
  mem : s.ended = false → s.queue ≠ .freed ∧ s.stopped ≠ .freed ∧ s.seqBuffer ≠ .freed
  ended : s.ended = true → itLeft s = false
  init : s.senders = 1 → s.initialized = true ∧ s.ended = false
  work : 0 < s.workers → s.senders = 1

theorem aux_it_drop (s : It) : s.drop = { s with refs := s.refs - 1, freed := s.freed || decide (s.refs = 1), bad := s.bad || decide (s.refs = 0) } := by
  simp only [It.drop]
  split
  · simp_all
  · split <;> simp_all

set_option maxHeartbeats 4000000 in
theorem aux_it_step (s : It) (op : ItOp) (h : ItInv s) (hf : ItFair s op) : ItInv (s.step op) := by
  obtain ⟨h1, h2, h3, h4, h5, h6, h7, h8, h9, h10⟩ := h
  cases op <;> simp only [It.step, It.init, It.exit, It.readerRun, It.senderRun, It.poolRun, aux_it_drop] <;> simp only [ItFair] at hf
  all_goals
    repeat' split
    all_goals first
      | exact ⟨h1, h2, h3, h4, h5, h6, h7, h8, h9, h10⟩
      | (constructor <;> grind [itLeft])

theorem aux_it_new : ItInv It.new := by constructor <;> simp [It.new]

theorem aux_it_run (ops : List ItOp) : ∀ s : It, ItInv s → ItFairRun s ops → ItInv (s.run ops) := by
  induction ops with
  | nil => intro s h _; exact h
  | cons o ops ih => intro s h hf; exact ih _ (aux_it_step s o h hf.1) hf.2

/-- **C132**, part: in an application that follows the documentation, calls may fail: no released memory is used, no thread that does not exist
is waited for, there is never more than one thread that reads and one that sends, the context is not released while one of them runs, and when
the context was ended nothing of it is left: no thread, and no memory of its modules. -/
theorem C132_safe_partial (ops : List ItOp) (hf : ItFairRun It.new ops) : let s := It.new.run ops
    s.bad = false ∧ s.readers ≤ 1 ∧ s.senders ≤ 1 ∧ (s.freed = true → s.readers = 0 ∧ s.senders = 0 ∧ s.workers = 0) ∧
    (s.ended = true → itLeft s = false) := by
  obtain ⟨h1, h2, h3, h4, h5, h6, h7, h8, h9, h10⟩ := aux_it_run ops _ aux_it_new hf
  refine ⟨h1, h5, by omega, ?_, h8⟩
  grind

example : ItFairRun It.new [.init ⟨false, true, true, 4, 4⟩, .init ⟨true, false, true, 4, 4⟩, .init ⟨true, true, true, 4, 4⟩, .fork, .reinit,
    .init ⟨true, true, true, 4, 4⟩, .exit true] ∧ (It.new.run [.init ⟨false, true, true, 4, 4⟩, .init ⟨true, false, true, 4, 4⟩,
    .init ⟨true, true, true, 4, 4⟩, .fork, .reinit, .init ⟨true, true, true, 4, 4⟩, .exit true]).freed = true := by
  simp only [ItFairRun, ItFair]; decide +kernel

/-- **C132**, part: a call that starts the context answers true exactly when the DTD is there and both threads could be created; then they
run, with those of the pool, and the library says so. -/
theorem C132_started_partial (ops : List ItOp) (e : ItEnv) (hf : ItFairRun It.new (ops ++ [.init e])) :
    let s := It.new.run ops; let t := s.step (.init e)
    (t.answers = s.answers ++ [(s.dtd || e.dtd) && e.reader && e.sender]) ∧
    (t.answers = s.answers ++ [true] → t.initialized = true ∧ t.ended = false ∧ t.readers = 1 ∧ t.senders = 1 ∧ t.workers = e.want) := by
  have hx : ∀ (ops : List ItOp) (s : It), ItFairRun s (ops ++ [.init e]) → ItFair (s.run ops) (.init e) := by
    intro ops
    induction ops with
    | nil => intro s h; exact h.1
    | cons o ops ih => intro s h; exact ih _ h.2
  have h := hx ops _ hf
  simp only [ItFair] at h
  obtain ⟨a1, a2, a3, a4, a5, a6⟩ := h
  generalize It.new.run ops = s at a1 a2 a3 a4 a5 ⊢
  have hm := Nat.min_eq_left a6
  cases hd : (s.dtd || e.dtd) <;> cases hr : e.reader <;> cases hs : e.sender <;>
    simp [It.step, It.init, It.readerRun, It.senderRun, It.poolRun, hd, hr, hs, hm, a1, a2, a3, a4]

example : ItFairRun It.new ([.init ⟨true, false, true, 4, 4⟩] ++ [.init ⟨true, true, true, 4, 4⟩]) ∧
    (It.new.run [.init ⟨true, false, true, 4, 4⟩, .init ⟨true, true, true, 4, 4⟩]).answers = [false, true] := by
  refine ⟨⟨by simp only [ItFair]; decide, by simp only [ItFair]; decide, trivial⟩, by decide +kernel⟩

/-- The context is only started when nobody else has a reference (a child calls `vortex_ctx_reinit` before), and the thread that sends can be
created. -/
def ItStrict (s : It) : ItOp → Prop
  | .init e => s.refs = s.app ∧ e.sender = true
  | _ => True

def ItStrictRun (s : It) : List ItOp → Prop
  | [] => True
  | o :: ops => ItStrict s o ∧ ItStrictRun (s.step o) ops

structure ItExact (s : It) : Prop where
  run : s.senders = 1 → s.refs = s.app + 1 + s.workers
  ended : s.ended = true → s.refs = s.app

set_option maxHeartbeats 4000000 in
theorem aux_it_exact (s : It) (op : ItOp) (h : ItInv s) (hf : ItFair s op) (hs : ItStrict s op) (he : ItExact s) : ItExact (s.step op) := by
  obtain ⟨h1, h2, h3, h4, h5, h6, h7, h8, h9, h10⟩ := h
  obtain ⟨e1, e2⟩ := he
  cases op <;> simp only [It.step, It.init, It.exit, It.readerRun, It.senderRun, It.poolRun, aux_it_drop] <;>
    simp only [ItFair, ItStrict] at hf hs
  all_goals
    repeat' split
    all_goals first
      | exact ⟨e1, e2⟩
      | (constructor <;> grind)

theorem aux_it_exactRun (ops : List ItOp) : ∀ s : It, ItInv s → ItFairRun s ops → ItStrictRun s ops → ItExact s → ItExact (s.run ops) := by
  induction ops with
  | nil => intro s _ _ _ h; exact h
  | cons o ops ih =>
    intro s h hf hs he
    exact ih _ (aux_it_step s o h hf.1) hf.2 hs.2 (aux_it_exact s o h hf.1 hs.1 he)

/-- **C132**, part: then the context is released exactly when it was ended and the application dropped its references. -/
theorem C132_released_partial (ops : List ItOp) (hf : ItFairRun It.new ops) (hs : ItStrictRun It.new ops) : let s := It.new.run ops
    s.ended = true → (s.freed = true ↔ s.app = 0) := by
  intro s he
  have hi := aux_it_run ops _ aux_it_new hf
  have hx := aux_it_exactRun ops _ aux_it_new hf hs (by constructor <;> simp [It.new])
  rw [hi.freed, hx.ended he]

example : let ops : List ItOp := [.init ⟨true, true, true, 4, 4⟩, .fork, .reinit, .init ⟨true, true, true, 4, 4⟩, .exit false, .free]
    ItFairRun It.new ops ∧ ItStrictRun It.new ops ∧ (It.new.run ops).ended = true ∧ (It.new.run ops).freed = true := by
  simp only [ItFairRun, ItFair, ItStrictRun, ItStrict]; decide +kernel

/-- The full statement: no call uses released memory or threads that do not exist; a context that was released left nothing behind; a context
that does not run, or was ended, is released when the application drops its reference. -/
def C132_statement : Prop := ∀ ops : List ItOp, let s := It.new.run ops
  s.bad = false ∧ (s.freed = true → itLeft s = false) ∧ (s.app = 0 → s.initialized = false ∨ s.ended = true → s.freed = true)

/-- The thread that sends could not be created: the call says that the context was not started, but its reader runs, whatever the application
calls to end or to release the context, and the context is never released. -/
theorem C132_left (ops : List ItOp) (ho : ∀ o ∈ ops, o = .free ∨ ∃ b, o = .exit b) : let s := It.new.run (.init ⟨true, true, false, 4, 4⟩ :: ops)
    s.answers = [false] ∧ s.readers = 1 ∧ itLeft s = true ∧ s.freed = false ∧ s.bad = false := by
  have key : ∀ (ops : List ItOp) (s : It), (∀ o ∈ ops, o = .free ∨ ∃ b, o = .exit b) →
      (s.answers = [false] ∧ s.readers = 1 ∧ s.freed = false ∧ s.bad = false ∧ s.initialized = false ∧ s.app < s.refs) →
      ((s.run ops).answers = [false] ∧ (s.run ops).readers = 1 ∧ (s.run ops).freed = false ∧ (s.run ops).bad = false ∧
        (s.run ops).initialized = false ∧ (s.run ops).app < (s.run ops).refs) := by
    intro ops
    induction ops with
    | nil => intro s _ h; exact h
    | cons o ops ih =>
      intro s ho h
      refine ih (s.step o) (fun o hm => ho o (List.mem_cons_of_mem _ hm)) ?_
      obtain ⟨h1, h2, h3, h4, h5, h6⟩ := h
      rcases ho o List.mem_cons_self with hq | ⟨b, hq⟩ <;> subst hq
      · simp only [It.step, aux_it_drop]
        split
        · refine ⟨h1, h2, ?_, ?_, h5, ?_⟩ <;> grind
        · exact ⟨h1, h2, h3, h4, h5, h6⟩
      · simp only [It.step, It.exit, h5, h3, h4]
        simp [*]
  have := key ops (It.new.step (.init ⟨true, true, false, 4, 4⟩)) ho (by decide)
  obtain ⟨h1, h2, h3, h4, h5, h6⟩ := this
  change (It.new.run (.init ⟨true, true, false, 4, 4⟩ :: ops)).readers = 1 at h2
  refine ⟨h1, h2, ?_, h3, h4⟩
  simp only [itLeft, h2]
  simp

/-- Starting it again then releases the queue the first reader waits on. -/
theorem C132_retry : (It.new.run [.init ⟨true, true, false, 4, 4⟩, .init ⟨true, true, true, 4, 4⟩]).bad = true := by decide +kernel

/-- The DTD could not be parsed: mutexes and lists stay when the context is released. -/
theorem C132_modules : let s := It.new.run [.init ⟨false, true, true, 4, 4⟩, .exit true, .free]
    s.answers = [false] ∧ s.freed = true ∧ itLeft s = true := by decide +kernel

/-- A thread of the pool could not be created: the call waits for a thread that does not exist, and answers true without a pool. -/
theorem C132_pool : let s := It.new.run [.init ⟨true, true, true, 4, 0⟩]
    s.bad = true ∧ s.answers = [true] ∧ s.workers = 0 := by decide +kernel

/-- A context that was ended is started again: released memory is used; the call answers true, though the context stays ended. -/
theorem C132_again : let s := It.new.run [.init ⟨true, true, true, 4, 4⟩, .exit false, .init ⟨true, true, true, 4, 4⟩]
    s.bad = true ∧ s.answers = [true, true] ∧ s.ended = true := by decide +kernel

/-- A child that starts the context, but does not call `vortex_ctx_reinit` before, never releases it. -/
theorem C132_child : let s := It.new.run [.init ⟨true, true, true, 4, 4⟩, .fork, .init ⟨true, true, true, 4, 4⟩, .exit true]
    s.bad = false ∧ s.ended = true ∧ s.app = 0 ∧ s.freed = false := by decide +kernel

theorem C132_statement_false : ¬ C132_statement := by
  intro h
  have := (h [.init ⟨true, true, true, 4, 0⟩]).1
  rw [C132_pool.1] at this
  cases this

end Verif.Props
