import Verif.Model.ThreadPool
/-!
# C35: size of the thread pool
-/
namespace Verif.Props
open Verif.Model

/-- Requests to end threads not served yet. -/
def quitsPending (p : Pool) : Nat := p.queue.count .quit + p.leaving

/-- C35 in full: automatic resizing never takes the pool above the limit set, and the pool is never left
without threads. -/
def C35_statement : Prop :=
  (∀ (n : Nat) (ops : List PoolOp) (w : Nat) (a r : Bool), 0 < n →
    let p := (Pool.init n).run ops
    ((p.resize w a r).threads : Int) ≤ max (p.threads : Int) p.config.maxThreads) ∧
  (∀ (n : Nat) (ops : List PoolOp), 0 < n → 0 < ((Pool.init n).run ops).threads)

/-- Limit 5, steps of 3, 4 threads: the pool goes to 7. -/
theorem C35_over_limit :
    let p := (Pool.init 4).run [.setup 5 3 1 false, .newTask]
    p.threads = 4 ∧ p.config.maxThreads = 5 ∧ (p.resize 0 true false).threads = 7 := by decide +kernel

/-- Two requests to remove one thread, before the first is served, end both threads of the pool; tasks are
never served again. -/
theorem C35_no_threads :
    (Pool.init 2).run [.remove 1, .remove 1, .take, .take, .leave, .leave, .newTask, .take] =
      { Pool.init 2 with threads := 0, stopped := 2, queue := [.join, .join, .task] } := by decide +kernel

theorem C35_statement_false : ¬ C35_statement := by
  intro h
  have := h.2 2 [.remove 1, .remove 1, .take, .take, .leave, .leave] (by decide)
  exact absurd this (by decide +kernel)

/-- C35, limit, the part that holds: a resize leaves the pool below limit plus step. -/
theorem C35_limit_partial (p : Pool) (w : Nat) (a r : Bool) :
    ((p.resize w a r).threads : Int) ≤ max (p.threads : Int) (p.config.maxThreads + p.config.addStep - 1) := by
  simp only [Pool.resize, Pool.add, Pool.remove]
  split
  · split
    · dsimp only; omega
    · split <;> first | omega | (dsimp only; omega)
  · omega

/-- C35, limit: with steps of one thread the limit is respected. -/
theorem C35_limit_step_one (p : Pool) (w : Nat) (a r : Bool) (h : p.config.addStep ≤ 1) :
    ((p.resize w a r).threads : Int) ≤ max (p.threads : Int) p.config.maxThreads := by
  have := C35_limit_partial p w a r
  omega

/-- C35, limit, over histories: once set up, as long as threads are not added by hand and the settings do not
change, the pool never has more threads than it had or than limit plus step less one. -/
theorem C35_limit_history_partial (p : Pool) (ops : List PoolOp)
    (h : ∀ op ∈ ops, (∀ n, op ≠ .add n) ∧ ∀ m a r b, op ≠ .setup m a r b) :
    (p.run ops).config = p.config ∧
    ((p.run ops).threads : Int) ≤ max (p.threads : Int) (p.config.maxThreads + p.config.addStep - 1) := by
  induction ops generalizing p with
  | nil => exact ⟨rfl, by simp only [Pool.run]; omega⟩
  | cons op ops ih =>
    obtain ⟨h1, h2⟩ := ih (p.step op) (fun o ho => h o (List.mem_cons_of_mem _ ho))
    have key : (p.step op).config = p.config ∧
        ((p.step op).threads : Int) ≤ max (p.threads : Int) (p.config.maxThreads + p.config.addStep - 1) := by
      cases op with
      | setup m a r b => exact absurd rfl ((h _ List.mem_cons_self).2 m a r b)
      | add n => exact absurd rfl ((h _ List.mem_cons_self).1 n)
      | remove n => exact ⟨rfl, by simp only [Pool.step, Pool.remove]; omega⟩
      | newTask => exact ⟨rfl, by simp only [Pool.step]; omega⟩
      | take =>
        simp only [Pool.step]
        split
        · split <;> exact ⟨rfl, by first | omega | (dsimp only; omega)⟩
        · exact ⟨rfl, by omega⟩
      | leave =>
        simp only [Pool.step]
        split
        · exact ⟨rfl, by dsimp only; omega⟩
        · exact ⟨rfl, by omega⟩
      | resize w a r =>
        refine ⟨?_, C35_limit_partial p w a r⟩
        simp only [Pool.step, Pool.resize, Pool.add, Pool.remove]
        split
        · split
          · rfl
          · split <;> rfl
        · rfl
    simp only [Pool.run]
    rw [key.1] at h1 h2
    exact ⟨h1, by omega⟩

theorem aux_quits (n running : Nat) (h : 0 < running) : quitsToPush n running < running := by
  induction n generalizing running with
  | zero => simpa [quitsToPush] using h
  | succ n ih =>
    simp only [quitsToPush]
    split
    · have := ih (running - 1) (by omega)
      omega
    · omega

/-- Removals, asked for or automatic, are begun only when the last ones have been served. -/
def RemovesServed (p : Pool) : List PoolOp → Prop
  | [] => True
  | op :: ops => (((∃ n, op = .remove n) ∨ ∃ w a r, op = .resize w a r) → quitsPending p = 0) ∧
      RemovesServed (p.step op) ops

theorem aux_count_append (q : List PoolItem) (n : Nat) :
    (q ++ List.replicate n PoolItem.quit).count .quit = q.count .quit + n := by
  rw [List.count_append, List.count_replicate_self]

theorem aux_pstep (p : Pool) (op : PoolOp) (hi : quitsPending p < p.threads)
    (h : ((∃ n, op = .remove n) ∨ ∃ w a r, op = .resize w a r) → quitsPending p = 0) :
    quitsPending (p.step op) < (p.step op).threads := by
  have hrem : ∀ n, quitsPending p = 0 → quitsPending (p.remove n) < (p.remove n).threads := by
    intro n h0
    have := aux_quits n p.threads (by omega)
    simp only [quitsPending, Pool.remove, aux_count_append] at *
    omega
  cases op with
  | setup m a r b => exact hi
  | add n => simp only [Pool.step, Pool.add, quitsPending] at *; omega
  | remove n => exact hrem n (h (.inl ⟨n, rfl⟩))
  | newTask =>
    simp only [Pool.step, quitsPending, List.count_append] at *
    have : [PoolItem.task].count .quit = 0 := by decide
    omega
  | take =>
    simp only [Pool.step]
    split
    · split
      · exact hi
      · rename_i q hq
        simp only [quitsPending, hq] at *
        rw [List.count_cons_of_ne (by decide)] at hi
        exact hi
      · rename_i q hq
        simp only [quitsPending, hq] at *
        rw [List.count_cons_self] at hi
        omega
      · rename_i q hq
        simp only [quitsPending, hq] at *
        rw [List.count_cons_of_ne (by decide)] at hi
        exact hi
    · exact hi
  | leave =>
    simp only [Pool.step]
    split
    · simp only [quitsPending, List.count_append] at *
      have : [PoolItem.join].count .quit = 0 := by decide
      omega
    · exact hi
  | resize w a r =>
    have h0 := h (.inr ⟨w, a, r, rfl⟩)
    simp only [Pool.step, Pool.resize]
    split
    · split
      · simp only [Pool.add, quitsPending] at *; omega
      · split
        · exact hrem _ h0
        · exact hi
    · exact hi

/-- C35, removal, the part that holds: if no removal is begun before the last ones have been served, the pool
always keeps a thread that has not been asked to end. Missing: overlapping removals (`C35_no_threads`). -/
theorem C35_keeps_one_partial (n : Nat) (ops : List PoolOp) (hn : 0 < n) (h : RemovesServed (Pool.init n) ops) :
    quitsPending ((Pool.init n).run ops) < ((Pool.init n).run ops).threads := by
  have key : ∀ (ops : List PoolOp) (p : Pool), quitsPending p < p.threads → RemovesServed p ops →
      quitsPending (p.run ops) < (p.run ops).threads := by
    intro ops
    induction ops with
    | nil => intro p hp _; exact hp
    | cons op ops ih => intro p hp hs; exact ih _ (aux_pstep p op hp hs.1) hs.2
  exact key ops _ (by simpa [quitsPending, Pool.init] using hn) h

/-- Automatic removal alone needs less: it is only begun with an empty queue, so it is enough that no thread is
between taking its request and leaving the list. -/
theorem C35_automatic_partial (p : Pool) (w : Nat) (a r : Bool) (hl : p.leaving = 0)
    (hi : quitsPending p < p.threads) : quitsPending (p.resize w a r) < (p.resize w a r).threads := by
  simp only [Pool.resize]
  split
  · split
    · simp only [Pool.add, quitsPending] at *; omega
    · split
      · rename_i hc
        have hq := hc.2.1
        have := aux_quits p.config.removeStep p.threads (by omega)
        simp only [quitsPending, Pool.remove, aux_count_append, hq, hl] at *
        simp only [List.count_nil]
        omega
      · exact hi
  · exact hi

example : RemovesServed (Pool.init 4) [.setup 8 2 2 true, .newTask, .remove 2, .take, .take, .leave, .take, .leave,
    .resize 0 true true] := by
  refine ⟨?_, ?_, ?_, ?_, ?_, ?_, ?_, ?_, ?_, trivial⟩ <;> rintro (⟨n, h⟩ | ⟨w, a, r, h⟩) <;>
    cases h <;> decide +kernel
example : ((Pool.init 4).run [.setup 8 2 2 true, .newTask, .remove 2, .take, .take, .leave, .take, .leave,
    .resize 0 true true]).threads = 4 := by decide +kernel

end Verif.Props
