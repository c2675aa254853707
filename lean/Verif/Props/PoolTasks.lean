import Verif.Spec.PoolTasks
/-!
# C98: The tasks handed to the thread pool are run once, and the pool can be ended
-/
namespace Verif.Props
open Verif.Model Verif.Spec

/-- C98: whatever is done with the pool, no task is run twice; a task is run unless the pool is being ended, if no task waits any more; the
memory of a thread is not released twice; nothing crashes. -/
def C98_statement : Prop := ∀ ops : List TpOp, let r := tpRun .init [] ops
  TpEvent.crash ∉ r.2 ∧ (∀ t, r.2.count (.released t) ≤ 1) ∧ (∀ k, r.2.count (.began k) ≤ 1) ∧
  (tpIdle r.1 → (∀ op ∈ ops, op ≠ .close ∧ op ≠ .exiting) → ∀ k, TpEvent.queued k ∈ r.2 → TpEvent.began k ∈ r.2)

/-- How many steps of a run emit an event: appended logs. -/
theorem aux_tp_run_append (s : PoolTasks) (log : List TpEvent) (a b : List TpOp) :
    tpRun s log (a ++ b) = tpRun (tpRun s log a).1 (tpRun s log a).2 b := by
  induction a generalizing s log with
  | nil => rfl
  | cons x a ih => exact ih _ _

/-- Where task `k` is: in the queue, held by a thread, begun or dropped. -/
structure aux_tp_Loc (k : Nat) (s : PoolTasks) (log : List TpEvent) : Prop where
  loc : ∃ (ho po : Option Nat), (∀ t, s.thr t = .hold k ↔ ho = some t) ∧ (∀ c, s.callers c = some k ↔ po = some c) ∧
    s.queue.count (.task k) + log.count (.began k) + log.count (.dropped k) + (if ho.isSome then 1 else 0) = log.count (.queued k) ∧
    log.count (.queued k) + (if po.isSome then 1 else 0) ≤ 1 ∧
    (s.tasks ≤ k → po = none ∧ log.count (.queued k) = 0)

theorem aux_tp_loc_init (k : Nat) : aux_tp_Loc k .init [] :=
  ⟨none, none, by simp [PoolTasks.init], by simp [PoolTasks.init], by simp [PoolTasks.init], by simp, by simp⟩

/-- A step that concerns neither the task, its holder nor its caller. -/
theorem aux_tp_loc_same {k : Nat} {s s' : PoolTasks} {log evs : List TpEvent} (h : aux_tp_Loc k s log)
    (h1 : ∀ t, s'.thr t = .hold k ↔ s.thr t = .hold k) (h2 : ∀ c, s'.callers c = some k ↔ s.callers c = some k)
    (h3 : s'.queue.count (.task k) = s.queue.count (.task k)) (h4 : s.tasks ≤ s'.tasks)
    (h5 : evs.count (.began k) = 0) (h6 : evs.count (.dropped k) = 0) (h7 : evs.count (.queued k) = 0) :
    aux_tp_Loc k s' (log ++ evs) := by
  obtain ⟨ho, po, a, b, c, d, e⟩ := h.loc
  refine ⟨ho, po, fun t => (h1 t).trans (a t), fun x => (h2 x).trans (b x), ?_, ?_, ?_⟩
  · simp only [List.count_append, h3, h5, h6, h7, Nat.add_zero]; exact c
  · simp only [List.count_append, h7, Nat.add_zero]; exact d
  · intro hk; simp only [List.count_append, h7, Nat.add_zero]; exact e (by omega)

theorem aux_tp_set_hold {s : PoolTasks} {t k : Nat} {p : TpThread} (hp : p ≠ .hold k) (ho : s.thr t ≠ .hold k) (u : Nat) :
    (tpSet s t p).thr u = .hold k ↔ s.thr u = .hold k := by
  simp only [tpSet]
  by_cases h : u = t
  · subst h; simp [hp, ho]
  · simp [h]

theorem aux_tp_loc_go (k : Nat) (s : PoolTasks) (log : List TpEvent) (t : Nat) (h : aux_tp_Loc k s log) :
    aux_tp_Loc k (tpGo s t).1 (log ++ (tpGo s t).2) := by
  unfold tpGo
  cases ht : s.thr t with
  | none => simpa using h
  | ended => simpa using h
  | waiting =>
    cases hq : s.queue with
    | nil => simpa using h
    | cons i q =>
      have hne : s.thr t ≠ .hold k := by simp [ht]
      cases i with
      | task j =>
        by_cases hj : j = k
        · subst hj
          obtain ⟨ho, po, a, b, c, d, e⟩ := h.loc
          have hc : s.queue.count (.task j) = q.count (.task j) + 1 := by rw [hq]; simp
          have hn : ho = none := by
            cases ho with
            | none => rfl
            | some u => simp at c; omega
          refine ⟨some t, po, ?_, b, ?_, ?_, ?_⟩
          · intro u
            simp only [tpSet]
            by_cases hu : u = t
            · simp [hu]
            · have := a u; rw [hn] at this; simp [hu, Ne.symm hu] ; simpa using this
          · rw [hn] at c
            simp only [tpSet, List.count_append]
            simp at c ⊢; omega
          · simpa [List.count_append] using d
          · intro hk; simpa [List.count_append] using e hk
        · exact aux_tp_loc_same h (aux_tp_set_hold (by simpa using hj) hne) (fun _ => Iff.rfl)
            (by simp [tpSet, hq, hj]) (Nat.le_refl _) (by simp) (by simp) (by simp)
      | beacon =>
        refine aux_tp_loc_same h (aux_tp_set_hold (by simp) hne) (fun _ => Iff.rfl)
            (by simp [tpSet, hq]) (Nat.le_refl _) ?_ ?_ ?_ <;> dsimp only <;> split <;> simp
      | quit =>
        exact aux_tp_loc_same h (aux_tp_set_hold (by simp) hne) (fun _ => Iff.rfl)
            (by simp [tpSet, hq]) (Nat.le_refl _) (by simp) (by simp) (by simp)
      | join =>
        exact aux_tp_loc_same h (aux_tp_set_hold (by simp) hne) (fun _ => Iff.rfl)
            (by simp [tpSet, hq]) (Nat.le_refl _) (by simp) (by simp) (by simp)
  | hold j =>
    by_cases hj : j = k
    · subst hj
      obtain ⟨ho, po, a, b, c, d, e⟩ := h.loc
      have hs : ho = some t := (a t).1 ht
      have hn : ∀ p, p ≠ TpThread.hold j → ∀ u, (tpSet s t p).thr u = .hold j ↔ (none : Option Nat) = some u := by
        intro p hp u
        simp only [tpSet]
        by_cases hu : u = t
        · simp [hu, hp]
        · have := a u; rw [hs] at this; simp [Ne.symm hu] at this; simp [hu, this]
      dsimp only
      split
      · refine ⟨none, po, hn _ (by simp), b, ?_, ?_, ?_⟩
        · rw [hs] at c; simp only [tpSet, List.count_append]; simp at c ⊢; omega
        · simpa [List.count_append] using d
        · intro hk; simpa [List.count_append] using e hk
      · refine ⟨none, po, hn _ (by simp), b, ?_, ?_, ?_⟩
        · rw [hs] at c; simp only [tpSet, List.count_append]; simp at c ⊢; omega
        · simpa [List.count_append] using d
        · intro hk; simpa [List.count_append] using e hk
    · have hne : s.thr t ≠ .hold k := by rw [ht]; simpa using hj
      dsimp only
      split
      · exact aux_tp_loc_same h (aux_tp_set_hold (by simp) hne) (fun _ => Iff.rfl) rfl (Nat.le_refl _) (by simp) (by simp [hj]) (by simp)
      · exact aux_tp_loc_same h (aux_tp_set_hold (by simp) hne) (fun _ => Iff.rfl) rfl (Nat.le_refl _) (by simp [hj]) (by simp) (by simp)
  | running j =>
    have hne : s.thr t ≠ .hold k := by simp [ht]
    dsimp only
    split
    · simpa using h
    · exact aux_tp_loc_same h (aux_tp_set_hold (by simp) hne) (fun _ => Iff.rfl) rfl (Nat.le_refl _) (by simp) (by simp) (by simp)
  | collecting =>
    have hne : s.thr t ≠ .hold k := by simp [ht]
    dsimp only
    split
    · exact aux_tp_loc_same h (aux_tp_set_hold (by simp) hne) (fun _ => Iff.rfl) rfl (Nat.le_refl _) (by simp) (by simp) (by simp)
    · cases hst : s.stopped with
      | nil => exact aux_tp_loc_same h (aux_tp_set_hold (by simp) hne) (fun _ => Iff.rfl) rfl (Nat.le_refl _) (by simp) (by simp) (by simp)
      | cons u r =>
        dsimp only
        split
        · exact aux_tp_loc_same h (aux_tp_set_hold (by simp) hne) (fun _ => Iff.rfl) rfl (Nat.le_refl _) (by simp) (by simp) (by simp)
        · simpa using h
  | leaving =>
    have hne : s.thr t ≠ .hold k := by simp [ht]
    dsimp only
    split
    · exact aux_tp_loc_same h (aux_tp_set_hold (by simp) hne) (fun _ => Iff.rfl) rfl (Nat.le_refl _) (by simp) (by simp) (by simp)
    · exact aux_tp_loc_same h (aux_tp_set_hold (by simp) hne) (fun _ => Iff.rfl) rfl (Nat.le_refl _) (by simp) (by simp) (by simp)
  | bye =>
    have hne : s.thr t ≠ .hold k := by simp [ht]
    exact aux_tp_loc_same h (aux_tp_set_hold (by simp) hne) (fun _ => Iff.rfl) (by simp [tpSet]) (Nat.le_refl _) (by simp) (by simp) (by simp)

theorem aux_tp_map_count {l : List Nat} (e : TpEvent) (he : ∀ t, e ≠ .released t) : (l.map TpEvent.released).count e = 0 := by
  induction l with
  | nil => rfl
  | cons x l ih =>
    have := he x
    simp only [List.map_cons, List.count_cons, ih, Nat.zero_add]
    simp [Ne.symm this]

theorem aux_tp_loc_exitGo (k : Nat) (s : PoolTasks) (log : List TpEvent) (skip : Bool) (h : aux_tp_Loc k s log) :
    aux_tp_Loc k (tpExitGo skip s).1 (log ++ (tpExitGo skip s).2) := by
  have key : ∀ (s' : PoolTasks) (evs : List TpEvent), s'.thr = s.thr → s'.callers = s.callers →
      s'.queue.count (.task k) = s.queue.count (.task k) → s'.tasks = s.tasks →
      evs.count (.began k) = 0 → evs.count (.dropped k) = 0 → evs.count (.queued k) = 0 → aux_tp_Loc k s' (log ++ evs) := by
    intro s' evs e1 e2 e3 e4 e5 e6 e7
    exact aux_tp_loc_same h (by simp [e1]) (by simp [e2]) e3 (by omega) e5 e6 e7
  unfold tpExitGo
  cases s.exit with
  | no => simpa using h
  | done => simpa using h
  | beacons i =>
    dsimp only
    split
    · exact key _ _ rfl rfl (by simp) rfl (by simp) (by simp) (by simp)
    · split
      · exact key _ _ rfl rfl rfl rfl (aux_tp_map_count _ (by simp)) (aux_tp_map_count _ (by simp)) (aux_tp_map_count _ (by simp))
      · exact key _ _ rfl rfl rfl rfl (by simp) (by simp) (by simp)
  | threads => dsimp only; split <;> exact key _ _ rfl rfl rfl rfl (by simp) (by simp) (by simp)
  | joining t => dsimp only; split <;> exact key _ _ rfl rfl rfl rfl (by simp) (by simp) (by simp)
  | stopped =>
    dsimp only
    split
    · exact key _ _ rfl rfl rfl rfl (by simp) (by simp) (by simp)
    · split <;> exact key _ _ rfl rfl rfl rfl (by simp) (by simp) (by simp)

theorem aux_tp_loc_step (k : Nat) (s : PoolTasks) (log : List TpEvent) (op : TpOp) (hfresh : ∀ t, s.created ≤ t → s.thr t = .none)
    (h : aux_tp_Loc k s log) : aux_tp_Loc k (tpStep s op).1 (log ++ (tpStep s op).2) := by
  cases op with
  | go t => exact aux_tp_loc_go k s log t h
  | exitGo skip => exact aux_tp_loc_exitGo k s log skip h
  | add =>
    simp only [tpStep]
    split
    · exact aux_tp_loc_same h (fun _ => Iff.rfl) (fun _ => Iff.rfl) rfl (Nat.le_refl _) (by simp) (by simp) (by simp)
    · refine aux_tp_loc_same h (aux_tp_set_hold (by simp) ?_) (fun _ => Iff.rfl) rfl (Nat.le_refl _) (by simp) (by simp) (by simp)
      simp [hfresh]
  | remove n =>
    simp only [tpStep]
    split
    · exact aux_tp_loc_same h (fun _ => Iff.rfl) (fun _ => Iff.rfl) rfl (Nat.le_refl _) (by simp) (by simp) (by simp)
    · exact aux_tp_loc_same h (fun _ => Iff.rfl) (fun _ => Iff.rfl) (by simp [List.count_replicate]) (Nat.le_refl _) (by simp) (by simp) (by simp)
  | exiting => exact aux_tp_loc_same h (fun _ => Iff.rfl) (fun _ => Iff.rfl) rfl (Nat.le_refl _) (by simp [tpStep]) (by simp [tpStep]) (by simp [tpStep])
  | close =>
    simp only [tpStep]
    split <;> exact aux_tp_loc_same h (fun _ => Iff.rfl) (fun _ => Iff.rfl) rfl (Nat.le_refl _) (by simp) (by simp) (by simp)
  | exit self =>
    simp only [tpStep]
    split <;> exact aux_tp_loc_same h (fun _ => Iff.rfl) (fun _ => Iff.rfl) rfl (Nat.le_refl _) (by simp) (by simp) (by simp)
  | new c =>
    simp only [tpStep]
    cases hc : s.callers c with
    | some j => simpa using h
    | none =>
      dsimp only
      split
      · exact aux_tp_loc_same h (fun _ => Iff.rfl) (fun _ => Iff.rfl) rfl (Nat.le_succ _) (by simp) (by simp) (by simp)
      · by_cases hk : s.tasks = k
        · subst hk
          obtain ⟨ho, po, a, b, c', d, e⟩ := h.loc
          obtain ⟨e1, e2⟩ := e (Nat.le_refl _)
          refine ⟨ho, some c, a, ?_, ?_, ?_, ?_⟩
          · intro x
            by_cases hx : x = c
            · simp [hx]
            · have := b x; rw [e1] at this; simp at this; simp [hx, Ne.symm hx, this]
          · simpa using c'
          · simp [e2]
          · intro hk; dsimp only at hk; omega
        · refine aux_tp_loc_same h (fun _ => Iff.rfl) ?_ rfl (Nat.le_succ _) (by simp) (by simp) (by simp)
          intro x
          by_cases hx : x = c
          · simp [hx, hk, hc]
          · simp [hx]
  | push c =>
    simp only [tpStep]
    cases hc : s.callers c with
    | none => simpa using h
    | some j =>
      dsimp only
      by_cases hj : j = k
      · subst hj
        obtain ⟨ho, po, a, b, c', d, e⟩ := h.loc
        have hp : po = some c := (b c).1 hc
        have hcall : ∀ x, (if x = c then none else s.callers x) = some j ↔ (none : Option Nat) = some x := by
          intro x
          by_cases hx : x = c
          · simp [hx]
          · have := b x; rw [hp] at this; simp [Ne.symm hx] at this; simp [hx, this]
        have hlt : ¬ s.tasks ≤ j := by intro hk; rw [(e hk).1] at hp; cases hp
        split
        · refine ⟨ho, none, a, hcall, ?_, ?_, fun hk => absurd hk hlt⟩
          · simpa [List.count_append] using c'
          · rw [hp] at d; simp [List.count_append] at d ⊢; omega
        · refine ⟨ho, none, a, hcall, ?_, ?_, fun hk => absurd hk hlt⟩
          · simp [List.count_append] at c' ⊢; omega
          · rw [hp] at d; simp [List.count_append] at d ⊢; omega
      · have hcall : ∀ x, (if x = c then none else s.callers x) = some k ↔ s.callers x = some k := by
          intro x
          by_cases hx : x = c
          · simp [hx, hc, hj]
          · simp [hx]
        split
        · exact aux_tp_loc_same h (fun _ => Iff.rfl) hcall rfl (Nat.le_refl _) (by simp) (by simp) (by simp)
        · exact aux_tp_loc_same h (fun _ => Iff.rfl) hcall (by simp [hj]) (Nat.le_refl _) (by simp) (by simp) (by simp [hj])

/-- Threads not created yet. -/
theorem aux_tp_fresh_step (s : PoolTasks) (op : TpOp) (h : ∀ t, s.created ≤ t → s.thr t = .none) :
    ∀ t, (tpStep s op).1.created ≤ t → (tpStep s op).1.thr t = .none := by
  have set : ∀ (s' : PoolTasks) (u : Nat) (p : TpThread), s'.thr = s.thr → s'.created = s.created → s.thr u ≠ .none →
      ∀ t, (tpSet s' u p).created ≤ t → (tpSet s' u p).thr t = .none := by
    intro s' u p e1 e2 hu t ht
    simp only [tpSet] at ht ⊢
    by_cases hx : t = u
    · subst hx; exact absurd (h t (by omega)) hu
    · simp only [hx, if_false, e1]; exact h t (by omega)
  cases op with
  | go t =>
    simp only [tpStep, tpGo]
    cases ht : s.thr t with
    | none => exact h
    | ended => exact h
    | waiting =>
      cases s.queue with
      | nil => exact h
      | cons i q => cases i <;> exact set _ _ _ rfl rfl (by simp [ht])
    | hold k => dsimp only; split <;> exact set _ _ _ rfl rfl (by simp [ht])
    | running k =>
      dsimp only; split
      · exact h
      · exact set _ _ _ rfl rfl (by simp [ht])
    | collecting =>
      dsimp only; split
      · exact set _ _ _ rfl rfl (by simp [ht])
      · cases s.stopped with
        | nil => exact set _ _ _ rfl rfl (by simp [ht])
        | cons u r =>
          dsimp only; split
          · exact set _ _ _ rfl rfl (by simp [ht])
          · exact h
    | leaving => dsimp only; split <;> exact set _ _ _ rfl rfl (by simp [ht])
    | bye => exact set _ _ _ rfl rfl (by simp [ht])
  | exitGo skip => simp only [tpStep, tpExitGo]; (repeat' split) <;> exact h
  | add =>
    simp only [tpStep]; split
    · exact h
    · intro t ht
      simp only [tpSet] at ht ⊢
      have : t ≠ s.created := by omega
      simp only [this, if_false]
      exact h t (by omega)
  | remove n => simp only [tpStep]; split <;> exact h
  | exiting => exact h
  | close => simp only [tpStep]; split <;> exact h
  | exit self => simp only [tpStep]; split <;> exact h
  | new c => simp only [tpStep]; (repeat' split) <;> exact h
  | push c => simp only [tpStep]; (repeat' split) <;> exact h

theorem aux_tp_loc_run (k : Nat) (ops : List TpOp) : ∀ (s : PoolTasks) (log : List TpEvent), (∀ t, s.created ≤ t → s.thr t = .none) →
    aux_tp_Loc k s log → aux_tp_Loc k (tpRun s log ops).1 (tpRun s log ops).2 := by
  induction ops with
  | nil => intro s log _ h; exact h
  | cons op ops ih => intro s log hf h; exact ih _ _ (aux_tp_fresh_step s op hf) (aux_tp_loc_step k s log op hf h)

/-- **C98** (once): whatever is done, no task is run twice, and only tasks that were handed over are run. -/
theorem C98_once (ops : List TpOp) (k : Nat) :
    (tpRun .init [] ops).2.count (.began k) ≤ 1 ∧
    (TpEvent.began k ∈ (tpRun .init [] ops).2 → TpEvent.queued k ∈ (tpRun .init [] ops).2) := by
  obtain ⟨ho, po, a, b, c, d, e⟩ := (aux_tp_loc_run k ops .init [] (by simp [PoolTasks.init]) (aux_tp_loc_init k)).loc
  refine ⟨by omega, ?_⟩
  intro h
  have := List.count_pos_iff.2 h
  exact List.count_pos_iff.1 (by omega)

/-- **C98** (fate): whatever is done, when no task waits any more, each one handed over was run, or dropped, exactly once. -/
theorem C98_fate (ops : List TpOp) (hi : tpIdle (tpRun .init [] ops).1) (k : Nat) (hk : TpEvent.queued k ∈ (tpRun .init [] ops).2) :
    (tpRun .init [] ops).2.count (.began k) + (tpRun .init [] ops).2.count (.dropped k) = 1 := by
  obtain ⟨ho, po, a, b, c, d, e⟩ := (aux_tp_loc_run k ops .init [] (by simp [PoolTasks.init]) (aux_tp_loc_init k)).loc
  have h1 : (tpRun .init [] ops).1.queue.count (.task k) = 0 := List.count_eq_zero.2 (hi.1 k)
  have h2 : ho = none := by
    cases ho with
    | none => rfl
    | some t => exact absurd ((a t).2 rfl) (hi.2 t k)
  have h3 := List.count_pos_iff.2 hk
  rw [h2] at c
  simp at c
  omega

/-- Two tasks are run by two threads; a third is dropped because the pool is being ended. -/
def samplePool : List TpOp :=
  [.add, .add, .new 0, .push 0, .new 1, .push 1, .new 0, .push 0, .go 0, .go 0, .go 1, .go 1, .go 0, .go 0, .exiting, .close, .go 0,
   .exit none, .exitGo false, .exitGo false, .exitGo false, .exitGo false, .go 0, .go 1, .go 1, .exitGo false, .exitGo false, .exitGo false,
   .exitGo false, .exitGo false]

example : (tpRun .init [] samplePool).1.queue = [] ∧ (tpRun .init [] samplePool).2 =
    [.queued 0, .queued 1, .queued 2, .taken 0, .began 0, .taken 1, .began 1, .finished 0, .taken 2, .closed, .dropped 2, .finished 1,
     .released 0, .released 1, .exited] := by decide +kernel

/-- Tasks are dropped only when the library is being ended. -/
theorem aux_tp_dropped (k : Nat) (ops : List TpOp) (h : ∀ op ∈ ops, op ≠ .close ∧ op ≠ .exiting) : ∀ (s : PoolTasks) (log : List TpEvent),
    s.stopping = false → s.exiting = false → TpEvent.dropped k ∉ log → TpEvent.dropped k ∉ (tpRun s log ops).2 := by
  induction ops with
  | nil => intro s log _ _ h; exact h
  | cons op ops ih =>
    intro s log h1 h2 h3
    obtain ⟨n1, n2⟩ := h op List.mem_cons_self
    have key : (tpStep s op).1.stopping = false ∧ (tpStep s op).1.exiting = false ∧ TpEvent.dropped k ∉ (tpStep s op).2 := by
      cases op with
      | close => exact absurd rfl n1
      | exiting => exact absurd rfl n2
      | go t =>
        simp only [tpStep, tpGo]
        (repeat' split) <;> simp_all [tpSet]
      | exitGo skip => simp only [tpStep, tpExitGo]; (repeat' split) <;> simp_all
      | add => simp only [tpStep]; split <;> simp_all [tpSet]
      | remove n => simp only [tpStep]; split <;> simp_all
      | exit self => simp only [tpStep]; split <;> simp_all
      | new c => simp only [tpStep]; (repeat' split) <;> simp_all
      | push c => simp only [tpStep]; (repeat' split) <;> simp_all
    refine ih (fun o ho => h o (List.mem_cons_of_mem _ ho)) _ _ key.1 key.2.1 ?_
    intro hm
    rcases List.mem_append.1 hm with hm | hm
    · exact h3 hm
    · exact key.2.2 hm

/-- **C98** (run): unless the library is being ended, when no task waits any more each one handed over was run exactly once. -/
theorem C98_run (ops : List TpOp) (h : ∀ op ∈ ops, op ≠ .close ∧ op ≠ .exiting) (hi : tpIdle (tpRun .init [] ops).1) (k : Nat)
    (hk : TpEvent.queued k ∈ (tpRun .init [] ops).2) : (tpRun .init [] ops).2.count (.began k) = 1 := by
  have h1 := C98_fate ops hi k hk
  have h2 := List.count_eq_zero.2 (aux_tp_dropped k ops h .init [] rfl rfl (by simp))
  omega

/-- Two tasks, two threads, one of which is removed in between. -/
example : let ops : List TpOp := [.add, .add, .new 0, .push 0, .remove 1, .new 1, .push 1, .go 0, .go 1, .go 1, .go 1, .go 0, .go 0, .go 0, .go 0, .go 0,
      .go 0, .go 0]
    (∀ op ∈ ops, op ≠ .close ∧ op ≠ .exiting) ∧ (tpRun .init [] ops).1.queue = [] ∧
    (tpRun .init [] ops).2 = [.queued 0, .queued 1, .taken 0, .began 0, .finished 0, .taken 1, .began 1, .finished 1, .released 1] := by
  decide +kernel

/-- **C98** (order): tasks are taken in the order in which they were handed over, each once. -/
theorem C98_order (ops : List TpOp) : tpTaken (tpRun .init [] ops).2 <+: tpQueued (tpRun .init [] ops).2 := by
  let tk : List TpItem → List Nat := fun q => q.filterMap fun | .task k => some k | _ => none
  have key : ∀ (ops : List TpOp) (s : PoolTasks) (log : List TpEvent), tpTaken log ++ tk s.queue = tpQueued log →
      tpTaken (tpRun s log ops).2 ++ tk (tpRun s log ops).1.queue = tpQueued (tpRun s log ops).2 := by
    intro ops
    induction ops with
    | nil => intro s log h; exact h
    | cons op ops ih =>
      intro s log h
      refine ih _ _ ?_
      have same : ∀ (q : List TpItem) (evs : List TpEvent), tk q = tk s.queue → tpTaken evs = [] → tpQueued evs = [] →
          tpTaken (log ++ evs) ++ tk q = tpQueued (log ++ evs) := by
        intro q evs e1 e2 e3
        simp only [tpTaken, tpQueued, List.filterMap_append] at *
        rw [e2, e3, e1]; simpa using h
      have hmap : ∀ l : List Nat, tpTaken (l.map .released) = [] ∧ tpQueued (l.map .released) = [] := by
        intro l; induction l <;> simp_all [tpTaken, tpQueued]
      have hrep : ∀ n, tk (List.replicate n .quit) = [] := by
        intro n; induction n <;> simp_all [tk, List.replicate_succ]
      have happ : ∀ a b, tk (a ++ b) = tk a ++ tk b := fun a b => by simp [tk]
      cases op with
      | go t =>
        simp only [tpStep, tpGo]
        cases s.thr t with
        | none => exact same _ [] rfl rfl rfl
        | ended => exact same _ [] rfl rfl rfl
        | waiting =>
          cases hq : s.queue with
          | nil => exact same _ [] (by simp [hq]) rfl rfl
          | cons i q =>
            cases i with
            | task k =>
              rw [hq] at h
              simp only [tpTaken, tpQueued, List.filterMap_append, tk, tpSet] at h ⊢
              simpa using h
            | beacon => dsimp only; split <;> exact same _ _ (by simp [hq, tk, tpSet]) rfl rfl
            | quit => exact same _ _ (by simp [hq, tk, tpSet]) rfl rfl
            | join => exact same _ _ (by simp [hq, tk, tpSet]) rfl rfl
        | hold k => dsimp only; split <;> exact same _ _ rfl rfl rfl
        | running k => dsimp only; split <;> exact same _ _ rfl rfl rfl
        | collecting => dsimp only; (repeat' split) <;> exact same _ _ rfl rfl rfl
        | leaving => dsimp only; split <;> exact same _ _ rfl rfl rfl
        | bye => exact same _ _ (by simp [tk, tpSet]) rfl rfl
      | exitGo skip =>
        simp only [tpStep, tpExitGo]
        cases s.exit with
        | no => exact same _ [] rfl rfl rfl
        | done => exact same _ [] rfl rfl rfl
        | beacons i =>
          dsimp only; split
          · exact same _ _ (by simp [tk]) rfl rfl
          · split
            · exact same _ _ rfl (hmap _).1 (hmap _).2
            · exact same _ _ rfl rfl rfl
        | threads => dsimp only; split <;> exact same _ _ rfl rfl rfl
        | joining t => dsimp only; split <;> exact same _ _ rfl rfl rfl
        | stopped => dsimp only; (repeat' split) <;> exact same _ _ rfl rfl rfl
      | add => simp only [tpStep]; split <;> exact same _ _ rfl rfl rfl
      | remove n =>
        simp only [tpStep]; split
        · exact same _ _ rfl rfl rfl
        · exact same _ _ (by rw [happ, hrep]; simp) rfl rfl
      | exiting => exact same _ _ rfl rfl rfl
      | close => simp only [tpStep]; split <;> exact same _ _ rfl rfl rfl
      | exit self => simp only [tpStep]; split <;> exact same _ _ rfl rfl rfl
      | new c => simp only [tpStep]; (repeat' split) <;> exact same _ _ rfl rfl rfl
      | push c =>
        simp only [tpStep]
        cases s.callers c with
        | none => exact same _ _ rfl rfl rfl
        | some k =>
          dsimp only; split
          · exact same _ _ rfl rfl rfl
          · simp only [tpTaken, tpQueued, List.filterMap_append, tk] at h ⊢
            rw [← h]; simp
  have := key ops .init [] rfl
  exact ⟨_, this⟩

/-- **C98** (after closing): once the pool is being closed, no task is begun. -/
theorem C98_closed (ops : List TpOp) (before after : List TpEvent) (h : (tpRun .init [] ops).2 = before ++ .closed :: after) (k : Nat) :
    TpEvent.began k ∉ after := by
  have key : ∀ (ops : List TpOp) (s : PoolTasks) (log : List TpEvent), (TpEvent.closed ∈ log → s.stopping = true) →
      (∀ a b, log = a ++ .closed :: b → TpEvent.began k ∉ b) →
      ∀ a b, (tpRun s log ops).2 = a ++ .closed :: b → TpEvent.began k ∉ b := by
    intro ops
    induction ops with
    | nil => intro s log _ h; exact h
    | cons op ops ih =>
      intro s log h1 h2
      have hk : (s.stopping = true → (tpStep s op).1.stopping = true ∧ TpEvent.began k ∉ (tpStep s op).2) ∧
          (TpEvent.closed ∈ (tpStep s op).2 → (tpStep s op).1.stopping = true ∧ (tpStep s op).2 = [.closed]) := by
        cases op with
        | go t => simp only [tpStep, tpGo]; (repeat' split) <;> simp_all [tpSet]
        | exitGo skip => simp only [tpStep, tpExitGo]; (repeat' split) <;> simp_all
        | add => simp only [tpStep]; split <;> simp_all [tpSet]
        | remove n => simp only [tpStep]; split <;> simp_all
        | exiting => simp [tpStep]
        | close => simp only [tpStep]; split <;> simp_all
        | exit self => simp only [tpStep]; split <;> simp_all
        | new c => simp only [tpStep]; (repeat' split) <;> simp_all
        | push c => simp only [tpStep]; (repeat' split) <;> simp_all
      refine ih _ _ ?_ ?_
      · intro hm
        rcases List.mem_append.1 hm with hm | hm
        · exact (hk.1 (h1 hm)).1
        · exact (hk.2 hm).1
      · intro a b hab
        have hnew : ∀ a', (tpStep s op).2 = a' ++ .closed :: b → TpEvent.began k ∉ b := by
          intro a' e
          have := (hk.2 (by rw [e]; simp)).2
          rw [this] at e
          have hb : b = [] := by
            have := congrArg List.length e
            simp at this
            exact List.eq_nil_of_length_eq_zero (by omega)
          simp [hb]
        rcases List.append_eq_append_iff.1 hab with ⟨a', _, e2⟩ | ⟨c', e1, e2⟩
        · exact hnew a' e2
        · cases c' with
          | nil => exact hnew [] (by simpa using e2.symm)
          | cons x c'' =>
            simp only [List.cons_append, List.cons.injEq] at e2
            obtain ⟨ex, eb⟩ := e2
            subst ex
            have hc : TpEvent.closed ∈ log := by rw [e1]; simp
            intro hm
            rw [eb] at hm
            rcases List.mem_append.1 hm with hm | hm
            · exact h2 a c'' e1 hm
            · exact (hk.1 (h1 hc)).2 hm
  exact key ops .init [] (by simp) (by simp) before after h

/-- **C98** (after the end was announced): once the library is being ended, no task is begun, also before the pool is closed. -/
theorem C98_exiting (a b : List TpOp) : ∃ later, (tpRun .init [] (a ++ .exiting :: b)).2 = (tpRun .init [] a).2 ++ later ∧
    ∀ k, TpEvent.began k ∉ later := by
  have split : ∀ (a b : List TpOp) (s : PoolTasks) (log : List TpEvent), tpRun s log (a ++ b) = tpRun (tpRun s log a).1 (tpRun s log a).2 b := by
    intro a
    induction a with
    | nil => intros; rfl
    | cons op a ih => intro b s log; exact ih b _ _
  have key : ∀ (b : List TpOp) (s : PoolTasks) (log : List TpEvent), s.exiting = true →
      ∃ later, (tpRun s log b).2 = log ++ later ∧ ∀ k, TpEvent.began k ∉ later := by
    intro b
    induction b with
    | nil => intro s log _; exact ⟨[], by simp [tpRun], by simp⟩
    | cons op b ih =>
      intro s log h1
      have hk : (tpStep s op).1.exiting = true ∧ ∀ k, TpEvent.began k ∉ (tpStep s op).2 := by
        cases op with
        | go t => simp only [tpStep, tpGo]; (repeat' split) <;> simp_all [tpSet]
        | exitGo skip => simp only [tpStep, tpExitGo]; (repeat' split) <;> simp_all
        | add => simp only [tpStep]; split <;> simp_all [tpSet]
        | remove n => simp only [tpStep]; split <;> simp_all
        | exiting => simp [tpStep]
        | close => simp only [tpStep]; split <;> simp_all
        | exit self => simp only [tpStep]; split <;> simp_all
        | new c => simp only [tpStep]; (repeat' split) <;> simp_all
        | push c => simp only [tpStep]; (repeat' split) <;> simp_all
      obtain ⟨later, h2, h3⟩ := ih (tpStep s op).1 (log ++ (tpStep s op).2) hk.1
      refine ⟨(tpStep s op).2 ++ later, by simp only [tpRun]; rw [h2, List.append_assoc], ?_⟩
      intro k hm
      rcases List.mem_append.1 hm with hm | hm
      · exact hk.2 k hm
      · exact h3 k hm
  rw [split]
  obtain ⟨later, h2, h3⟩ := key b (tpStep (tpRun .init [] a).1 .exiting).1 ((tpRun .init [] a).2 ++ []) rfl
  exact ⟨later, by simpa [tpRun, tpStep] using h2, h3⟩

/-- A task was taken already, another one waits: none of them is begun. -/
example : (tpRun .init [] ([.add, .new 0, .push 0, .new 0, .push 0, .go 0] ++ .exiting :: [.go 0, .go 0, .go 0])).2 =
    [.queued 0, .queued 1, .taken 0] ++ [.dropped 0, .taken 1, .dropped 1] := by decide

end Verif.Props
