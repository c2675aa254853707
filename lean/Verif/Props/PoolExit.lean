import Verif.Props.PoolTasks
/-!
# C98, the end of the thread pool
-/
namespace Verif.Props
open Verif.Model Verif.Spec

def aux_tx_alive : TpThread → Bool
  | .none | .bye | .ended => false
  | _ => true

/-- Before `vortex_thread_pool_exit`. -/
structure aux_tx_J (s : PoolTasks) (log : List TpEvent) : Prop where
  nd : (s.threads ++ s.stopped).Nodup
  al : ∀ t, t ∈ s.threads ↔ aux_tx_alive (s.thr t) = true
  st : ∀ t ∈ s.stopped, s.thr t = .bye ∨ s.thr t = .ended
  by_ : ∀ t, s.thr t = .bye → t ∈ s.stopped
  rel : ∀ t, TpEvent.released t ∈ log → s.thr t = .ended ∧ t ∉ s.stopped
  one : ∀ t, log.count (.released t) ≤ 1
  nb : TpItem.beacon ∉ s.queue
  nc : TpEvent.crash ∉ log
  fresh : ∀ t, s.created ≤ t → s.thr t = .none
  all : ∀ t, t < s.created → t ∈ s.threads ∨ t ∈ s.stopped ∨ TpEvent.released t ∈ log
  ex : s.exit = .no
  se : s.self = none

theorem aux_tx_J_init : aux_tx_J .init [] :=
  ⟨by simp [PoolTasks.init], by simp [PoolTasks.init, aux_tx_alive], by simp [PoolTasks.init], by simp [PoolTasks.init], by simp, by simp,
    by simp [PoolTasks.init], by simp, by simp [PoolTasks.init], by simp [PoolTasks.init], rfl, rfl⟩

/-- A step that changes neither threads nor their lists. -/
theorem aux_tx_J_same {s s' : PoolTasks} {log evs : List TpEvent} (h : aux_tx_J s log) (h1 : s'.thr = s.thr) (h2 : s'.threads = s.threads)
    (h3 : s'.stopped = s.stopped) (h4 : s'.created = s.created) (h5 : s'.exit = s.exit) (h6 : s'.self = s.self)
    (h7 : TpItem.beacon ∉ s'.queue) (h8 : ∀ t, TpEvent.released t ∉ evs) (h9 : TpEvent.crash ∉ evs) : aux_tx_J s' (log ++ evs) := by
  obtain ⟨nd, al, st, by_, rel, one, nb, nc, fresh, all, ex, se⟩ := h
  have hr : ∀ t, TpEvent.released t ∈ log ++ evs ↔ TpEvent.released t ∈ log := by
    intro t; simp [h8]
  refine ⟨by rw [h2, h3]; exact nd, by rw [h1, h2]; exact al, by rw [h1, h3]; exact st, by rw [h1, h3]; exact by_, ?_, ?_, h7, ?_,
    by rw [h1, h4]; exact fresh, ?_, h5.trans ex, h6.trans se⟩
  · intro t ht; rw [h1, h3]; exact rel t ((hr t).1 ht)
  · intro t; rw [List.count_append, List.count_eq_zero.2 (h8 t)]; exact one t
  · simp [nc, h9]
  · intro t ht; rw [h2, h3, hr]; exact all t (by omega)

/-- A thread goes on, staying in its list. -/
theorem aux_tx_J_set {s : PoolTasks} {log evs : List TpEvent} {q : List TpItem} {t : Nat} {p : TpThread} (h : aux_tx_J s log)
    (h1 : aux_tx_alive (s.thr t) = true) (h2 : aux_tx_alive p = true) (h7 : TpItem.beacon ∉ q)
    (h8 : ∀ t, TpEvent.released t ∉ evs) (h9 : TpEvent.crash ∉ evs) : aux_tx_J (tpSet { s with queue := q } t p) (log ++ evs) := by
  obtain ⟨nd, al, st, by_, rel, one, nb, nc, fresh, all, ex, se⟩ := h
  have hr : ∀ t, TpEvent.released t ∈ log ++ evs ↔ TpEvent.released t ∈ log := by
    intro t; simp [h8]
  have hp1 : p ≠ .bye := by rintro rfl; simp [aux_tx_alive] at h2
  have ht1 : s.thr t ≠ .bye ∧ s.thr t ≠ .ended ∧ s.thr t ≠ .none := by
    refine ⟨?_, ?_, ?_⟩ <;> (intro e; rw [e] at h1; simp [aux_tx_alive] at h1)
  refine ⟨nd, ?_, ?_, ?_, ?_, ?_, h7, ?_, ?_, ?_, ex, se⟩
  · intro u
    simp only [tpSet]
    by_cases hu : u = t
    · subst hu; simp [h2, (al u).2 h1]
    · simp only [hu, if_false]; exact al u
  · intro u hu
    simp only [tpSet] at hu ⊢
    by_cases hx : u = t
    · subst hx; rcases st u hu with h | h
      · exact absurd h ht1.1
      · exact absurd h ht1.2.1
    · simp only [hx, if_false]; exact st u hu
  · intro u hu
    simp only [tpSet] at hu ⊢
    by_cases hx : u = t
    · simp [hx, hp1] at hu
    · simp only [hx, if_false] at hu; exact by_ u hu
  · intro u hu
    obtain ⟨a, b⟩ := rel u ((hr u).1 hu)
    simp only [tpSet]
    by_cases hx : u = t
    · subst hx; exact absurd a ht1.2.1
    · simp only [hx, if_false]; exact ⟨a, b⟩
  · intro u; rw [List.count_append, List.count_eq_zero.2 (h8 u)]; exact one u
  · simp [nc, h9]
  · intro u hu
    simp only [tpSet] at hu ⊢
    by_cases hx : u = t
    · subst hx; exact absurd (fresh u hu) ht1.2.2
    · simp only [hx, if_false]; exact fresh u hu
  · intro u hu
    simp only [tpSet] at hu ⊢
    rw [hr]; exact all u hu

theorem aux_tx_J_step (s : PoolTasks) (log : List TpEvent) (op : TpOp) (h : aux_tx_J s log) (hex : (tpStep s op).1.exit = .no) :
    aux_tx_J (tpStep s op).1 (log ++ (tpStep s op).2) := by
  have hd : s.exit ≠ .done := by rw [h.ex]; simp
  cases op with
  | go t =>
    simp only [tpStep, tpGo]
    cases ht : s.thr t with
    | none => simpa using h
    | ended => simpa using h
    | waiting =>
      cases hq : s.queue with
      | nil => simpa using h
      | cons i q =>
        have hb := h.nb
        rw [hq] at hb
        have hb' : TpItem.beacon ∉ q := fun e => hb (List.mem_cons_of_mem _ e)
        cases i with
        | task k => exact aux_tx_J_set h (by simp [ht, aux_tx_alive]) rfl hb' (by simp) (by simp)
        | beacon => exact absurd List.mem_cons_self hb
        | quit => exact aux_tx_J_set h (by simp [ht, aux_tx_alive]) rfl hb' (by simp) (by simp)
        | join => exact aux_tx_J_set h (by simp [ht, aux_tx_alive]) rfl hb' (by simp) (by simp)
    | hold k =>
      dsimp only
      split
      · exact aux_tx_J_set h (by simp [ht, aux_tx_alive]) rfl h.nb (by simp) (by simp)
      · exact aux_tx_J_set h (by simp [ht, aux_tx_alive]) rfl h.nb (by simp) (by simp)
    | running k =>
      dsimp only
      split
      · simpa using h
      · exact aux_tx_J_set h (by simp [ht, aux_tx_alive]) rfl h.nb (by simp) (by simp)
    | collecting =>
      simp only [hd, if_false]
      cases hst : s.stopped with
      | nil => exact aux_tx_J_set h (by simp [ht, aux_tx_alive]) rfl h.nb (by simp) (by simp)
      | cons u r =>
        dsimp only
        split
        · next hu =>
          have hJ := aux_tx_J_set (t := t) (q := s.queue) (evs := []) (p := .waiting) h (by simp [ht, aux_tx_alive]) rfl h.nb (by simp) (by simp)
          have hut : u ≠ t := by rintro rfl; rw [ht] at hu; cases hu
          obtain ⟨nd, al, st, by_, rel, one, nb, nc, fresh, all, ex, se⟩ := hJ
          simp only [tpSet, List.append_nil] at nd al st by_ rel one nb nc fresh all ex se
          have hnu : TpEvent.released u ∉ log := fun e => (rel u e).2 (by rw [hst]; simp)
          have hnd : u ∉ r ∧ (s.threads ++ r).Nodup ∧ u ∉ s.threads := by
            rw [hst] at nd
            simp only [List.nodup_append, List.nodup_cons, List.mem_cons, forall_eq_or_imp] at nd ⊢
            refine ⟨nd.2.1.1, ⟨nd.1, nd.2.1.2, fun a ha => (nd.2.2 a ha).2⟩, fun e => (nd.2.2 u e).1 rfl⟩
          refine ⟨hnd.2.1, al, ?_, ?_, ?_, ?_, nb, ?_, fresh, ?_, ex, se⟩
          · intro v hv; exact st v (by rw [hst]; exact List.mem_cons_of_mem _ hv)
          · intro v hv
            have := by_ v hv
            rw [hst] at this
            rcases List.mem_cons.1 this with e | e
            · subst e
              simp only [tpSet] at hv
              rw [if_neg hut, hu] at hv; cases hv
            · exact e
          · intro v hv
            rcases List.mem_append.1 hv with e | e
            · obtain ⟨a, b⟩ := rel v e
              refine ⟨a, fun e => b (by rw [hst]; exact List.mem_cons_of_mem _ e)⟩
            · have : v = u := by simpa using e
              subst this
              refine ⟨?_, hnd.1⟩
              simp only [tpSet]
              rw [if_neg hut]; exact hu
          · intro v
            rw [List.count_append]
            by_cases hv : v = u
            · subst hv; rw [List.count_eq_zero.2 hnu]; simp
            · have := one v; simp [Ne.symm hv]; omega
          · simp [nc]
          · intro v hv
            rcases all v hv with e | e | e
            · exact .inl e
            · rw [hst] at e
              rcases List.mem_cons.1 e with e | e
              · subst e; right; right; simp
              · exact .inr (.inl e)
            · right; right; simp [e]
        · simpa using h
    | leaving =>
      simp only [hd, if_false]
      obtain ⟨nd, al, st, by_, rel, one, nb, nc, fresh, all, ex, se⟩ := h
      have htm : t ∈ s.threads := (al t).2 (by simp [ht, aux_tx_alive])
      have hnt : s.threads.Nodup := (List.nodup_append.1 nd).1
      have hts : t ∉ s.stopped := fun e => by rcases st t e with e | e <;> rw [ht] at e <;> cases e
      simp only [List.append_nil]
      refine ⟨?_, ?_, ?_, ?_, ?_, one, nb, nc, ?_, ?_, ex, se⟩
      · simp only [tpSet]
        have hp : (s.threads.erase t ++ (s.stopped ++ [t])).Perm (s.threads ++ s.stopped) := by
          have h1 : s.threads.Perm (t :: s.threads.erase t) := List.perm_cons_erase htm
          have h2 : (s.stopped ++ [t]).Perm (t :: s.stopped) := by simpa using List.perm_append_comm (l₁ := s.stopped) (l₂ := [t])
          exact ((List.Perm.append_left _ h2).trans List.perm_middle).trans (List.Perm.append_right _ h1.symm)
        exact hp.nodup_iff.2 nd
      · intro u
        simp only [tpSet]
        by_cases hu : u = t
        · subst hu
          simp only [if_true, aux_tx_alive]
          constructor
          · intro hm; exact absurd hm (List.Nodup.not_mem_erase hnt)
          · intro hm; cases hm
        · simp only [hu, if_false]
          rw [List.mem_erase_of_ne hu]; exact al u
      · intro u hu
        simp only [tpSet] at hu ⊢
        by_cases hx : u = t
        · simp [hx]
        · simp only [hx, if_false]
          exact st u (by simpa [hx] using hu)
      · intro u hu
        simp only [tpSet] at hu ⊢
        by_cases hx : u = t
        · simp [hx]
        · simp only [hx, if_false] at hu
          exact List.mem_append_left _ (by_ u hu)
      · intro u hu
        obtain ⟨a, b⟩ := rel u hu
        have hx : u ≠ t := by rintro rfl; rw [ht] at a; cases a
        simp only [tpSet, hx, if_false]
        exact ⟨a, by simp [b, hx]⟩
      · intro u hu
        simp only [tpSet] at hu ⊢
        have hx : u ≠ t := by rintro rfl; have := fresh u hu; rw [ht] at this; cases this
        simp only [hx, if_false]; exact fresh u hu
      · intro u hu
        simp only [tpSet] at hu ⊢
        by_cases hx : u = t
        · right; left; simp [hx]
        · rw [List.mem_erase_of_ne hx]
          rcases all u hu with e | e | e
          · exact .inl e
          · exact .inr (.inl (List.mem_append_left _ e))
          · exact .inr (.inr e)
    | bye =>
      obtain ⟨nd, al, st, by_, rel, one, nb, nc, fresh, all, ex, se⟩ := h
      simp only [List.append_nil]
      have hts := by_ t ht
      refine ⟨nd, ?_, ?_, ?_, ?_, one, ?_, nc, ?_, all, ex, se⟩
      · intro u
        simp only [tpSet]
        by_cases hu : u = t
        · subst hu
          simp only [if_true]
          rw [al u, ht]; simp [aux_tx_alive]
        · simp only [hu, if_false]; exact al u
      · intro u hu
        simp only [tpSet] at hu ⊢
        by_cases hx : u = t
        · simp [hx]
        · simp only [hx, if_false]; exact st u hu
      · intro u hu
        simp only [tpSet] at hu ⊢
        by_cases hx : u = t
        · simp [hx] at hu
        · simp only [hx, if_false] at hu; exact by_ u hu
      · intro u hu
        obtain ⟨a, b⟩ := rel u hu
        simp only [tpSet]
        by_cases hx : u = t
        · subst hx; exact absurd hts b
        · simp only [hx, if_false]; exact ⟨a, b⟩
      · simp [tpSet, nb]
      · intro u hu
        simp only [tpSet] at hu ⊢
        have hx : u ≠ t := by rintro rfl; have := fresh u hu; rw [ht] at this; cases this
        simp only [hx, if_false]; exact fresh u hu
  | exitGo skip =>
    simp only [tpStep, tpExitGo, h.ex]
    simpa using h
  | add =>
    simp only [tpStep, hd, if_false]
    obtain ⟨nd, al, st, by_, rel, one, nb, nc, fresh, all, ex, se⟩ := h
    simp only [List.append_nil]
    have hf := fresh s.created (Nat.le_refl _)
    have hnt : s.created ∉ s.threads := by rw [al, hf]; simp [aux_tx_alive]
    have hns : s.created ∉ s.stopped := fun e => by rcases st _ e with e | e <;> rw [hf] at e <;> cases e
    refine ⟨?_, ?_, ?_, ?_, ?_, one, nb, nc, ?_, ?_, ex, se⟩
    · simp only [tpSet]
      have hp : ((s.threads ++ [s.created]) ++ s.stopped).Perm (s.created :: (s.threads ++ s.stopped)) := by
        simpa using List.perm_middle (l₁ := s.threads) (a := s.created) (l₂ := s.stopped)
      refine hp.nodup_iff.2 (List.nodup_cons.2 ⟨?_, nd⟩)
      simp [hnt, hns]
    · intro u
      simp only [tpSet]
      by_cases hu : u = s.created
      · simp [hu, aux_tx_alive]
      · simp only [hu, if_false, List.mem_append, List.mem_singleton, or_false]; exact al u
    · intro u hu
      simp only [tpSet] at hu ⊢
      have hx : u ≠ s.created := by rintro rfl; exact hns hu
      simp only [hx, if_false]; exact st u hu
    · intro u hu
      simp only [tpSet] at hu ⊢
      by_cases hx : u = s.created
      · simp [hx] at hu
      · simp only [hx, if_false] at hu; exact by_ u hu
    · intro u hu
      obtain ⟨a, b⟩ := rel u hu
      have hx : u ≠ s.created := by rintro rfl; rw [hf] at a; cases a
      simp only [tpSet, hx, if_false]; exact ⟨a, b⟩
    · intro u hu
      simp only [tpSet] at hu ⊢
      have hx : u ≠ s.created := by omega
      simp only [hx, if_false]; exact fresh u (by omega)
    · intro u hu
      simp only [tpSet] at hu ⊢
      by_cases hx : u = s.created
      · left; simp [hx]
      · rcases all u (by omega) with e | e | e
        · left; simp [e]
        · exact .inr (.inl e)
        · exact .inr (.inr e)
  | remove n =>
    simp only [tpStep, hd, if_false]
    exact aux_tx_J_same h rfl rfl rfl rfl rfl rfl (by simp [h.nb]) (by simp) (by simp)
  | exiting => exact aux_tx_J_same h rfl rfl rfl rfl rfl rfl h.nb (by simp [tpStep]) (by simp [tpStep])
  | close =>
    simp only [tpStep, hd, if_false]
    exact aux_tx_J_same h rfl rfl rfl rfl rfl rfl h.nb (by simp) (by simp)
  | exit self =>
    simp only [tpStep] at hex ⊢
    split
    · next hc => rw [if_pos hc] at hex; cases hex
    · simpa using h
  | new c =>
    simp only [tpStep]
    (repeat' split) <;> exact aux_tx_J_same h rfl rfl rfl rfl rfl rfl h.nb (by simp) (by simp)
  | push c =>
    simp only [tpStep, hd, if_false]
    split
    · simpa using h
    · exact aux_tx_J_same h rfl rfl rfl rfl rfl rfl (by simp [h.nb]) (by simp) (by simp)

/-- `vortex_thread_pool_exit` is never undone. -/
theorem aux_tx_exit_mono (s : PoolTasks) (op : TpOp) (h : s.exit ≠ .no) : (tpStep s op).1.exit ≠ .no := by
  cases op with
  | go t => simp only [tpStep, tpGo]; (repeat' split) <;> exact h
  | exitGo skip => simp only [tpStep, tpExitGo]; (repeat' split) <;> first | exact h | simp
  | add => simp only [tpStep]; split <;> exact h
  | remove n => simp only [tpStep]; split <;> exact h
  | exiting => exact h
  | close => simp only [tpStep]; split <;> exact h
  | exit self => simp only [tpStep]; split <;> first | exact h | simp
  | new c => simp only [tpStep]; (repeat' split) <;> exact h
  | push c => simp only [tpStep]; (repeat' split) <;> exact h

theorem aux_tx_J_run (ops : List TpOp) : ∀ (s : PoolTasks) (log : List TpEvent), aux_tx_J s log →
    (tpRun s log ops).1.exit = .no → aux_tx_J (tpRun s log ops).1 (tpRun s log ops).2 := by
  induction ops with
  | nil => intro s log h _; exact h
  | cons op ops ih =>
    intro s log h hex
    have hno : (tpStep s op).1.exit = .no := by
      refine Classical.byContradiction fun hn => ?_
      have key : ∀ (ops : List TpOp) (s : PoolTasks) (log : List TpEvent), s.exit ≠ .no → (tpRun s log ops).1.exit ≠ .no := by
        intro ops
        induction ops with
        | nil => intro s log h; exact h
        | cons o os ih2 => intro s log h; exact ih2 _ _ (aux_tx_exit_mono s o h)
      exact key ops _ _ hn hex
    exact ih _ _ (aux_tx_J_step s log op h hno) hex

/-- The sum of `f` below `n`. -/
def aux_tx_sum (f : Nat → Nat) : Nat → Nat
  | 0 => 0
  | n + 1 => aux_tx_sum f n + f n

theorem aux_tx_sum_congr {f g : Nat → Nat} : ∀ n, (∀ u < n, f u = g u) → aux_tx_sum f n = aux_tx_sum g n
  | 0, _ => rfl
  | n + 1, h => by
    simp only [aux_tx_sum]
    rw [aux_tx_sum_congr n fun u hu => h u (by omega), h n (by omega)]

theorem aux_tx_sum_set (w : TpThread → Nat) (f : Nat → TpThread) (t : Nat) (p : TpThread) : ∀ n, t < n →
    aux_tx_sum (fun u => w (if u = t then p else f u)) n + w (f t) = aux_tx_sum (fun u => w (f u)) n + w p
  | 0, h => by omega
  | n + 1, h => by
    simp only [aux_tx_sum]
    by_cases hn : n = t
    · subst hn
      rw [aux_tx_sum_congr (g := fun u => w (f u)) n (fun u hu => by simp [Nat.ne_of_lt hu])]
      simp; omega
    · have := aux_tx_sum_set w f t p n (by omega)
      simp only [hn, if_false]; omega

def aux_tx_one (p : TpThread) : Nat := if aux_tx_alive p = true then 1 else 0

/-- The threads of the pool that did not end. -/
def aux_tx_A (s : PoolTasks) : Nat := aux_tx_sum (fun t => aux_tx_one (s.thr t)) s.created

theorem aux_tx_sum_filter (f : Nat → TpThread) (n : Nat) :
    aux_tx_sum (fun t => aux_tx_one (f t)) n = ((List.range n).filter fun t => aux_tx_alive (f t)).length := by
  induction n with
  | zero => rfl
  | succ n ih =>
    simp only [aux_tx_sum, ih, List.range_succ, List.filter_append, List.length_append]
    by_cases h : aux_tx_alive (f n) = true <;> simp [h, aux_tx_one]

/-- The beacons that are still to be pushed. -/
def aux_tx_todo (s : PoolTasks) : Nat :=
  match s.exit with
  | .beacons i => s.threads.length - i
  | _ => 0

/-- While the pool is being ended, and after. -/
structure aux_tx_K (s : PoolTasks) (log : List TpEvent) : Prop where
  ex : s.exit ≠ .no
  sp : s.stopping = true
  ca : ∀ c, s.callers c = none
  qu : ∀ i ∈ s.queue, i ≠ .quit ∧ i ≠ .join
  th : ∀ t, s.thr t ≠ .leaving ∧ s.thr t ≠ .bye ∧ s.thr t ≠ .collecting
  nd : (s.threads ++ s.stopped).Nodup
  st : ∀ t ∈ s.stopped, s.thr t = .ended
  al : ∀ t, aux_tx_alive (s.thr t) = true → t ∈ s.threads ∨ s.self = some t
  jo : ∀ t, s.exit = .joining t → t ∈ s.threads
  fin : s.exit = .stopped ∨ s.exit = .done → s.threads = []
  fin2 : s.exit = .done → s.stopped = []
  rel : ∀ t, TpEvent.released t ∈ log → t ∉ s.threads ∧ t ∉ s.stopped
  one : ∀ t, log.count (.released t) ≤ 1
  nc : TpEvent.crash ∉ log
  fresh : ∀ t, s.created ≤ t → s.thr t = .none
  ne : ∀ t, t < s.created → s.thr t ≠ .none
  all : ∀ t, t < s.created → t ∈ s.threads ∨ t ∈ s.stopped ∨ TpEvent.released t ∈ log
  lt : ∀ t ∈ s.threads, t < s.created
  bc : s.queue.count .beacon + aux_tx_todo s = aux_tx_A s

theorem aux_tx_K_init {s : PoolTasks} {log : List TpEvent} (h : aux_tx_J s log) (hs : s.stopping = true) (hq : tpQuiet s) (self : Option Nat) :
    aux_tx_K { s with exit := .beacons 0, self := self } log := by
  obtain ⟨nd, al, st, by_, rel, one, nb, nc, fresh, all, ex, se⟩ := h
  obtain ⟨q1, q2, q3, q4⟩ := hq
  have hst : ∀ t ∈ s.stopped, s.thr t = .ended := fun t ht => (st t ht).resolve_left (q3 t).2.1
  refine ⟨by simp, hs, q4, ?_, q3, nd, hst, fun t ht => .inl ((al t).2 ht), by simp, by simp, by simp, ?_, one, nc, fresh, ?_, all, ?_, ?_⟩
  · intro i hi
    exact ⟨by rintro rfl; exact q1 hi, by rintro rfl; exact q2 hi⟩
  · intro t ht
    refine ⟨fun e => ?_, (rel t ht).2⟩
    have := (al t).1 e
    rw [(rel t ht).1] at this; simp [aux_tx_alive] at this
  · intro t ht e
    rcases all t ht with h | h | h
    · have := (al t).1 h; simp only at e; rw [e] at this; simp [aux_tx_alive] at this
    · have := hst t h; simp only at e; rw [e] at this; cases this
    · have := (rel t h).1; simp only at e; rw [e] at this; cases this
  · intro t ht
    refine Nat.lt_of_not_le fun hl => ?_
    have := (al t).1 ht
    rw [fresh t hl] at this; simp [aux_tx_alive] at this
  · simp only [aux_tx_todo, aux_tx_A, aux_tx_sum_filter, List.count_eq_zero.2 nb]
    have hp : s.threads.Perm ((List.range s.created).filter fun t => aux_tx_alive (s.thr t)) := by
      refine (List.perm_ext_iff_of_nodup (List.nodup_append.1 nd).1 (List.nodup_range.sublist List.filter_sublist)).2 fun t => ?_
      rw [al t, List.mem_filter, List.mem_range]
      constructor
      · intro e
        refine ⟨Nat.lt_of_not_le fun hl => ?_, e⟩
        rw [fresh t hl] at e; simp [aux_tx_alive] at e
      · exact fun e => e.2
    rw [hp.length_eq]; omega

/-- A thread goes on. -/
theorem aux_tx_K_set {s : PoolTasks} {log evs : List TpEvent} {q : List TpItem} {t : Nat} {p : TpThread} (h : aux_tx_K s log)
    (h1 : aux_tx_alive (s.thr t) = true) (h2 : p = .waiting ∨ (∃ k, p = .hold k) ∨ (∃ k, p = .running k) ∨ p = .ended)
    (h3 : ∀ i ∈ q, i ∈ s.queue) (h4 : q.count .beacon + aux_tx_one (s.thr t) = s.queue.count .beacon + aux_tx_one p)
    (h8 : ∀ t, TpEvent.released t ∉ evs) (h9 : TpEvent.crash ∉ evs) : aux_tx_K (tpSet { s with queue := q } t p) (log ++ evs) := by
  obtain ⟨ex, sp, ca, qu, th, nd, st, al, jo, fin, fin2, rel, one, nc, fresh, ne, all, lt, bc⟩ := h
  have hr : ∀ t, TpEvent.released t ∈ log ++ evs ↔ TpEvent.released t ∈ log := by
    intro t; simp [h8]
  have ht1 : s.thr t ≠ .ended ∧ s.thr t ≠ .none := by
    refine ⟨?_, ?_⟩ <;> (intro e; rw [e] at h1; simp [aux_tx_alive] at h1)
  have htc : t < s.created := Nat.lt_of_not_le fun hl => ht1.2 (fresh t hl)
  refine ⟨ex, sp, ca, fun i hi => qu i (h3 i hi), ?_, nd, ?_, ?_, jo, fin, fin2, ?_, ?_, ?_, ?_, ?_, ?_, lt, ?_⟩
  · intro u
    simp only [tpSet]
    by_cases hu : u = t
    · rcases h2 with rfl | ⟨k, rfl⟩ | ⟨k, rfl⟩ | rfl <;> simp [hu]
    · simp only [hu, if_false]; exact th u
  · intro u hu
    simp only [tpSet] at hu ⊢
    by_cases hx : u = t
    · subst hx; exact absurd (st u hu) ht1.1
    · simp only [hx, if_false]; exact st u hu
  · intro u hu
    simp only [tpSet] at hu ⊢
    by_cases hx : u = t
    · subst hx; exact al u h1
    · simp only [hx, if_false] at hu; exact al u hu
  · intro u hu; exact rel u ((hr u).1 hu)
  · intro u; rw [List.count_append, List.count_eq_zero.2 (h8 u)]; exact one u
  · simp [nc, h9]
  · intro u hu
    simp only [tpSet] at hu ⊢
    have hx : u ≠ t := by omega
    simp only [hx, if_false]; exact fresh u hu
  · intro u hu
    simp only [tpSet] at hu ⊢
    by_cases hx : u = t
    · rcases h2 with rfl | ⟨k, rfl⟩ | ⟨k, rfl⟩ | rfl <;> simp [hx]
    · simp only [hx, if_false]; exact ne u hu
  · intro u hu; rw [hr]; exact all u hu
  · have e := aux_tx_sum_set aux_tx_one s.thr t p s.created htc
    have : aux_tx_todo (tpSet { s with queue := q } t p) = aux_tx_todo s := rfl
    rw [this]
    simp only [aux_tx_A, tpSet] at bc ⊢
    omega

/-- The number of threads does not change what was seen. -/
theorem aux_tx_K_nil {s : PoolTasks} {log : List TpEvent} (h : aux_tx_K s log) : aux_tx_K s (log ++ []) := by simpa using h

theorem aux_tx_K_go (s : PoolTasks) (log : List TpEvent) (t : Nat) (h : aux_tx_K s log) :
    aux_tx_K (tpGo s t).1 (log ++ (tpGo s t).2) := by
  simp only [tpGo]
  cases ht : s.thr t with
  | none => exact aux_tx_K_nil h
  | ended => exact aux_tx_K_nil h
  | leaving => exact absurd ht (h.th t).1
  | bye => exact absurd ht (h.th t).2.1
  | collecting => exact absurd ht (h.th t).2.2
  | waiting =>
    cases hq : s.queue with
    | nil => exact aux_tx_K_nil h
    | cons i q =>
      have hm : ∀ j ∈ q, j ∈ s.queue := fun j hj => by rw [hq]; exact List.mem_cons_of_mem _ hj
      cases i with
      | task k => exact aux_tx_K_set h (by simp [ht, aux_tx_alive]) (.inr (.inl ⟨k, rfl⟩)) hm (by simp [hq, ht, aux_tx_one, aux_tx_alive]) (by simp) (by simp)
      | quit => exact absurd rfl (h.qu .quit (by rw [hq]; simp)).1
      | join => exact absurd rfl (h.qu .join (by rw [hq]; simp)).2
      | beacon =>
        dsimp only
        rw [if_pos h.sp]
        exact aux_tx_K_set (t := t) h (by simp [ht, aux_tx_alive]) (.inr (.inr (.inr rfl))) hm (by simp [hq, ht, aux_tx_one, aux_tx_alive]) (by simp) (by simp)
  | hold k =>
    dsimp only
    rw [if_pos (by simp [h.sp])]
    exact aux_tx_K_set (q := s.queue) (t := t) h (by simp [ht, aux_tx_alive]) (.inl rfl) (fun _ hi => hi) (by simp [ht, aux_tx_one, aux_tx_alive]) (by simp) (by simp)
  | running k =>
    dsimp only
    split
    · exact aux_tx_K_nil h
    · exact aux_tx_K_set (q := s.queue) (t := t) h (by simp [ht, aux_tx_alive]) (.inl rfl) (fun _ hi => hi) (by simp [ht, aux_tx_one, aux_tx_alive]) (by simp) (by simp)

theorem aux_tx_K_exitGo (s : PoolTasks) (log : List TpEvent) (h : aux_tx_K s log) :
    aux_tx_K (tpExitGo false s).1 (log ++ (tpExitGo false s).2) := by
  have h0 := h
  obtain ⟨ex, sp, ca, qu, th, nd, st, al, jo, fin, fin2, rel, one, nc, fresh, ne, all, lt, bc⟩ := h
  cases he : s.exit with
  | no => exact absurd he ex
  | done => simp only [tpExitGo, he]; exact aux_tx_K_nil h0
  | beacons i =>
    simp only [tpExitGo, he]
    simp only [aux_tx_todo, he] at bc
    by_cases hi : i < s.threads.length
    · simp only [hi, if_true, List.append_nil]
      refine ⟨by simp, sp, ca, ?_, th, nd, st, al, by simp, by simp, by simp, rel, one, nc, fresh, ne, all, lt, ?_⟩
      · intro j hj
        rcases List.mem_append.1 hj with e | e
        · exact qu j e
        · have : j = .beacon := by simpa using e
          subst this; simp
      · simp only [aux_tx_todo, List.count_append, aux_tx_A] at bc ⊢
        simp; omega
    · simp only [hi, if_false, List.append_nil, Bool.false_eq_true]
      refine ⟨by simp, sp, ca, qu, th, nd, st, al, by simp, by simp, by simp, rel, one, nc, fresh, ne, all, lt, ?_⟩
      simp only [aux_tx_todo, aux_tx_A] at bc ⊢
      omega
  | threads =>
    simp only [aux_tx_todo, he] at bc
    cases hth : s.threads with
    | nil =>
      have e : tpExitGo false s = ({ s with exit := .stopped }, []) := by simp [tpExitGo, he, hth]
      rw [e, List.append_nil]
      refine ⟨by simp, sp, ca, qu, th, nd, st, al, by simp, fun _ => hth, by simp, rel, one, nc, fresh, ne, all, lt, ?_⟩
      simpa [aux_tx_todo, aux_tx_A] using bc
    | cons t r =>
      have e : tpExitGo false s = ({ s with exit := .joining t }, []) := by simp [tpExitGo, he, hth]
      rw [e, List.append_nil]
      refine ⟨by simp, sp, ca, qu, th, nd, st, al, ?_, by simp, by simp, rel, one, nc, fresh, ne, all, lt, ?_⟩
      · intro u hu; simp only [TpExit.joining.injEq] at hu; subst hu; simp [hth]
      · simpa [aux_tx_todo, aux_tx_A] using bc
  | joining t =>
    simp only [tpExitGo, he]
    simp only [aux_tx_todo, he] at bc
    have htm := jo t he
    have hnd := List.nodup_append.1 nd
    have hnt : TpEvent.released t ∉ log := fun e => (rel t e).1 htm
    have hts : t ∉ s.stopped := fun e => hnd.2.2 t htm t e rfl
    by_cases hc : s.thr t = .ended ∨ s.self = some t
    · simp only [hc, if_true]
      refine ⟨by simp, sp, ca, qu, th, ?_, st, ?_, by simp, by simp, by simp, ?_, ?_, ?_, fresh, ne, ?_, fun u hu => lt u (List.mem_of_mem_erase hu), ?_⟩
      · exact nd.sublist (List.Sublist.append_right List.erase_sublist _)
      · intro u hu
        by_cases hx : u = t
        · subst hx
          rcases hc with e | e
          · simp only [e, aux_tx_alive] at hu; cases hu
          · exact .inr e
        · exact (al u hu).imp (fun e => (List.mem_erase_of_ne hx).2 e) id
      · intro u hu
        rcases List.mem_append.1 hu with e | e
        · exact ⟨fun x => (rel u e).1 (List.mem_of_mem_erase x), (rel u e).2⟩
        · have : u = t := by simpa using e
          subst this; exact ⟨hnd.1.not_mem_erase, hts⟩
      · intro u
        rw [List.count_append]
        by_cases hv : u = t
        · subst hv; rw [List.count_eq_zero.2 hnt]; simp
        · have := one u; simp [Ne.symm hv]; omega
      · simp [nc]
      · intro u hu
        by_cases hx : u = t
        · right; right; simp [hx]
        · rcases all u hu with e | e | e
          · exact .inl ((List.mem_erase_of_ne hx).2 e)
          · exact .inr (.inl e)
          · right; right; simp [e]
      · simpa [aux_tx_todo, aux_tx_A] using bc
    · simp only [hc, if_false]
      exact aux_tx_K_nil h0
  | stopped =>
    simp only [aux_tx_todo, he] at bc
    have hth := fin (.inl he)
    cases hst : s.stopped with
    | nil =>
      have e : tpExitGo false s = ({ s with exit := .done }, [.exited]) := by simp [tpExitGo, he, hst]
      rw [e]
      refine ⟨by simp, sp, ca, qu, th, nd, st, al, by simp, fun _ => hth, fun _ => hst, ?_, ?_, by simp [nc], fresh, ne, ?_, lt, ?_⟩
      · intro u hu; exact rel u (by simpa using hu)
      · intro u; rw [List.count_append]; have := one u; simp; exact this
      · intro u hu
        rcases all u hu with e | e | e
        · exact .inl e
        · exact .inr (.inl e)
        · right; right; simp [e]
      · simpa [aux_tx_todo, aux_tx_A] using bc
    | cons t r =>
      have hnt : TpEvent.released t ∉ log := fun e => (rel t e).2 (by simp [hst])
      have hnd : t ∉ r ∧ r.Nodup := by rw [hth, hst] at nd; simpa using nd
      have e : tpExitGo false s = ({ s with stopped := r }, [.released t]) := by simp [tpExitGo, he, hst, st t (by simp [hst])]
      rw [e]
      refine ⟨ex, sp, ca, qu, th, ?_, ?_, al, jo, fin, by simp [he], ?_, ?_, by simp [nc], fresh, ne, ?_, lt, ?_⟩
      · simp only [hth, List.nil_append]; exact hnd.2
      · intro u hu; exact st u (by rw [hst]; exact List.mem_cons_of_mem _ hu)
      · intro u hu
        simp only [hth, List.not_mem_nil, not_false_eq_true, true_and]
        rcases List.mem_append.1 hu with e | e
        · exact fun x => (rel u e).2 (by rw [hst]; exact List.mem_cons_of_mem _ x)
        · have : u = t := by simpa using e
          subst this; exact hnd.1
      · intro u
        rw [List.count_append]
        by_cases hv : u = t
        · subst hv; rw [List.count_eq_zero.2 hnt]; simp
        · have := one u; simp [Ne.symm hv]; omega
      · intro u hu
        rcases all u hu with e | e | e
        · exact .inl e
        · rw [hst] at e
          rcases List.mem_cons.1 e with e | e
          · right; right; simp [e]
          · exact .inr (.inl e)
        · right; right; simp [e]
      · simpa [aux_tx_todo, aux_tx_A, he] using bc

theorem aux_tx_K_step (s : PoolTasks) (log : List TpEvent) (op : TpOp) (hop : tpCalm op = true) (h : aux_tx_K s log) :
    aux_tx_K (tpStep s op).1 (log ++ (tpStep s op).2) := by
  cases op with
  | add => simp [tpCalm] at hop
  | remove n => simp [tpCalm] at hop
  | close => simp [tpCalm] at hop
  | go t => exact aux_tx_K_go s log t h
  | exitGo skip =>
    have : skip = false := by simpa [tpCalm] using hop
    subst this; exact aux_tx_K_exitGo s log h
  | exit self =>
    simp only [tpStep, h.ex, false_and, if_false]
    exact aux_tx_K_nil h
  | push c =>
    simp only [tpStep, h.ca c]
    exact aux_tx_K_nil h
  | exiting =>
    obtain ⟨ex, sp, ca, qu, th, nd, st, al, jo, fin, fin2, rel, one, nc, fresh, ne, all, lt, bc⟩ := aux_tx_K_nil h
    exact ⟨ex, sp, ca, qu, th, nd, st, al, jo, fin, fin2, rel, one, nc, fresh, ne, all, lt, bc⟩
  | new c =>
    have e : tpStep s (.new c) = ({ s with tasks := s.tasks + 1 }, [.rejected s.tasks]) := by simp [tpStep, h.ca c, h.sp]
    rw [e]
    obtain ⟨ex, sp, ca, qu, th, nd, st, al, jo, fin, fin2, rel, one, nc, fresh, ne, all, lt, bc⟩ := h
    refine ⟨ex, sp, ca, qu, th, nd, st, al, jo, fin, fin2, ?_, ?_, ?_, fresh, ne, ?_, lt, bc⟩
    · intro u hu; exact rel u (by simpa using hu)
    · intro u; rw [List.count_append]; have := one u; simp; exact this
    · simp [nc]
    · intro u hu
      rcases all u hu with e | e | e
      · exact .inl e
      · exact .inr (.inl e)
      · right; right; simp [e]

theorem aux_tx_K_run (ops : List TpOp) : ∀ (s : PoolTasks) (log : List TpEvent), (∀ op ∈ ops, tpCalm op = true) → aux_tx_K s log →
    aux_tx_K (tpRun s log ops).1 (tpRun s log ops).2 := by
  induction ops with
  | nil => intro s log _ h; exact h
  | cons op ops ih =>
    intro s log hc h
    exact ih _ _ (fun o ho => hc o (List.mem_cons_of_mem _ ho)) (aux_tx_K_step s log op (hc op List.mem_cons_self) h)

/-- The state when `vortex_thread_pool_exit` was called, and after more steps. -/
theorem aux_tx_K_exit (a b : List TpOp) (self : Option Nat) (h1 : (tpRun .init [] a).1.exit = .no) (h2 : (tpRun .init [] a).1.stopping = true)
    (h3 : tpQuiet (tpRun .init [] a).1) (h4 : tpInTask (tpRun .init [] a).1 self = true) (hb : ∀ op ∈ b, tpCalm op = true) :
    aux_tx_K (tpRun .init [] (a ++ .exit self :: b)).1 (tpRun .init [] (a ++ .exit self :: b)).2 ∧
    (tpRun .init [] (a ++ .exit self :: b)).1.self = self := by
  have hJ := aux_tx_J_run a _ _ aux_tx_J_init h1
  rw [aux_tp_run_append]
  generalize hr : tpRun .init [] a = r at *
  have e : tpStep r.1 (.exit self) = ({ r.1 with exit := .beacons 0, self := self }, []) := by simp [tpStep, h1, h2, h4]
  have key : ∀ (b : List TpOp) (s : PoolTasks) (log : List TpEvent), s.exit ≠ .no → (tpRun s log b).1.self = s.self := by
    intro b
    induction b with
    | nil => intro s log _; rfl
    | cons op b ih =>
      intro s log hs
      have hself : (tpStep s op).1.self = s.self := by
        cases op with
        | go t => simp only [tpStep, tpGo]; (repeat' split) <;> rfl
        | exitGo skip => simp only [tpStep, tpExitGo]; (repeat' split) <;> rfl
        | add => simp only [tpStep]; split <;> rfl
        | remove n => simp only [tpStep]; split <;> rfl
        | exiting => rfl
        | close => simp only [tpStep]; split <;> rfl
        | exit self => simp only [tpStep, hs, false_and, if_false]
        | new c => simp only [tpStep]; (repeat' split) <;> rfl
        | push c => simp only [tpStep]; (repeat' split) <;> rfl
      exact (ih _ _ (aux_tx_exit_mono s op hs)).trans hself
  simp only [tpRun, e, List.append_nil]
  refine ⟨aux_tx_K_run b _ _ hb (aux_tx_K_init hJ h2 h3 self), ?_⟩
  rw [key b _ _ (by simp)]

theorem aux_tx_inTask {s : PoolTasks} {self : Option Nat} (h : ∀ t, self = some t → ∃ k, s.thr t = .running k) : tpInTask s self = true := by
  cases self with
  | none => rfl
  | some t => obtain ⟨k, hk⟩ := h t rfl; simp [tpInTask, hk]

/-- C98, the end of the pool: when the pool is ended while no thread is being removed and nobody is about to hand over a task, and no thread
is added or removed meanwhile, with waiting for the threads, by a task that a thread of the pool runs or from outside: nothing crashes and no thread is released twice, whatever was done before and
however the steps interleave; and when `vortex_thread_pool_exit` returned, each thread ever created was released, and ended, except for the
thread that made the call. Missing: `C98_released_twice`, `C98_late_task`, `C98_skip_wait`, `C98_late_thread`. -/
theorem C98_exit_partial (a b : List TpOp) (self : Option Nat) (h1 : (tpRun .init [] a).1.exit = .no)
    (h2 : (tpRun .init [] a).1.stopping = true) (h3 : tpQuiet (tpRun .init [] a).1) (h4 : ∀ t, self = some t → ∃ k, (tpRun .init [] a).1.thr t = .running k)
    (hb : ∀ op ∈ b, tpCalm op = true) : let r := tpRun .init [] (a ++ .exit self :: b)
    TpEvent.crash ∉ r.2 ∧ (∀ t, r.2.count (.released t) ≤ 1) ∧
    (r.1.exit = .done → ∀ t, t < r.1.created → r.2.count (.released t) = 1 ∧ (r.1.thr t = .ended ∨ self = some t)) := by
  obtain ⟨hK, hs⟩ := aux_tx_K_exit a b self h1 h2 h3 (aux_tx_inTask h4) hb
  refine ⟨hK.nc, hK.one, fun hd t ht => ⟨?_, ?_⟩⟩
  · rcases hK.all t ht with e | e | e
    · rw [hK.fin (.inr hd)] at e; cases e
    · rw [hK.fin2 hd] at e; cases e
    · have := hK.one t
      have := List.count_pos_iff.2 e
      omega
  · cases hx : aux_tx_alive ((tpRun .init [] (a ++ .exit self :: b)).1.thr t) with
    | true =>
      rcases hK.al t hx with e | e
      · rw [hK.fin (.inr hd)] at e; cases e
      · right; rw [← hs]; exact e
    | false =>
      left
      have h5 := hK.ne t ht
      have h6 := hK.th t
      cases hy : (tpRun .init [] (a ++ .exit self :: b)).1.thr t <;> simp_all [aux_tx_alive]

/-- What each item of the queue and each thread may still do. -/
def aux_tx_qw : TpItem → Nat
  | .task _ => 4
  | .beacon => 1
  | _ => 0

def aux_tx_tw : TpThread → Nat
  | .hold _ => 3
  | .running _ => 1
  | _ => 0

def aux_tx_qs : List TpItem → Nat
  | [] => 0
  | i :: q => aux_tx_qw i + aux_tx_qs q

theorem aux_tx_qs_append (a b : List TpItem) : aux_tx_qs (a ++ b) = aux_tx_qs a + aux_tx_qs b := by
  induction a with
  | nil => simp [aux_tx_qs]
  | cons i a ih => simp only [List.cons_append, aux_tx_qs, ih]; omega

def aux_tx_rank (s : PoolTasks) : Nat :=
  match s.exit with
  | .no => 0
  | .beacons i => 2 * (s.threads.length - i) + 2 * s.threads.length + s.stopped.length + 5
  | .threads => 2 * s.threads.length + s.stopped.length + 3
  | .joining _ => 2 * s.threads.length + s.stopped.length + 2
  | .stopped => s.stopped.length + 1
  | .done => 0

/-- How many steps are left, at most. -/
def aux_tx_M (s : PoolTasks) : Nat := aux_tx_qs s.queue + aux_tx_sum (fun t => aux_tx_tw (s.thr t)) s.created + aux_tx_rank s

theorem aux_tx_M_set {s : PoolTasks} {q : List TpItem} {t : Nat} {p : TpThread} (ht : t < s.created)
    (hw : aux_tx_qs q + aux_tx_tw p < aux_tx_qs s.queue + aux_tx_tw (s.thr t)) : aux_tx_M (tpSet { s with queue := q } t p) < aux_tx_M s := by
  have e := aux_tx_sum_set aux_tx_tw s.thr t p s.created ht
  have : aux_tx_rank (tpSet { s with queue := q } t p) = aux_tx_rank s := rfl
  simp only [aux_tx_M, this]
  simp only [tpSet] at e ⊢
  omega

theorem aux_tx_M_step (s : PoolTasks) (log : List TpEvent) (op : TpOp) (hop : tpInternal op = true) (h : aux_tx_K s log)
    (hne : (tpStep s op).1 ≠ s) : aux_tx_M (tpStep s op).1 < aux_tx_M s := by
  cases op with
  | add => simp [tpInternal] at hop
  | remove n => simp [tpInternal] at hop
  | close => simp [tpInternal] at hop
  | exit self => simp [tpInternal] at hop
  | push c => simp [tpInternal] at hop
  | new c => simp [tpInternal] at hop
  | exiting => simp [tpInternal] at hop
  | go t =>
    simp only [tpStep, tpGo] at hne ⊢
    have htc : s.thr t ≠ .none → t < s.created := fun hn => Nat.lt_of_not_le fun hl => hn (h.fresh t hl)
    cases ht : s.thr t with
    | none => simp [ht] at hne
    | ended => simp [ht] at hne
    | leaving => exact absurd ht (h.th t).1
    | bye => exact absurd ht (h.th t).2.1
    | collecting => exact absurd ht (h.th t).2.2
    | waiting =>
      have htc := htc (by simp [ht])
      cases hq : s.queue with
      | nil => simp [ht, hq] at hne
      | cons i q =>
        cases i with
        | task k => exact aux_tx_M_set htc (by simp [hq, ht, aux_tx_qs, aux_tx_qw, aux_tx_tw]; omega)
        | quit => exact absurd rfl (h.qu .quit (by rw [hq]; simp)).1
        | join => exact absurd rfl (h.qu .join (by rw [hq]; simp)).2
        | beacon => exact aux_tx_M_set htc (by simp [hq, ht, aux_tx_qs, aux_tx_qw, aux_tx_tw])
    | hold k =>
      have htc := htc (by simp [ht])
      dsimp only
      rw [if_pos (by simp [h.sp])]
      exact aux_tx_M_set (q := s.queue) htc (by simp [ht, aux_tx_tw])
    | running k =>
      have htc := htc (by simp [ht])
      simp only [ht] at hne
      dsimp only
      split at hne
      · exact absurd rfl hne
      · next hc =>
        rw [if_neg hc]
        exact aux_tx_M_set (q := s.queue) htc (by simp [ht, aux_tx_tw])
  | exitGo skip =>
    have : skip = false := by simpa [tpInternal] using hop
    subst this
    simp only [tpStep] at hne ⊢
    cases he : s.exit with
    | no => exact absurd he h.ex
    | done => simp [tpExitGo, he] at hne
    | beacons i =>
      by_cases hi : i < s.threads.length
      · have e : tpExitGo false s = ({ s with queue := s.queue ++ [.beacon], exit := .beacons (i + 1) }, []) := by simp [tpExitGo, he, hi]
        rw [e]
        simp only [aux_tx_M, aux_tx_rank, he, aux_tx_qs_append, aux_tx_qs, aux_tx_qw]
        omega
      · have e : tpExitGo false s = ({ s with exit := .threads }, []) := by simp [tpExitGo, he, hi]
        rw [e]
        simp only [aux_tx_M, aux_tx_rank, he]
        omega
    | threads =>
      cases hth : s.threads with
      | nil =>
        have e : tpExitGo false s = ({ s with exit := .stopped }, []) := by simp [tpExitGo, he, hth]
        rw [e]
        simp only [aux_tx_M, aux_tx_rank, he]
        omega
      | cons t r =>
        have e : tpExitGo false s = ({ s with exit := .joining t }, []) := by simp [tpExitGo, he, hth]
        rw [e]
        simp only [aux_tx_M, aux_tx_rank, he]
        omega
    | joining t =>
      by_cases hc : s.thr t = .ended ∨ s.self = some t
      · have e : tpExitGo false s = ({ s with threads := s.threads.erase t, exit := .threads }, [.released t]) := by simp [tpExitGo, he, hc]
        have hm := h.jo t he
        have hl := List.length_erase_of_mem hm
        have hp := List.length_pos_of_mem hm
        rw [e]
        simp only [aux_tx_M, aux_tx_rank, he, hl]
        omega
      · simp [tpExitGo, he, hc] at hne
    | stopped =>
      cases hst : s.stopped with
      | nil =>
        have e : tpExitGo false s = ({ s with exit := .done }, [.exited]) := by simp [tpExitGo, he, hst]
        rw [e]
        simp only [aux_tx_M, aux_tx_rank, he]
        omega
      | cons t r =>
        have e : tpExitGo false s = ({ s with stopped := r }, [.released t]) := by
          simp [tpExitGo, he, hst, h.st t (by simp [hst])]
        rw [e]
        simp only [aux_tx_M, aux_tx_rank, he, hst, List.length_cons]
        omega

theorem aux_tx_M_run (b : List TpOp) : ∀ (s : PoolTasks) (log : List TpEvent), aux_tx_K s log → (∀ op ∈ b, tpInternal op = true) →
    tpEffective s b → b.length ≤ aux_tx_M s := by
  induction b with
  | nil => intro s log _ _ _; exact Nat.zero_le _
  | cons op b ih =>
    intro s log h hi he
    have hop := hi op List.mem_cons_self
    have hc : tpCalm op = true := by cases op <;> simp_all [tpInternal, tpCalm]
    have h1 := aux_tx_M_step s log op hop h he.1
    have h2 := ih _ _ (aux_tx_K_step s log op hc h) (fun o ho => hi o (List.mem_cons_of_mem _ ho)) he.2
    simp only [List.length_cons]; omega

theorem aux_tx_progress (s : PoolTasks) (log : List TpEvent) (h : aux_tx_K s log) (hd : s.exit ≠ .done) :
    ∃ op, tpInternal op = true ∧ (tpStep s op).1 ≠ s := by
  cases he : s.exit with
  | no => exact absurd he h.ex
  | done => exact absurd he hd
  | beacons i =>
    refine ⟨.exitGo false, rfl, fun e => ?_⟩
    have := congrArg PoolTasks.exit e
    simp only [tpStep, tpExitGo, he] at this
    split at this <;> simp at this
  | threads =>
    refine ⟨.exitGo false, rfl, fun e => ?_⟩
    have := congrArg PoolTasks.exit e
    simp only [tpStep, tpExitGo, he] at this
    split at this <;> simp at this
  | stopped =>
    refine ⟨.exitGo false, rfl, fun e => ?_⟩
    cases hst : s.stopped with
    | nil =>
      have := congrArg PoolTasks.exit e
      simp [tpStep, tpExitGo, he, hst] at this
    | cons t r =>
      have := congrArg PoolTasks.stopped e
      simp [tpStep, tpExitGo, he, hst, h.st t (by simp [hst])] at this
  | joining t =>
    by_cases hc : s.thr t = .ended ∨ s.self = some t
    · refine ⟨.exitGo false, rfl, fun e => ?_⟩
      have := congrArg PoolTasks.exit e
      simp [tpStep, tpExitGo, he, hc] at this
    · refine ⟨.go t, rfl, fun e => ?_⟩
      have e' := congrFun (congrArg PoolTasks.thr e) t
      have h6 := h.th t
      have hself : s.self ≠ some t := fun x => hc (.inr x)
      simp only [tpStep, tpGo] at e'
      have hlt : t < s.created := h.lt t (h.jo t he)
      cases ht : s.thr t with
      | none => exact h.ne t hlt ht
      | ended => exact hc (.inl ht)
      | leaving => exact h6.1 ht
      | bye => exact h6.2.1 ht
      | collecting => exact h6.2.2 ht
      | hold k => simp [ht, h.sp, tpSet] at e'
      | running k => simp [ht, hself, tpSet] at e'
      | waiting =>
        have hA : 0 < aux_tx_A s := by
          have := aux_tx_sum_set aux_tx_one s.thr t .ended s.created hlt
          have e1 : aux_tx_one (s.thr t) = 1 := by simp [ht, aux_tx_one, aux_tx_alive]
          have e2 : aux_tx_one .ended = 0 := rfl
          simp only [aux_tx_A]
          omega
        have hb := h.bc
        simp only [aux_tx_todo, he] at hb
        cases hq : s.queue with
        | nil => rw [hq] at hb; simp at hb; omega
        | cons i q => cases i <;> simp [ht, hq, tpSet] at e'

/-- C98, the end of the pool: under the same conditions, `vortex_thread_pool_exit` returns: as long as it did not, the pool or the call can
make a step, if the tasks that are running return; and only so many steps can be made. -/
theorem C98_exit_ends_partial (a : List TpOp) (self : Option Nat) (h1 : (tpRun .init [] a).1.exit = .no)
    (h2 : (tpRun .init [] a).1.stopping = true) (h3 : tpQuiet (tpRun .init [] a).1) (h4 : ∀ t, self = some t → ∃ k, (tpRun .init [] a).1.thr t = .running k) :
    (∀ b : List TpOp, (∀ op ∈ b, tpCalm op = true) → (tpRun .init [] (a ++ .exit self :: b)).1.exit ≠ .done →
      ∃ op, tpInternal op = true ∧ (tpStep (tpRun .init [] (a ++ .exit self :: b)).1 op).1 ≠ (tpRun .init [] (a ++ .exit self :: b)).1) ∧
    ∃ n, ∀ b : List TpOp, (∀ op ∈ b, tpInternal op = true) → tpEffective (tpRun .init [] (a ++ [.exit self])).1 b → b.length ≤ n := by
  constructor
  · intro b hb hd
    exact aux_tx_progress _ _ (aux_tx_K_exit a b self h1 h2 h3 (aux_tx_inTask h4) hb).1 hd
  · refine ⟨_, fun b hi he => aux_tx_M_run b _ _ (aux_tx_K_exit a [] self h1 h2 h3 (aux_tx_inTask h4) (by simp)).1 hi he⟩

/-- Before the pool is ended: three threads, one was removed and collected, one task is running, one is in the queue. -/
def aux_tx_sample : List TpOp :=
  [.add, .add, .add, .remove 1, .go 0, .go 0, .go 0, .go 1, .go 1, .new 0, .push 0, .new 0, .push 0, .go 1, .go 1, .close]

theorem aux_tx_sample_quiet : tpQuiet (tpRun .init [] aux_tx_sample).1 := by
  refine ⟨by decide, by decide, ?_, ?_⟩
  · intro t
    match t with
    | 0 => decide
    | 1 => decide
    | 2 => decide
    | n + 3 =>
      have hJ := aux_tx_J_run aux_tx_sample _ _ aux_tx_J_init (by decide)
      have : (tpRun .init [] aux_tx_sample).1.thr (n + 3) = .none := hJ.fresh _ (by
        have : (tpRun .init [] aux_tx_sample).1.created = 3 := by decide
        omega)
      rw [this]; simp
  · intro c
    match c with
    | 0 => rfl
    | n + 1 => rfl

/-- The running task ends the pool; it waits for the other thread, not for its own. -/
example : let b : List TpOp := [.exitGo false, .exitGo false, .new 3, .exitGo false, .exitGo false, .exitGo false, .exitGo false, .go 2, .go 2, .go 2, .exitGo false,
      .exitGo false, .exitGo false, .go 1, .go 1]
    (tpRun .init [] aux_tx_sample).1.thr 1 = .running 0 ∧ (∀ op ∈ b, tpCalm op = true) ∧
    (tpRun .init [] (aux_tx_sample ++ .exit (some 1) :: b)).1.exit = .done ∧
    (tpRun .init [] (aux_tx_sample ++ .exit (some 1) :: b)).2 =
      [.released 0, .queued 0, .queued 1, .taken 0, .began 0, .closed, .rejected 2, .released 1, .taken 1, .dropped 1, .released 2, .exited,
        .finished 0] := by decide

example : (tpRun .init [] aux_tx_sample).1.exit = .no ∧ (tpRun .init [] aux_tx_sample).1.stopping = true ∧
    tpQuiet (tpRun .init [] aux_tx_sample).1 := ⟨by decide, by decide, aux_tx_sample_quiet⟩

/-- A thread that leaves while `vortex_thread_pool_exit` waits for it is released twice: first as one of `threads`, then as one of `stopped`,
to which it added itself. -/
theorem C98_released_twice : ∃ (a b : List TpOp), (∀ op ∈ b, tpCalm op = true) ∧ TpEvent.exited ∈ (tpRun .init [] (a ++ .close :: .exit none :: b)).2 ∧
    (tpRun .init [] (a ++ .close :: .exit none :: b)).2.count (.released 0) = 2 :=
  ⟨[.add, .add, .remove 1], [.exitGo false, .exitGo false, .exitGo false, .exitGo false, .go 0, .go 0, .go 0, .go 1, .exitGo false,
    .exitGo false, .exitGo false, .exitGo false, .exitGo false, .exitGo false], by decide, by decide, by decide⟩

/-- A task handed over while the pool is being ended is put into a queue that was released. -/
theorem C98_late_task : ∃ (a b : List TpOp), (∀ op ∈ b, tpCalm op = true) ∧ TpEvent.crash ∉ (tpRun .init [] a).2 ∧
    TpEvent.crash ∈ (tpRun .init [] (a ++ .close :: .exit none :: b)).2 :=
  ⟨[.add, .new 0], [.exitGo false, .exitGo false, .exitGo false, .go 0, .exitGo false, .exitGo false, .exitGo false, .push 0],
    by decide, by decide, by decide⟩

/-- Without waiting for the threads, a thread that was asked to leave uses the pool after it was released. -/
theorem C98_skip_wait : ∃ ops : List TpOp, TpEvent.exited ∈ (tpRun .init [] ops).2 ∧ TpEvent.crash ∉ (tpRun .init [] ops).2 ∧
    TpEvent.crash ∈ (tpRun .init [] (ops ++ [.go 0, .go 0])).2 :=
  ⟨[.add, .add, .remove 1, .close, .exit none, .exitGo true, .exitGo true, .exitGo true, .exitGo true], by decide, by decide, by decide⟩

/-- A thread added to the pool after the beacons were pushed is waited for, for ever. -/
theorem C98_late_thread : ∃ ops : List TpOp, TpEvent.crash ∉ (tpRun .init [] ops).2 ∧ (tpRun .init [] ops).1.exit = .joining 1 ∧
    ∀ op, tpInternal op = true → (tpStep (tpRun .init [] ops).1 op).1 = (tpRun .init [] ops).1 := by
  refine ⟨[.add, .close, .exit none, .exitGo false, .exitGo false, .add, .exitGo false, .go 0, .exitGo false, .exitGo false], by decide, by decide, ?_⟩
  intro op hop
  cases op with
  | go t =>
    match t with
    | 0 => rfl
    | 1 => rfl
    | n + 2 => rfl
  | exitGo skip =>
    cases skip with
    | true => simp [tpInternal] at hop
    | false => rfl
  | _ => simp [tpInternal] at hop

/-- Two calls that remove one thread each, of two: none is left, and the task that waits is never run. -/
theorem C98_no_thread_left : ∃ ops : List TpOp, (∀ op ∈ ops, op ≠ .close ∧ op ≠ .exiting) ∧ TpEvent.queued 0 ∈ (tpRun .init [] ops).2 ∧
    TpEvent.began 0 ∉ (tpRun .init [] ops).2 ∧ (tpRun .init [] ops).1.threads = [] ∧
    ∀ t, (tpStep (tpRun .init [] ops).1 (.go t)).1 = (tpRun .init [] ops).1 := by
  refine ⟨[.add, .add, .remove 1, .remove 1, .new 0, .push 0, .go 0, .go 1, .go 0, .go 0, .go 1, .go 1], by decide, by decide, by decide, by decide, ?_⟩
  intro t
  match t with
  | 0 => rfl
  | 1 => rfl
  | n + 2 => rfl

def aux_tx_lv (s : PoolTasks) (t : Nat) : Bool := decide (s.thr t = .leaving)

/-- As long as removals do not overlap. -/
structure aux_tx_T (s : PoolTasks) : Prop where
  some_ : 0 < s.created → 1 + s.queue.count .quit + s.threads.countP (aux_tx_lv s) ≤ s.threads.length
  none_ : s.created = 0 → TpItem.quit ∉ s.queue ∧ s.threads = []

theorem aux_tx_countP {l : List Nat} {t : Nat} (ht : t ∈ l) (f : Nat → Bool) :
    l.countP f = (if f t then 1 else 0) + (l.erase t).countP f := by
  rw [(List.perm_cons_erase ht).countP_eq, List.countP_cons]; omega

theorem aux_tx_countP_set {s : PoolTasks} {q : List TpItem} {t : Nat} {p : TpThread} (nd : s.threads.Nodup) (ht : t ∈ s.threads) :
    s.threads.countP (aux_tx_lv (tpSet { s with queue := q } t p)) + (if s.thr t = .leaving then 1 else 0) =
    s.threads.countP (aux_tx_lv s) + (if p = .leaving then 1 else 0) := by
  rw [aux_tx_countP ht (aux_tx_lv (tpSet { s with queue := q } t p)), aux_tx_countP ht (aux_tx_lv s)]
  have : (s.threads.erase t).countP (aux_tx_lv (tpSet { s with queue := q } t p)) = (s.threads.erase t).countP (aux_tx_lv s) := by
    apply List.countP_congr
    intro u hu
    have : u ≠ t := by rintro rfl; exact absurd hu (nd.not_mem_erase)
    simp [aux_tx_lv, tpSet, this]
  rw [this]
  simp [aux_tx_lv, tpSet]
  omega

/-- A thread goes on. -/
theorem aux_tx_T_set {s : PoolTasks} {log : List TpEvent} {q : List TpItem} {t : Nat} {p : TpThread} (hJ : aux_tx_J s log) (h : aux_tx_T s)
    (h1 : aux_tx_alive (s.thr t) = true)
    (hq : q.count .quit + (if p = .leaving then 1 else 0) ≤ s.queue.count .quit + (if s.thr t = .leaving then 1 else 0)) :
    aux_tx_T (tpSet { s with queue := q } t p) := by
  have ht := (hJ.al t).2 h1
  have hc := aux_tx_countP_set (q := q) (p := p) (List.nodup_append.1 hJ.nd).1 ht
  refine ⟨fun hx => ?_, fun hx => ?_⟩
  · have := h.some_ hx
    simp only [tpSet] at hc ⊢
    omega
  · rw [(h.none_ hx).2] at ht; cases ht

theorem aux_tx_T_step (s : PoolTasks) (log : List TpEvent) (op : TpOp) (hJ : aux_tx_J s log) (h : aux_tx_T s)
    (hr : ∀ n, op = .remove n → tpSettled s) : aux_tx_T (tpStep s op).1 := by
  have hd : s.exit ≠ .done := by rw [hJ.ex]; simp
  cases op with
  | go t =>
    simp only [tpStep, tpGo]
    cases ht : s.thr t with
    | none => exact h
    | ended => exact h
    | waiting =>
      cases hq : s.queue with
      | nil => exact h
      | cons i q =>
        cases i with
        | task k => exact aux_tx_T_set hJ h (by simp [ht, aux_tx_alive]) (by simp [ht, hq])
        | beacon => exact absurd (by rw [hq]; exact List.mem_cons_self) hJ.nb
        | quit => exact aux_tx_T_set hJ h (by simp [ht, aux_tx_alive]) (by simp [ht, hq])
        | join => exact aux_tx_T_set hJ h (by simp [ht, aux_tx_alive]) (by simp [ht, hq])
    | hold k => dsimp only; split <;> exact aux_tx_T_set hJ h (by simp [ht, aux_tx_alive]) (by simp [ht])
    | running k =>
      dsimp only
      split
      · exact h
      · exact aux_tx_T_set hJ h (by simp [ht, aux_tx_alive]) (by simp [ht])
    | collecting =>
      simp only [hd, if_false]
      split
      · exact aux_tx_T_set hJ h (by simp [ht, aux_tx_alive]) (by simp [ht])
      · split
        · have := aux_tx_T_set (q := s.queue) (t := t) (p := .waiting) hJ h (by simp [ht, aux_tx_alive]) (by simp [ht])
          exact ⟨this.some_, this.none_⟩
        · exact h
    | leaving =>
      simp only [hd, if_false]
      have hm := (hJ.al t).2 (by simp [ht, aux_tx_alive])
      have nd := (List.nodup_append.1 hJ.nd).1
      have hc := aux_tx_countP_set (q := s.queue) (p := .bye) nd hm
      rw [aux_tx_countP hm (aux_tx_lv (tpSet { s with queue := s.queue } t .bye))] at hc
      refine ⟨fun hx => ?_, fun hx => ?_⟩
      · have h0 := h.some_ hx
        have hl : (s.threads.erase t).length + 1 = s.threads.length := by
          rw [List.length_erase_of_mem hm]; have := List.length_pos_of_mem hm; omega
        have e : aux_tx_lv (tpSet { s with threads := s.threads.erase t, stopped := s.stopped ++ [t] } t .bye) =
            aux_tx_lv (tpSet { s with queue := s.queue } t .bye) := rfl
        simp only [ht, if_true] at hc
        simp only [e]
        simp only [tpSet] at hc ⊢
        have : aux_tx_lv (tpSet { s with queue := s.queue } t .bye) t = false := by simp [aux_tx_lv, tpSet]
        simp only [tpSet] at this
        simp [this] at hc
        omega
      · rw [(h.none_ hx).2] at hm; cases hm
    | bye =>
      have hm : t ∉ s.threads := by rw [hJ.al t, ht]; simp [aux_tx_alive]
      have e : s.threads.countP (aux_tx_lv (tpSet { s with queue := s.queue ++ [.join] } t .ended)) = s.threads.countP (aux_tx_lv s) := by
        apply List.countP_congr
        intro u hu
        have : u ≠ t := by rintro rfl; exact hm hu
        simp [aux_tx_lv, tpSet, this]
      refine ⟨fun hx => ?_, fun hx => ?_⟩
      · have := h.some_ hx
        simp only [tpSet] at e ⊢
        rw [e, List.count_append]
        simpa using this
      · have := h.none_ hx; simpa [tpSet] using this
  | exitGo skip => simp only [tpStep, tpExitGo, hJ.ex]; exact h
  | add =>
    simp only [tpStep, hd, if_false]
    have hn : s.created ∉ s.threads := by rw [hJ.al, hJ.fresh _ (Nat.le_refl _)]; simp [aux_tx_alive]
    have e : s.threads.countP (aux_tx_lv (tpSet { s with threads := s.threads ++ [s.created], created := s.created + 1 } s.created .waiting)) =
        s.threads.countP (aux_tx_lv s) := by
      apply List.countP_congr
      intro u hu
      have : u ≠ s.created := by rintro rfl; exact hn hu
      simp [aux_tx_lv, tpSet, this]
    refine ⟨fun _ => ?_, fun hx => ?_⟩
    · simp only [tpSet] at e ⊢
      rw [List.countP_append, e]
      simp [aux_tx_lv]
      by_cases hc : s.created = 0
      · obtain ⟨a, b⟩ := h.none_ hc
        rw [List.count_eq_zero.2 a, b]; simp
      · have := h.some_ (by omega); omega
    · simp [tpSet] at hx
  | remove n =>
    simp only [tpStep, hd, if_false]
    obtain ⟨h1, h2⟩ := hr n rfl
    have e : s.threads.countP (aux_tx_lv s) = 0 := by rw [List.countP_eq_zero]; intro u _; simp [aux_tx_lv, h2 u]
    refine ⟨fun hx => ?_, fun hx => ?_⟩
    · have := h.some_ hx
      have e' : aux_tx_lv { s with queue := s.queue ++ List.replicate (tpQuits n s.threads.length) .quit } = aux_tx_lv s := rfl
      rw [e', e, List.count_append, List.count_eq_zero.2 h1, List.count_replicate_self]
      simp only [tpQuits] at *
      omega
    · have := h.none_ hx
      simp [this.1, this.2, tpQuits]
  | exiting => exact ⟨h.some_, h.none_⟩
  | close => simp only [tpStep, hd, if_false]; exact ⟨h.some_, h.none_⟩
  | exit self => simp only [tpStep]; split <;> exact ⟨h.some_, h.none_⟩
  | new c => simp only [tpStep]; (repeat' split) <;> exact ⟨h.some_, h.none_⟩
  | push c =>
    simp only [tpStep]
    split
    · exact h
    · simp only [hd, if_false]
      refine ⟨fun hx => ?_, fun hx => ?_⟩
      · have := h.some_ hx
        simp only [List.count_append]
        have e : ∀ q c, aux_tx_lv { s with queue := q, callers := c } = aux_tx_lv s := fun _ _ => rfl
        rw [e]
        simpa using this
      · have := h.none_ hx; simpa using this

/-- As long as the pool is not ended, and a removal is asked only when earlier ones have taken effect: however many threads are asked to
leave, one is left once there was one; and when something is in the queue, some thread goes on. Missing: `C98_no_thread_left`. -/
theorem C98_thread_left_partial (ops : List TpOp) (h : ∀ op ∈ ops, ∀ self, op ≠ .exit self)
    (hr : ∀ a n b, ops = a ++ .remove n :: b → tpSettled (tpRun .init [] a).1) (hc : 0 < (tpRun .init [] ops).1.created) :
    (tpRun .init [] ops).1.threads ≠ [] ∧
    ((tpRun .init [] ops).1.queue ≠ [] → ∃ t, (tpStep (tpRun .init [] ops).1 (.go t)).1 ≠ (tpRun .init [] ops).1) := by
  have key : ∀ (ops : List TpOp) (s : PoolTasks) (log : List TpEvent), (∀ op ∈ ops, ∀ self, op ≠ .exit self) →
      (∀ a n b, ops = a ++ .remove n :: b → tpSettled (tpRun s log a).1) → aux_tx_J s log → aux_tx_T s →
      aux_tx_J (tpRun s log ops).1 (tpRun s log ops).2 ∧ aux_tx_T (tpRun s log ops).1 := by
    intro ops
    induction ops with
    | nil => intro s log _ _ h1 h2; exact ⟨h1, h2⟩
    | cons op ops ih =>
      intro s log h hr h1 h2
      refine ih _ _ (fun o ho => h o (List.mem_cons_of_mem _ ho)) (fun a n b e => hr (op :: a) n b (by rw [e]; rfl)) ?_
        (aux_tx_T_step s log op h1 h2 (fun n e => hr [] n ops (by rw [e]; rfl)))
      refine aux_tx_J_step s log op h1 ?_
      have he := h1.ex
      have hd : s.exit ≠ .done := by rw [he]; simp
      cases op with
      | go t => simp only [tpStep, tpGo]; (repeat' split) <;> simp_all [tpSet]
      | exitGo skip => simp only [tpStep, tpExitGo, he]
      | add => simp only [tpStep, hd, if_false, tpSet]; exact he
      | remove n => simp only [tpStep, hd, if_false]; exact he
      | exiting => exact he
      | close => simp only [tpStep, hd, if_false]; exact he
      | exit self => exact absurd rfl (h _ List.mem_cons_self self)
      | new c => simp only [tpStep]; (repeat' split) <;> simp_all
      | push c => simp only [tpStep]; (repeat' split) <;> simp_all
  obtain ⟨hJ, hT⟩ := key ops .init [] h hr aux_tx_J_init ⟨by simp [PoolTasks.init], by simp [PoolTasks.init]⟩
  generalize (tpRun .init [] ops).1 = s at *
  have hd : s.exit ≠ .done := by rw [hJ.ex]; simp
  have hne : s.threads ≠ [] := by
    intro e; have := hT.some_ hc; rw [e] at this; simp at this
  refine ⟨hne, fun hq => ?_⟩
  obtain ⟨t, ht⟩ := List.exists_mem_of_ne_nil _ hne
  have ha := (hJ.al t).1 ht
  have moved : ∀ (s' : PoolTasks) (u : Nat) (p : TpThread), s.thr u ≠ p → s'.thr u = p → s' ≠ s := by
    intro s' u p h1 h2 e; rw [e] at h2; exact h1 h2
  cases hs : s.thr t with
  | none => rw [hs] at ha; simp [aux_tx_alive] at ha
  | ended => rw [hs] at ha; simp [aux_tx_alive] at ha
  | bye => rw [hs] at ha; simp [aux_tx_alive] at ha
  | waiting =>
    refine ⟨t, ?_⟩
    cases hq' : s.queue with
    | nil => exact absurd hq' hq
    | cons i q =>
      intro e
      have := congrArg PoolTasks.queue e
      cases i <;> simp [tpStep, tpGo, hs, hq', tpSet] at this
  | hold k =>
    refine ⟨t, ?_⟩
    simp only [tpStep, tpGo, hs]
    split
    · exact moved _ t .waiting (by simp [hs]) (by simp [tpSet])
    · exact moved _ t (.running k) (by simp [hs]) (by simp [tpSet])
  | running k =>
    refine ⟨t, ?_⟩
    simp only [tpStep, tpGo, hs, hJ.se]
    simp only [reduceCtorEq, false_and, if_false]
    exact moved _ t .waiting (by simp [hs]) (by simp [tpSet])
  | leaving =>
    refine ⟨t, ?_⟩
    simp only [tpStep, tpGo, hs, hd, if_false]
    exact moved _ t .bye (by simp [hs]) (by simp [tpSet])
  | collecting =>
    cases hst : s.stopped with
    | nil =>
      refine ⟨t, ?_⟩
      simp only [tpStep, tpGo, hs, hd, if_false, hst]
      exact moved _ t .waiting (by simp [hs]) (by simp [tpSet])
    | cons u r =>
      by_cases hu : s.thr u = .ended
      · refine ⟨t, ?_⟩
        simp only [tpStep, tpGo, hs, hd, if_false, hst, hu, if_true]
        exact moved _ t .waiting (by simp [hs]) (by simp [tpSet])
      · refine ⟨u, ?_⟩
        have hb : s.thr u = .bye := (hJ.st u (by rw [hst]; exact List.mem_cons_self)).resolve_right hu
        simp only [tpStep, tpGo, hb]
        exact moved _ u .ended (by simp [hb]) (by simp [tpSet])

/-- All three threads are asked to leave, and again all when two have left. -/
example : let a : List TpOp := [.add, .add, .add]
    let b : List TpOp := [.go 0, .go 0, .go 0, .go 1, .go 1]
    tpSettled (tpRun .init [] a).1 ∧ tpSettled (tpRun .init [] (a ++ .remove 3 :: b)).1 ∧
    (tpRun .init [] (a ++ .remove 3 :: b ++ [.remove 3, .go 2, .go 2])).1.threads = [2] := by
  refine ⟨⟨by decide, ?_⟩, ⟨by decide, ?_⟩, by decide⟩
  · intro t; match t with
    | 0 => decide
    | 1 => decide
    | 2 => decide
    | n + 3 => simp [tpRun, tpStep, tpSet, PoolTasks.init]
  · intro t; match t with
    | 0 => decide
    | 1 => decide
    | 2 => decide
    | n + 3 => simp [tpRun, tpStep, tpGo, tpSet, tpQuits, PoolTasks.init, List.replicate]

theorem aux_tx_cnt_in {l : List Nat} {t : Nat} (nd : l.Nodup) (ht : t ∈ l) (f : Nat → TpThread) (p v : TpThread) :
    l.countP (fun u => decide ((if u = t then p else f u) = v)) + (if f t = v then 1 else 0) =
    l.countP (fun u => decide (f u = v)) + (if p = v then 1 else 0) := by
  rw [aux_tx_countP ht (fun u => decide ((if u = t then p else f u) = v)), aux_tx_countP ht (fun u => decide (f u = v))]
  have : (l.erase t).countP (fun u => decide ((if u = t then p else f u) = v)) = (l.erase t).countP (fun u => decide (f u = v)) := by
    apply List.countP_congr
    intro u hu
    have : u ≠ t := by rintro rfl; exact absurd hu (nd.not_mem_erase)
    simp [this]
  rw [this]
  simp
  omega

theorem aux_tx_cnt_out {l : List Nat} {t : Nat} (ht : t ∉ l) (f : Nat → TpThread) (p v : TpThread) :
    l.countP (fun u => decide ((if u = t then p else f u) = v)) = l.countP (fun u => decide (f u = v)) := by
  apply List.countP_congr
  intro u hu
  have : u ≠ t := by rintro rfl; exact ht hu
  simp [this]

/-- Each thread that stopped will be collected. -/
def aux_tx_U (s : PoolTasks) : Prop :=
  s.stopped.length = s.queue.count .join + s.threads.countP (fun u => decide (s.thr u = .collecting)) +
    s.stopped.countP (fun u => decide (s.thr u = .bye))

theorem aux_tx_U_set {s : PoolTasks} {log : List TpEvent} {q : List TpItem} {t : Nat} {p : TpThread} (hJ : aux_tx_J s log) (h : aux_tx_U s)
    (h1 : aux_tx_alive (s.thr t) = true)
    (hq : q.count .join + (if p = .collecting then 1 else 0) = s.queue.count .join + (if s.thr t = .collecting then 1 else 0)) :
    aux_tx_U (tpSet { s with queue := q } t p) := by
  have nd := List.nodup_append.1 hJ.nd
  have ht := (hJ.al t).2 h1
  have hn : t ∉ s.stopped := fun hs => nd.2.2 t ht t hs rfl
  have c1 := aux_tx_cnt_in nd.1 ht s.thr p .collecting
  have c2 := aux_tx_cnt_out hn s.thr p .bye
  simp only [aux_tx_U, tpSet] at h ⊢
  omega

theorem aux_tx_U_step (s : PoolTasks) (log : List TpEvent) (op : TpOp) (hJ : aux_tx_J s log) (h : aux_tx_U s) : aux_tx_U (tpStep s op).1 := by
  have hd : s.exit ≠ .done := by rw [hJ.ex]; simp
  have nd := List.nodup_append.1 hJ.nd
  cases op with
  | go t =>
    simp only [tpStep, tpGo]
    cases ht : s.thr t with
    | none => exact h
    | ended => exact h
    | waiting =>
      cases hq : s.queue with
      | nil => exact h
      | cons i q =>
        cases i with
        | task k => exact aux_tx_U_set hJ h (by simp [ht, aux_tx_alive]) (by simp [ht, hq])
        | beacon => exact absurd (by rw [hq]; exact List.mem_cons_self) hJ.nb
        | quit => exact aux_tx_U_set hJ h (by simp [ht, aux_tx_alive]) (by simp [ht, hq])
        | join => exact aux_tx_U_set hJ h (by simp [ht, aux_tx_alive]) (by simp [ht, hq])
    | hold k => dsimp only; split <;> exact aux_tx_U_set hJ h (by simp [ht, aux_tx_alive]) (by simp [ht])
    | running k =>
      dsimp only
      split
      · exact h
      · exact aux_tx_U_set hJ h (by simp [ht, aux_tx_alive]) (by simp [ht])
    | collecting =>
      have hm := (hJ.al t).2 (by simp [ht, aux_tx_alive])
      have c1 := aux_tx_cnt_in nd.1 hm s.thr .waiting .collecting
      have hn : t ∉ s.stopped := fun hs => nd.2.2 t hm t hs rfl
      have c2 := aux_tx_cnt_out hn s.thr .waiting .bye
      simp only [hd, if_false]
      split
      · rename_i e
        simp only [aux_tx_U, e] at h
        simp only [ht, if_true] at c1
        simp at h c1
        omega
      · rename_i u r e
        split
        · rename_i hu
          simp only [aux_tx_U, tpSet] at h ⊢
          rw [e] at h c2
          simp only [List.countP_cons, hu] at h c2
          simp only [ht, if_true] at c1
          have hu' : u ≠ t := by rintro rfl; rw [ht] at hu; cases hu
          simp [hu', hu] at h c1 c2
          omega
        · exact h
    | leaving =>
      simp only [hd, if_false]
      have hm := (hJ.al t).2 (by simp [ht, aux_tx_alive])
      have hn : t ∉ s.stopped := fun hs => nd.2.2 t hm t hs rfl
      have c1 := aux_tx_cnt_out (nd.1.not_mem_erase (a := t)) s.thr .bye .collecting
      have c2 := aux_tx_cnt_out hn s.thr .bye .bye
      have c3 := aux_tx_countP hm (fun u => decide (s.thr u = .collecting))
      simp only [aux_tx_U, tpSet] at h ⊢
      rw [List.countP_append, c1, c2]
      simp [ht] at c3 ⊢
      omega
    | bye =>
      have hm := hJ.by_ t ht
      have hn : t ∉ s.threads := fun hs => nd.2.2 t hs t hm rfl
      have c1 := aux_tx_cnt_out hn s.thr .ended .collecting
      have c2 := aux_tx_cnt_in nd.2.1 hm s.thr .ended .bye
      simp only [aux_tx_U, tpSet] at h ⊢
      rw [List.count_append, c1]
      simp [ht] at c2 ⊢
      omega
  | exitGo skip => simp only [tpStep, tpExitGo, hJ.ex]; exact h
  | add =>
    simp only [tpStep, hd, if_false]
    have hn : s.created ∉ s.threads := by rw [hJ.al, hJ.fresh _ (Nat.le_refl _)]; simp [aux_tx_alive]
    have hn2 : s.created ∉ s.stopped := by
      intro hs; have := hJ.st _ hs; rw [hJ.fresh _ (Nat.le_refl _)] at this; simp at this
    have c1 := aux_tx_cnt_out hn s.thr .waiting .collecting
    have c2 := aux_tx_cnt_out hn2 s.thr .waiting .bye
    simp only [aux_tx_U, tpSet] at h ⊢
    rw [List.countP_append, c1, c2]
    simpa using h
  | remove n =>
    simp only [tpStep, hd, if_false, aux_tx_U] at h ⊢
    rw [List.count_append]
    have : (List.replicate (tpQuits n s.threads.length) TpItem.quit).count .join = 0 := by
      rw [List.count_eq_zero]; simp [List.mem_replicate]
    omega
  | exiting => exact h
  | close => simp only [tpStep, hd, if_false]; exact h
  | exit self => simp only [tpStep]; split <;> exact h
  | new c => simp only [tpStep]; (repeat' split) <;> exact h
  | push c =>
    simp only [tpStep]
    split
    · exact h
    · simp only [hd, if_false, aux_tx_U] at h ⊢
      rw [List.count_append]
      simpa using h

/-- As long as the pool is not ended, when no removal is in progress, each thread ever created is one of the pool, or ended and was released,
once. -/
theorem C98_collected (ops : List TpOp) (h : ∀ op ∈ ops, ∀ self, op ≠ .exit self) (hq : tpQuiet (tpRun .init [] ops).1) (t : Nat)
    (ht : t < (tpRun .init [] ops).1.created) : t ∈ (tpRun .init [] ops).1.threads ∨
    ((tpRun .init [] ops).1.thr t = .ended ∧ (tpRun .init [] ops).2.count (.released t) = 1) := by
  have key : ∀ (ops : List TpOp) (s : PoolTasks) (log : List TpEvent), (∀ op ∈ ops, ∀ self, op ≠ .exit self) →
      aux_tx_J s log → aux_tx_U s → aux_tx_J (tpRun s log ops).1 (tpRun s log ops).2 ∧ aux_tx_U (tpRun s log ops).1 := by
    intro ops
    induction ops with
    | nil => intro s log _ h1 h2; exact ⟨h1, h2⟩
    | cons op ops ih =>
      intro s log h h1 h2
      refine ih _ _ (fun o ho => h o (List.mem_cons_of_mem _ ho)) ?_ (aux_tx_U_step s log op h1 h2)
      refine aux_tx_J_step s log op h1 ?_
      have he := h1.ex
      have hd : s.exit ≠ .done := by rw [he]; simp
      cases op with
      | go t => simp only [tpStep, tpGo]; (repeat' split) <;> simp_all [tpSet]
      | exitGo skip => simp only [tpStep, tpExitGo, he]
      | add => simp only [tpStep, hd, if_false, tpSet]; exact he
      | remove n => simp only [tpStep, hd, if_false]; exact he
      | exiting => exact he
      | close => simp only [tpStep, hd, if_false]; exact he
      | exit self => exact absurd rfl (h _ List.mem_cons_self self)
      | new c => simp only [tpStep]; (repeat' split) <;> simp_all
      | push c => simp only [tpStep]; (repeat' split) <;> simp_all
  obtain ⟨hJ, hU⟩ := key ops .init [] h aux_tx_J_init rfl
  generalize (tpRun .init [] ops).1 = s at *
  obtain ⟨q1, q2, q3, _⟩ := hq
  have hs : s.stopped = [] := by
    have e1 : s.threads.countP (fun u => decide (s.thr u = .collecting)) = 0 := by rw [List.countP_eq_zero]; intro u _; simp [q3 u]
    have e2 : s.stopped.countP (fun u => decide (s.thr u = .bye)) = 0 := by rw [List.countP_eq_zero]; intro u _; simp [q3 u]
    rw [aux_tx_U, e1, e2, List.count_eq_zero.2 q2] at hU
    exact List.eq_nil_of_length_eq_zero hU
  rcases hJ.all t ht with e | e | e
  · exact .inl e
  · rw [hs] at e; cases e
  · have := hJ.one t
    have := List.count_pos_iff.2 e
    exact .inr ⟨(hJ.rel t e).1, by omega⟩

-- one of two threads is removed, and collected by the other one
example : let r := tpRun .init [] [.add, .add, .remove 1, .go 0, .go 0, .go 0, .go 1, .go 1]
    r.1.created = 2 ∧ r.1.threads = [1] ∧ r.1.queue = [] ∧ r.1.thr 0 = .ended ∧ r.1.thr 1 = .waiting ∧ r.2 = [.released 0] := by decide

theorem C98_statement_false : ¬ C98_statement := by
  intro h
  obtain ⟨a, b, _, _, h2⟩ := C98_released_twice
  have := (h (a ++ .close :: .exit none :: b)).2.1 0
  omega

end Verif.Props
