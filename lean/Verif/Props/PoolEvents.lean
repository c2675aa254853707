import Verif.Spec.PoolEvents
/-!
# C99: A timed event of the pool is run by one thread at a time, ends when its handler says so, and can be removed
-/
namespace Verif.Props
open Verif.Model Verif.Spec

/-- C99: whatever the threads do, no released event is used; a handler is called only after the one called before it returned; an event is
not called any more once its handler said so, nor once it was reported removed; and what is removed is the event the identifier was
given for. -/
def C99_statement : Prop := ∀ ops : List PeOp, let log := (peRun .init [] ops).2
  PeEvent.crash ∉ log ∧
  (∀ pre k mid j post, log = pre ++ .began k :: (mid ++ .began j :: post) → ∃ b, PeEvent.ended k b ∈ mid) ∧
  (∀ pre k post, log = pre ++ .ended k true :: post → PeEvent.began k ∉ post) ∧
  (∀ pre k id post, log = pre ++ .removed k id :: post → PeEvent.began k ∉ post) ∧
  (∀ pre k id post, log = pre ++ .removed k id :: post → ∀ j, PeEvent.installed j id ∈ pre → j = k)

theorem aux_pe_run_append (s : PoolEvents) (log : List PeEvent) (a b : List PeOp) :
    peRun s log (a ++ b) = peRun (peRun s log a).1 (peRun s log a).2 b := by
  induction a generalizing s log with
  | nil => rfl
  | cons x a ih => exact ih _ _

/-- The event a thread has a reference to. -/
def aux_pe_held : PePc → Option Nat
  | .chosen k _ _ | .calling k _ _ | .returned k _ _ _ => some k
  | _ => none

def aux_pe_use (s : PoolEvents) (k : Nat) : Prop := ∃ t, aux_pe_held (s.pc t) = some k

open Classical in
/-- The list, the threads and the references fit together. -/
structure aux_pe_J (s : PoolEvents) : Prop where
  nd : s.events.Nodup
  lt : ∀ k ∈ s.events, k < s.next
  one : ∀ t u, s.pc t ≠ .idle → s.pc u ≠ .idle → t = u
  pr : s.processing = true ↔ ∃ t, s.pc t ≠ .idle
  rc : ∀ k, s.refs k = (if k ∈ s.events then 1 else 0) + (if aux_pe_use s k then 1 else 0)
  fresh : ∀ k, aux_pe_use s k → k < s.next

/-- What a step does, if the state is as it should be. -/
inductive aux_pe_T (s : PoolEvents) : PoolEvents → List PeEvent → Prop
  | skip : aux_pe_T s s []
  | unknown (id : Nat) (h : ∀ k ∈ s.events, s.addr k % 4294967296 ≠ id) : aux_pe_T s s [.unknown id]
  | install (a pos : Nat) (h : ∀ k, s.refs k ≠ 0 → s.addr k ≠ a) : aux_pe_T s
      { s with events := s.events.take pos ++ s.next :: s.events.drop pos, refs := fun j => if j = s.next then 1 else s.refs j,
               addr := fun j => if j = s.next then a else s.addr j, next := s.next + 1 } [.installed s.next (a % 4294967296)]
  | removeHeld (k : Nat) (hk : k ∈ s.events) (hh : aux_pe_use s k) : aux_pe_T s
      { s with events := s.events.erase k, refs := fun j => if j = k then 1 else s.refs j } [.removed k (s.addr k % 4294967296)]
  | removeFree (k : Nat) (hk : k ∈ s.events) (hh : ¬ aux_pe_use s k) : aux_pe_T s
      { s with events := s.events.erase k, refs := fun j => if j = k then 0 else s.refs j }
      [.removed k (s.addr k % 4294967296), .freed k]
  | start (t : Nat) (h : ∀ u, s.pc u = .idle) (hn : s.processing = false) (he : s.events ≠ []) : aux_pe_T s
      { s with processing := true, pc := fun u => if u = t then .scan s.events.length 0 else s.pc u } []
  | next (t len i : Nat) (p : PePc) (h : s.pc t = .scan len i) (hp : p = .scan len (i + 1) ∨ p = .last) : aux_pe_T s
      { s with pc := fun u => if u = t then p else s.pc u } []
  | choose (t k len i : Nat) (h : s.pc t = .scan len i) (hk : k ∈ s.events) : aux_pe_T s
      { s with refs := fun j => if j = k then 2 else s.refs j, pc := fun u => if u = t then .chosen k len i else s.pc u } []
  | call (t k len i : Nat) (h : s.pc t = .chosen k len i) : aux_pe_T s
      { s with pc := fun u => if u = t then .calling k len i else s.pc u } [.began k]
  | ret (t k len i : Nat) (stop : Bool) (h : s.pc t = .calling k len i) : aux_pe_T s
      { s with pc := fun u => if u = t then .returned k len i stop else s.pc u } [.ended k stop]
  | stop (t k len i : Nat) (h : s.pc t = .returned k len i true) : aux_pe_T s
      { s with events := s.events.erase k, refs := fun j => if j = k then 0 else s.refs j,
               pc := fun u => if u = t then .scan len i else s.pc u } [.freed k]
  | keepIn (t k len i : Nat) (h : s.pc t = .returned k len i false) (hk : k ∈ s.events) : aux_pe_T s
      { s with refs := fun j => if j = k then 1 else s.refs j, pc := fun u => if u = t then .scan len (i + 1) else s.pc u } []
  | keepOut (t k len i : Nat) (h : s.pc t = .returned k len i false) (hk : k ∉ s.events) : aux_pe_T s
      { s with refs := fun j => if j = k then 0 else s.refs j, pc := fun u => if u = t then .scan len (i + 1) else s.pc u } [.freed k]
  | finish (t : Nat) (h : s.pc t = .last) : aux_pe_T s
      { s with processing := false, pc := fun u => if u = t then .idle else s.pc u } []

theorem aux_pe_J.use_iff {s : PoolEvents} (j : aux_pe_J s) {t : Nat} (ht : s.pc t ≠ .idle) (k : Nat) :
    aux_pe_use s k ↔ aux_pe_held (s.pc t) = some k := by
  constructor
  · rintro ⟨u, hu⟩
    have : s.pc u ≠ .idle := by intro h; simp [h, aux_pe_held] at hu
    rw [j.one t u ht this]; exact hu
  · exact fun h => ⟨t, h⟩

theorem aux_pe_T_of (s : PoolEvents) (op : PeOp) (j : aux_pe_J s) : aux_pe_T s (peStep s op).1 (peStep s op).2 := by
  cases op with
  | install a pos =>
    by_cases h : (List.range s.next).any (fun k => s.refs k ≠ 0 && s.addr k = a) = true
    · have e : peStep s (.install a pos) = (s, []) := by simp only [peStep, if_pos h]
      rw [e]; exact .skip
    · have hh : ∀ k, s.refs k ≠ 0 → s.addr k ≠ a := ?_
      · simp only [peStep, if_neg h]; exact .install a pos hh
      intro k hk ha
      apply h
      simp only [List.any_eq_true, List.mem_range]
      refine ⟨k, ?_, by simp [hk, ha]⟩
      have := j.rc k
      by_cases h1 : k ∈ s.events
      · exact j.lt k h1
      · by_cases h2 : aux_pe_use s k
        · exact j.fresh k h2
        · simp [h1, h2] at this; exact absurd this hk
  | remove id =>
    cases h : s.events.find? (fun k => peId (s.addr k) = id) with
    | none =>
      have e : peStep s (.remove id) = (s, [.unknown id]) := by simp only [peStep, h]
      rw [e]; refine .unknown id ?_
      intro k hk; have := List.find?_eq_none.1 h k hk; exact fun e => this (decide_eq_true e)
    | some k =>
      have hk := List.mem_of_find?_eq_some h
      have hid : s.addr k % 4294967296 = id := by have := List.find?_some h; exact of_decide_eq_true this
      have hr := j.rc k
      by_cases hu : aux_pe_use s k
      · simp [hk, hu] at hr
        have e : peStep s (.remove id) = ({ s with events := s.events.erase k, refs := fun j => if j = k then 1 else s.refs j },
            [.removed k id]) := by
          simp [peStep, h, peDrop, hk, peUnref, hr, peRef]
        rw [e, ← hid]; exact .removeHeld k hk hu
      · simp [hk, hu] at hr
        have e : peStep s (.remove id) = ({ s with events := s.events.erase k, refs := fun j => if j = k then 0 else s.refs j },
            [.removed k id, .freed k]) := by
          simp [peStep, h, peDrop, hk, peUnref, hr, peRef]
        rw [e, ← hid]; exact .removeFree k hk hu
  | start t =>
    by_cases h : s.pc t = .idle ∧ s.processing = false ∧ s.events ≠ []
    · simp only [peStep, if_pos h]
      refine .start t ?_ h.2.1 h.2.2
      intro u
      by_cases hu : s.pc u = .idle
      · exact hu
      · have := j.pr.2 ⟨u, hu⟩; simp [h.2.1] at this
    · have e : peStep s (.start t) = (s, []) := by simp only [peStep, if_neg h]
      rw [e]; exact .skip
  | look t due =>
    cases h : s.pc t with
    | scan len i =>
      by_cases hl : len ≤ i
      · simp only [peStep, h, if_pos hl]
        exact .next t len i _ h (Or.inr rfl)
      · cases hn : s.events[i]? with
        | none =>
          simp only [peStep, h, if_neg hl, hn]
          exact .next t len i _ h (Or.inr rfl)
        | some k =>
          have hk := List.mem_of_getElem? hn
          have hu : ¬ aux_pe_use s k := by
            rw [j.use_iff (t := t) (by simp [h])]; simp [h, aux_pe_held]
          have hr := j.rc k
          simp [hk, hu] at hr
          cases due with
          | false =>
            have e : peStep s (.look t false) = (peGoto s t (.scan len (i + 1)), []) := by
              simp [peStep, h, hl, hn, hr]
            rw [e]; exact .next t len i _ h (Or.inl rfl)
          | true =>
            have e : peStep s (.look t true) = (peGoto (peRef s k 2) t (.chosen k len i), []) := by
              simp [peStep, h, hl, hn, hr]
            rw [e]; exact .choose t k len i h hk
    | _ => have e : peStep s (.look t due) = (s, []) := by simp only [peStep, h]
           rw [e]; exact .skip
  | call t =>
    cases h : s.pc t with
    | chosen k len i =>
      simp only [peStep, h]
      exact .call t k len i h
    | _ => have e : peStep s (.call t) = (s, []) := by simp only [peStep, h]
           rw [e]; exact .skip
  | ret t stop =>
    cases h : s.pc t with
    | calling k len i =>
      simp only [peStep, h]
      exact .ret t k len i stop h
    | _ => have e : peStep s (.ret t stop) = (s, []) := by simp only [peStep, h]
           rw [e]; exact .skip
  | settle t =>
    cases h : s.pc t with
    | returned k len i stop =>
      have hu : aux_pe_use s k := ⟨t, by simp [h, aux_pe_held]⟩
      have hr := j.rc k
      by_cases hk : k ∈ s.events
      · simp [hk, hu] at hr
        cases stop with
        | true =>
          have e : peStep s (.settle t) = 
              ({ s with events := s.events.erase k, refs := fun j => if j = k then 0 else s.refs j, pc := fun u => if u = t then .scan len i else s.pc u },
               [.freed k]) := by
            simp [peStep, h, peDrop, hk, peUnref, hr, peRef, peGoto]
            funext x; by_cases hx : x = k <;> simp [hx]
          rw [e]; exact .stop t k len i h
        | false =>
          have e : peStep s (.settle t) = 
              ({ s with refs := fun j => if j = k then 1 else s.refs j, pc := fun u => if u = t then .scan len (i + 1) else s.pc u }, []) := by
            simp [peStep, h, peUnref, hr, peRef, peGoto]
          rw [e]; exact .keepIn t k len i h hk
      · simp [hk, hu] at hr
        cases stop with
        | true =>
          have e : peStep s (.settle t) = 
              ({ s with events := s.events.erase k, refs := fun j => if j = k then 0 else s.refs j, pc := fun u => if u = t then .scan len i else s.pc u },
               [.freed k]) := by
            simp [peStep, h, peDrop, hk, peUnref, hr, peRef, peGoto, List.erase_of_not_mem]
          rw [e]; exact .stop t k len i h
        | false =>
          have e : peStep s (.settle t) = 
              ({ s with refs := fun j => if j = k then 0 else s.refs j, pc := fun u => if u = t then .scan len (i + 1) else s.pc u }, [.freed k]) := by
            simp [peStep, h, peUnref, hr, peRef, peGoto]
          rw [e]; exact .keepOut t k len i h hk
    | _ => have e : peStep s (.settle t) = (s, []) := by simp only [peStep, h]
           rw [e]; exact .skip
  | finish t =>
    by_cases h : s.pc t = .last
    · simp only [peStep, if_pos h]
      exact .finish t h
    · have e : peStep s (.finish t) = (s, []) := by simp only [peStep, if_neg h]
      rw [e]; exact .skip

open Classical in
theorem aux_pe_J.rc_at {s : PoolEvents} (j : aux_pe_J s) {t : Nat} (ht : s.pc t ≠ .idle) (k : Nat) :
    s.refs k = (if k ∈ s.events then 1 else 0) + (if aux_pe_held (s.pc t) = some k then 1 else 0) := by
  have := j.rc k
  simp only [j.use_iff ht] at this
  exact this

open Classical in
theorem aux_pe_J_move {s : PoolEvents} (j : aux_pe_J s) {t : Nat} (ht : s.pc t ≠ .idle) {p : PePc} (hp : p ≠ .idle)
    (ev : List Nat) (rf : Nat → Nat) (hnd : ev.Nodup) (hlt : ∀ k ∈ ev, k < s.next)
    (hrc : ∀ k, rf k = (if k ∈ ev then 1 else 0) + (if aux_pe_held p = some k then 1 else 0))
    (hf : ∀ k, aux_pe_held p = some k → k < s.next) :
    aux_pe_J { s with events := ev, refs := rf, pc := fun u => if u = t then p else s.pc u } := by
  have hid : ∀ u, u ≠ t → s.pc u = .idle := fun u hu => by
    by_cases h : s.pc u = .idle
    · exact h
    · exact absurd (j.one u t h ht) hu
  have huse : ∀ k, aux_pe_use { s with events := ev, refs := rf, pc := fun u => if u = t then p else s.pc u } k ↔ aux_pe_held p = some k := by
    intro k
    constructor
    · rintro ⟨u, hu⟩
      by_cases e : u = t
      · simpa [e] using hu
      · simp [e, hid u e, aux_pe_held] at hu
    · exact fun h => ⟨t, by simpa using h⟩
  refine ⟨hnd, hlt, ?_, ?_, ?_, ?_⟩
  · intro u v hu hv
    have h1 : ∀ u, (if u = t then p else s.pc u) ≠ PePc.idle → u = t := fun u hu => by
      by_cases e : u = t
      · exact e
      · simp [e, hid u e] at hu
    rw [h1 u hu, h1 v hv]
  · exact ⟨fun _ => ⟨t, by simpa using hp⟩, fun _ => j.pr.2 ⟨t, ht⟩⟩
  · intro k; simp only [huse]; exact hrc k
  · intro k hk; exact hf k ((huse k).1 hk)

theorem aux_pe_J_init : aux_pe_J .init :=
  ⟨by simp [PoolEvents.init], by simp [PoolEvents.init], by simp [PoolEvents.init], by simp [PoolEvents.init],
   by simp [PoolEvents.init, aux_pe_use, aux_pe_held], by simp [PoolEvents.init, aux_pe_use, aux_pe_held]⟩

theorem aux_pe_perm (l : List Nat) (k pos : Nat) : (l.take pos ++ k :: l.drop pos).Perm (k :: l) := by
  have h : (l.take pos ++ k :: l.drop pos).Perm (k :: (l.take pos ++ l.drop pos)) := List.perm_middle
  rwa [List.take_append_drop] at h

theorem aux_pe_J_T {s s' : PoolEvents} {evs : List PeEvent} (j : aux_pe_J s) (h : aux_pe_T s s' evs) : aux_pe_J s' := by
  cases h with
  | skip => exact j
  | unknown id h => exact j
  | install a pos h =>
    have pm := aux_pe_perm s.events s.next pos
    have hn : s.next ∉ s.events := fun h => Nat.lt_irrefl _ (j.lt _ h)
    have hu : ¬ aux_pe_use s s.next := fun h => Nat.lt_irrefl _ (j.fresh _ h)
    refine ⟨pm.nodup_iff.2 (List.nodup_cons.2 ⟨hn, j.nd⟩), ?_, j.one, j.pr, ?_, fun k hk => Nat.lt_succ_of_lt (j.fresh k hk)⟩
    · intro k hk
      rcases List.mem_cons.1 (pm.mem_iff.1 hk) with h | h
      · subst h; exact Nat.lt_succ_self _
      · exact Nat.lt_succ_of_lt (j.lt k h)
    · intro k
      have hk := j.rc k
      by_cases e : k = s.next
      · subst e
        have : ¬ aux_pe_use { s with events := s.events.take pos ++ s.next :: s.events.drop pos, refs := fun j => if j = s.next then 1 else s.refs j, addr := fun j => if j = s.next then a else s.addr j, next := s.next + 1 } s.next := hu
        simp [this]
      · have : (k ∈ s.events.take pos ++ s.next :: s.events.drop pos) ↔ k ∈ s.events := by
          rw [pm.mem_iff]; simp [e]
        simp only [this, e, if_false]
        exact hk
  | removeHeld k hk hh =>
    refine ⟨j.nd.erase k, fun i hi => j.lt i (List.mem_of_mem_erase hi), j.one, j.pr, ?_, j.fresh⟩
    intro i
    by_cases e : i = k
    · subst e
      have hu : aux_pe_use { s with events := s.events.erase i, refs := fun j => if j = i then 1 else s.refs j } i := hh
      have hm : i ∉ s.events.erase i := j.nd.not_mem_erase
      simp [hu, hm]
    · have hm : i ∈ s.events.erase k ↔ i ∈ s.events := List.mem_erase_of_ne e
      simp only [hm, e, if_false]; exact j.rc i
  | removeFree k hk hh =>
    refine ⟨j.nd.erase k, fun i hi => j.lt i (List.mem_of_mem_erase hi), j.one, j.pr, ?_, j.fresh⟩
    intro i
    by_cases e : i = k
    · subst e
      have hu : ¬ aux_pe_use { s with events := s.events.erase i, refs := fun j => if j = i then 0 else s.refs j } i := hh
      have hm : i ∉ s.events.erase i := j.nd.not_mem_erase
      simp [hu, hm]
    · have hm : i ∈ s.events.erase k ↔ i ∈ s.events := List.mem_erase_of_ne e
      simp only [hm, e, if_false]; exact j.rc i
  | start t h hn he =>
    have hu : ∀ k, ¬ aux_pe_use s k := by rintro k ⟨u, hu⟩; simp [h u, aux_pe_held] at hu
    have hu' : ∀ k, ¬ aux_pe_use { s with processing := true, pc := fun u => if u = t then .scan s.events.length 0 else s.pc u } k := by
      rintro k ⟨u, hu⟩
      by_cases e : u = t <;> simp [e, h u, aux_pe_held] at hu
    refine ⟨j.nd, j.lt, ?_, ?_, ?_, fun k hk => absurd hk (hu' k)⟩
    · intro u v h1 h2
      by_cases e : u = t
      · by_cases e' : v = t
        · rw [e, e']
        · simp [e', h v] at h2
      · simp [e, h u] at h1
    · exact ⟨fun _ => ⟨t, by simp⟩, fun _ => rfl⟩
    · intro k; simp only [hu' k]; have := j.rc k; simp only [hu k] at this; exact this
  | next t len i p h hp =>
    have ht : s.pc t ≠ .idle := by simp [h]
    have hp' : aux_pe_held p = none ∧ p ≠ .idle := by rcases hp with h | h <;> simp [h, aux_pe_held]
    refine aux_pe_J_move j ht hp'.2 s.events s.refs j.nd j.lt ?_ (by simp [hp'.1])
    intro k; rw [hp'.1]; have := j.rc_at ht k; simpa [h, aux_pe_held] using this
  | choose t k len i h hk =>
    have ht : s.pc t ≠ .idle := by simp [h]
    refine aux_pe_J_move j ht (by simp) s.events _ j.nd j.lt ?_ ?_
    · intro m; have := j.rc_at ht m
      simp only [h, aux_pe_held] at this ⊢
      by_cases e : m = k
      · simp [e, hk]
      · simpa [e, Ne.symm e] using this
    · intro m hm; simp [aux_pe_held] at hm; exact hm ▸ j.lt k hk
  | call t k len i h =>
    have ht : s.pc t ≠ .idle := by simp [h]
    refine aux_pe_J_move j ht (by simp) s.events s.refs j.nd j.lt ?_ ?_
    · intro m; have := j.rc_at ht m; simpa [h, aux_pe_held] using this
    · intro m hm; exact j.fresh m ⟨t, by rw [h]; exact hm⟩
  | ret t k len i stop h =>
    have ht : s.pc t ≠ .idle := by simp [h]
    refine aux_pe_J_move j ht (by simp) s.events s.refs j.nd j.lt ?_ ?_
    · intro m; have := j.rc_at ht m; simpa [h, aux_pe_held] using this
    · intro m hm; exact j.fresh m ⟨t, by rw [h]; exact hm⟩
  | stop t k len i h =>
    have ht : s.pc t ≠ .idle := by simp [h]
    refine aux_pe_J_move j ht (by simp) _ _ (j.nd.erase k) (fun i hi => j.lt i (List.mem_of_mem_erase hi)) ?_ (by simp [aux_pe_held])
    intro m; have := j.rc_at ht m
    simp only [h, aux_pe_held] at this ⊢
    by_cases e : m = k
    · subst e
      have hm : m ∉ s.events.erase m := j.nd.not_mem_erase
      simp [hm]
    · have hm : m ∈ s.events.erase k ↔ m ∈ s.events := List.mem_erase_of_ne e
      simp only [hm]; simpa [e, Ne.symm e] using this
  | keepIn t k len i h hk =>
    have ht : s.pc t ≠ .idle := by simp [h]
    refine aux_pe_J_move j ht (by simp) s.events _ j.nd j.lt ?_ (by simp [aux_pe_held])
    intro m; have := j.rc_at ht m
    simp only [h, aux_pe_held] at this ⊢
    by_cases e : m = k
    · simp [e, hk]
    · simpa [e, Ne.symm e] using this
  | keepOut t k len i h hk =>
    have ht : s.pc t ≠ .idle := by simp [h]
    refine aux_pe_J_move j ht (by simp) s.events _ j.nd j.lt ?_ (by simp [aux_pe_held])
    intro m; have := j.rc_at ht m
    simp only [h, aux_pe_held] at this ⊢
    by_cases e : m = k
    · simp [e, hk]
    · simpa [e, Ne.symm e] using this
  | finish t h =>
    have ht : s.pc t ≠ .idle := by simp [h]
    have hid : ∀ u, (if u = t then PePc.idle else s.pc u) = .idle := fun u => by
      by_cases e : u = t
      · simp [e]
      · by_cases hu : s.pc u = .idle
        · simp [hu]
        · exact absurd (j.one u t hu ht) e
    have hu' : ∀ k, ¬ aux_pe_use { s with processing := false, pc := fun u => if u = t then .idle else s.pc u } k := by
      rintro k ⟨u, hu⟩; simp only [hid u, aux_pe_held] at hu; simp at hu
    refine ⟨j.nd, j.lt, ?_, ?_, ?_, fun k hk => absurd hk (hu' k)⟩
    · intro u v h1; exact absurd (hid u) h1
    · simp only [hid]; simp
    · intro k; simp only [hu' k]; have := j.rc_at ht k; simpa [h, aux_pe_held] using this

/-- What holds at the beginning and is kept by each step holds always. -/
theorem aux_pe_ind {P : PoolEvents → List PeEvent → Prop} (h0 : P .init [])
    (hs : ∀ s log s' evs, aux_pe_J s → P s log → aux_pe_T s s' evs → P s' (log ++ evs)) (ops : List PeOp) :
    aux_pe_J (peRun .init [] ops).1 ∧ P (peRun .init [] ops).1 (peRun .init [] ops).2 := by
  have : ∀ (ops : List PeOp) (s : PoolEvents) (log : List PeEvent), aux_pe_J s → P s log →
      aux_pe_J (peRun s log ops).1 ∧ P (peRun s log ops).1 (peRun s log ops).2 := by
    intro ops
    induction ops with
    | nil => exact fun s log j h => ⟨j, h⟩
    | cons op ops ih =>
      intro s log j h
      have t := aux_pe_T_of s op j
      exact ih _ _ (aux_pe_J_T j t) (hs _ _ _ _ j h t)
  exact this ops _ _ aux_pe_J_init h0

theorem aux_pe_log {log evs pre post : List PeEvent} {e : PeEvent} (h : log ++ evs = pre ++ e :: post) :
    (∃ a, pre = log ++ a ∧ evs = a ++ e :: post) ∨ ∃ c, log = pre ++ e :: c ∧ post = c ++ evs := by
  rcases List.append_eq_append_iff.1 h with ⟨a, ha, hb⟩ | ⟨c, hc, hd⟩
  · exact Or.inl ⟨a, ha, hb⟩
  · cases c with
    | nil => simp at hc hd; exact Or.inl ⟨[], by simp [hc], by simp [hd]⟩
    | cons x c =>
      simp at hd
      obtain ⟨rfl, rfl⟩ := hd
      exact Or.inr ⟨c, hc, rfl⟩

/-- What holds right after an event and is kept by each step holds always after it. -/
theorem aux_pe_after {P : PoolEvents → List PeEvent → Prop} (h0 : P .init [])
    (hs : ∀ s log s' evs, aux_pe_J s → P s log → aux_pe_T s s' evs → P s' (log ++ evs))
    (e : PeEvent) (Q : List PeEvent → PoolEvents → List PeEvent → Prop)
    (h1 : ∀ s log s' evs a b, aux_pe_J s → P s log → aux_pe_T s s' evs → evs = a ++ e :: b → Q (log ++ a) s' b)
    (h2 : ∀ pre s s' evs post, aux_pe_J s → Q pre s post → aux_pe_T s s' evs → Q pre s' (post ++ evs))
    (ops : List PeOp) (pre post : List PeEvent) (h : (peRun .init [] ops).2 = pre ++ e :: post) : Q pre (peRun .init [] ops).1 post := by
  have := (aux_pe_ind (P := fun s log => P s log ∧ ∀ pre post, log = pre ++ e :: post → Q pre s post) ⟨h0, by simp⟩ ?_ ops).2.2
  · exact this pre post h
  · rintro s log s' evs j ⟨hp, hq⟩ t
    refine ⟨hs _ _ _ _ j hp t, ?_⟩
    intro pre post he
    rcases aux_pe_log he with ⟨a, ha, hb⟩ | ⟨c, hc, hd⟩
    · subst ha; exact h1 _ _ _ _ _ _ j hp t hb
    · subst hd; exact h2 _ _ _ _ _ j (hq _ _ hc) t

theorem aux_pe_one {x e : PeEvent} {a b : List PeEvent} (h : [x] = a ++ e :: b) : a = [] ∧ x = e ∧ b = [] := by
  cases a with
  | nil => simp at h; simp [h]
  | cons y a => simp at h

theorem aux_pe_two {x y e : PeEvent} {a b : List PeEvent} (h : [x, y] = a ++ e :: b) :
    (a = [] ∧ x = e ∧ b = [y]) ∨ (a = [x] ∧ y = e ∧ b = []) := by
  cases a with
  | nil => simp at h; simp [h]
  | cons z a =>
    simp at h
    obtain ⟨rfl, h⟩ := h
    obtain ⟨rfl, h1, h2⟩ := aux_pe_one h
    simp [h1, h2]

theorem aux_pe_zero {e : PeEvent} {a b : List PeEvent} (h : [] = a ++ e :: b) : False := by
  cases a <;> simp at h

theorem aux_pe_J.pos_ev {s : PoolEvents} (j : aux_pe_J s) {k : Nat} (h : k ∈ s.events) : s.refs k ≠ 0 := by
  rw [j.rc k]; simp [h]

theorem aux_pe_J.pos_pc {s : PoolEvents} (j : aux_pe_J s) {k t : Nat} (h : aux_pe_held (s.pc t) = some k) : s.refs k ≠ 0 := by
  rw [j.rc k]; simp [show aux_pe_use s k from ⟨t, h⟩]

theorem aux_pe_J.lt_of {s : PoolEvents} (j : aux_pe_J s) {k : Nat} (h : s.refs k ≠ 0) : k < s.next := by
  by_cases h1 : k ∈ s.events
  · exact j.lt k h1
  · by_cases h2 : aux_pe_use s k
    · exact j.fresh k h2
    · have := j.rc k; simp [h1, h2] at this; exact absurd this h

theorem aux_pe_J.zero {s : PoolEvents} (j : aux_pe_J s) {k : Nat} (h1 : k ∉ s.events) (h2 : ¬ aux_pe_use s k) : s.refs k = 0 := by
  have := j.rc k; simpa [h1, h2] using this

/-- Nothing happens to a released event. -/
theorem aux_pe_dead {s s' : PoolEvents} {evs : List PeEvent} {k : Nat} (j : aux_pe_J s) (t : aux_pe_T s s' evs) (h0 : s.refs k = 0)
    (h1 : k < s.next) : (s'.refs k = 0 ∧ k < s'.next) ∧
      PeEvent.freed k ∉ evs ∧ PeEvent.began k ∉ evs ∧ (∀ b, PeEvent.ended k b ∉ evs) ∧ ∀ id, PeEvent.removed k id ∉ evs := by
  cases t with
  | skip => simp [h0, h1]
  | unknown id h => simp [h0, h1]
  | install a pos h =>
    have : k ≠ s.next := by omega
    simp [this, h0]; omega
  | removeHeld m hk hh =>
    have : k ≠ m := by rintro rfl; exact j.pos_ev hk h0
    simp [this, h0, h1]
  | removeFree m hk hh =>
    have : k ≠ m := by rintro rfl; exact j.pos_ev hk h0
    simp [this, h0, h1]
  | start t h hn he => simp [h0, h1]
  | next t len i p h hp => simp [h0, h1]
  | choose t m len i h hk =>
    have : k ≠ m := by rintro rfl; exact j.pos_ev hk h0
    simp [this, h0, h1]
  | call t m len i h =>
    have : k ≠ m := by rintro rfl; exact j.pos_pc (t := t) (by simp [h, aux_pe_held]) h0
    simp [this, h0, h1]
  | ret t m len i stop h =>
    have : k ≠ m := by rintro rfl; exact j.pos_pc (t := t) (by simp [h, aux_pe_held]) h0
    simp [this, h0, h1]
  | stop t m len i h =>
    have : k ≠ m := by rintro rfl; exact j.pos_pc (t := t) (by simp [h, aux_pe_held]) h0
    simp [this, h0, h1]
  | keepIn t m len i h hk =>
    have : k ≠ m := by rintro rfl; exact j.pos_pc (t := t) (by simp [h, aux_pe_held]) h0
    simp [this, h0, h1]
  | keepOut t m len i h hk =>
    have : k ≠ m := by rintro rfl; exact j.pos_pc (t := t) (by simp [h, aux_pe_held]) h0
    simp [this, h0, h1]
  | finish t h => simp [h0, h1]

/-- C99: nothing released is used, and no memory is released twice. -/
theorem C99_memory (ops : List PeOp) : let log := (peRun .init [] ops).2
    PeEvent.crash ∉ log ∧ ∀ pre k post, log = pre ++ .freed k :: post →
      PeEvent.freed k ∉ post ∧ PeEvent.began k ∉ post ∧ (∀ b, PeEvent.ended k b ∉ post) ∧ ∀ id, PeEvent.removed k id ∉ post := by
  refine ⟨(aux_pe_ind (P := fun _ log => PeEvent.crash ∉ log) (by simp) ?_ ops).2, ?_⟩
  · intro s log s' evs j h t
    cases t <;> simpa using h
  · intro pre k post h
    have := aux_pe_after (P := fun _ _ => True) trivial (fun _ _ _ _ _ _ _ => trivial) (.freed k)
      (fun _ s post => (s.refs k = 0 ∧ k < s.next) ∧
        PeEvent.freed k ∉ post ∧ PeEvent.began k ∉ post ∧ (∀ b, PeEvent.ended k b ∉ post) ∧ ∀ id, PeEvent.removed k id ∉ post) ?_ ?_ ops pre post h
    · exact this.2
    · intro s log s' evs a b j _ t he
      cases t with
      | removeFree m hk hh =>
        rcases aux_pe_two he with ⟨_, h, _⟩ | ⟨_, h, hb⟩
        · simp at h
        · simp at h; subst h; simp [hb, j.lt _ hk]
      | stop t m len i hp =>
        obtain ⟨_, e, hb⟩ := aux_pe_one he
        simp at e; subst e; simp [hb, j.fresh m ⟨t, by simp [hp, aux_pe_held]⟩]
      | keepOut t m len i hp hk =>
        obtain ⟨_, e, hb⟩ := aux_pe_one he
        simp at e; subst e; simp [hb, j.fresh m ⟨t, by simp [hp, aux_pe_held]⟩]
      | _ => first | exact (aux_pe_zero he).elim | (have := (aux_pe_one he).2.1; simp at this)
    · rintro pre s s' evs post j ⟨⟨h1, h2⟩, h4⟩ t
      have := aux_pe_dead j t h1 h2
      refine ⟨this.1, ?_⟩
      simp only [List.mem_append, not_or]
      grind

/-- Where a thread may be for an event of the list, or for one that is not in it any more. -/
theorem aux_pe_gone {s s' : PoolEvents} {evs : List PeEvent} {k : Nat} (t : aux_pe_T s s' evs) (h0 : k ∉ s.events) (h1 : k < s.next) :
    k ∉ s'.events ∧ k < s'.next := by
  cases t with
  | install a pos h =>
    have : k ≠ s.next := by omega
    refine ⟨fun hk => ?_, by simp; omega⟩
    rcases List.mem_cons.1 ((aux_pe_perm _ _ _).mem_iff.1 hk) with h | h
    · exact this h
    · exact h0 h
  | removeHeld m hk hh => exact ⟨fun h => h0 (List.mem_of_mem_erase h), h1⟩
  | removeFree m hk hh => exact ⟨fun h => h0 (List.mem_of_mem_erase h), h1⟩
  | stop t m len i h => exact ⟨fun h => h0 (List.mem_of_mem_erase h), h1⟩
  | _ => exact ⟨h0, h1⟩

/-- A thread is about to call the handler. -/
def aux_pe_about (s : PoolEvents) (k : Nat) : Prop := ∃ t len i, s.pc t = .chosen k len i

/-- Of an event that is not in the list, nobody gets about to call the handler; who is about to call it does so at most once. -/
theorem aux_pe_about_T {s s' : PoolEvents} {evs : List PeEvent} {k : Nat} (j : aux_pe_J s) (t : aux_pe_T s s' evs) (h0 : k ∉ s.events) :
    (aux_pe_about s' k → aux_pe_about s k ∧ PeEvent.began k ∉ evs) ∧ evs.count (.began k) ≤ 1 ∧ (PeEvent.began k ∈ evs → aux_pe_about s k) := by
  have move : ∀ (t : Nat) (p : PePc), (∀ len i, p ≠ .chosen k len i) →
      (∃ u len i, (if u = t then p else s.pc u) = .chosen k len i) → aux_pe_about s k := by
    rintro t p hp ⟨u, len, i, h⟩
    by_cases e : u = t
    · simp [e] at h; exact absurd h (hp len i)
    · simp [e] at h; exact ⟨u, len, i, h⟩
  cases t with
  | skip => simp
  | unknown id h => simp
  | install a pos h => simp; exact id
  | removeHeld m hk hh => simp; exact id
  | removeFree m hk hh => simp; exact id
  | start t h hn he => simp; exact move t _ (by simp)
  | next t len i p h hp => simp; exact move t _ (by rcases hp with h | h <;> simp [h])
  | choose t m len i h hk =>
    have : m ≠ k := by rintro rfl; exact h0 hk
    simp; exact move t _ (by simp [this])
  | call t m len i h =>
    by_cases e : m = k
    · subst e
      refine ⟨fun ⟨u, l, i', hu⟩ => ?_, by simp, fun _ => ⟨t, len, i, h⟩⟩
      by_cases e : u = t
      · simp [e] at hu
      · simp [e] at hu; exact absurd (j.one u t (by simp [hu]) (by simp [h])) e
    · simp [e, Ne.symm e]; exact move t _ (by simp)
  | ret t m len i stop h => simp; exact move t _ (by simp)
  | stop t m len i h => simp; exact move t _ (by simp)
  | keepIn t m len i h hk => simp; exact move t _ (by simp)
  | keepOut t m len i h hk => simp; exact move t _ (by simp)
  | finish t h => simp; exact move t _ (by simp)

/-- C99: an event that was reported removed is called at most once more, and not removed again. -/
theorem C99_removed_partial (ops : List PeOp) (pre post : List PeEvent) (k id : Nat)
    (h : (peRun .init [] ops).2 = pre ++ .removed k id :: post) :
    post.count (.began k) ≤ 1 ∧ ∀ id', PeEvent.removed k id' ∉ post := by
  have := aux_pe_after (P := fun _ _ => True) trivial (fun _ _ _ _ _ _ _ => trivial) (.removed k id)
    (fun _ s post => (k ∉ s.events ∧ k < s.next) ∧ (aux_pe_about s k → PeEvent.began k ∉ post) ∧ post.count (.began k) ≤ 1 ∧
      ∀ id', PeEvent.removed k id' ∉ post) ?_ ?_ ops pre post h
  · exact this.2.2
  · intro s log s' evs a b j _ t he
    cases t with
    | removeHeld m hk hh =>
      obtain ⟨_, e, hb⟩ := aux_pe_one he
      simp at e; obtain ⟨rfl, _⟩ := e
      simp [hb, j.lt _ hk, j.nd.not_mem_erase]
    | removeFree m hk hh =>
      rcases aux_pe_two he with ⟨_, h, hb⟩ | ⟨_, h, _⟩
      · simp at h; obtain ⟨rfl, _⟩ := h
        simp [hb, j.lt _ hk, j.nd.not_mem_erase]
      · simp at h
    | _ => first | exact (aux_pe_zero he).elim | (have := (aux_pe_one he).2.1; simp at this)
  · rintro pre s s' evs post j ⟨⟨h1, h2⟩, h3, h4, h5⟩ t
    have ha := aux_pe_about_T j t h1
    refine ⟨aux_pe_gone t h1 h2, ?_, ?_, ?_⟩
    · intro hx hm
      rcases List.mem_append.1 hm with hm | hm
      · exact h3 (ha.1 hx).1 hm
      · exact (ha.1 hx).2 hm
    · rw [List.count_append]
      by_cases hm : PeEvent.began k ∈ evs
      · have : post.count (.began k) = 0 := List.count_eq_zero.2 (h3 (ha.2.2 hm))
        omega
      · have : evs.count (.began k) = 0 := List.count_eq_zero.2 hm
        omega
    · intro id' hm
      rcases List.mem_append.1 hm with hm | hm
      · exact h5 _ hm
      · cases t with
        | removeHeld m hk hh => simp at hm; exact h1 (hm.1 ▸ hk)
        | removeFree m hk hh => simp at hm; exact h1 (hm.1 ▸ hk)
        | _ => simp at hm

/-- C99: an event whose handler said that it should be removed is not called again. -/
theorem C99_ends (ops : List PeOp) (pre post : List PeEvent) (k : Nat)
    (h : (peRun .init [] ops).2 = pre ++ .ended k true :: post) : PeEvent.began k ∉ post := by
  have := aux_pe_after (P := fun _ _ => True) trivial (fun _ _ _ _ _ _ _ => trivial) (.ended k true)
    (fun _ s post => PeEvent.began k ∉ post ∧
      ((k ∉ s.events ∧ k < s.next ∧ ¬ aux_pe_about s k) ∨ ∃ t len i, s.pc t = .returned k len i true)) ?_ ?_ ops pre post h
  · exact this.1
  · intro s log s' evs a b j _ t he
    cases t with
    | ret t m len i stop h =>
      obtain ⟨_, e, hb⟩ := aux_pe_one he
      simp at e; obtain ⟨rfl, rfl⟩ := e
      exact ⟨by simp [hb], Or.inr ⟨t, len, i, by simp⟩⟩
    | removeFree m hk hh => rcases aux_pe_two he with ⟨_, h, _⟩ | ⟨_, h, _⟩ <;> simp at h
    | _ => first | exact (aux_pe_zero he).elim | (have := (aux_pe_one he).2.1; simp at this)
  · rintro pre s s' evs post j ⟨h1, h2⟩ t
    rcases h2 with ⟨h2, h3, h4⟩ | ⟨u, len, i, hu⟩
    · have ha := aux_pe_about_T j t h2
      have hg := aux_pe_gone t h2 h3
      refine ⟨?_, Or.inl ⟨hg.1, hg.2, fun hx => h4 (ha.1 hx).1⟩⟩
      simp only [List.mem_append, not_or]
      exact ⟨h1, fun hm => h4 (ha.2.2 hm)⟩
    · have hne : s.pc u ≠ .idle := by simp [hu]
      have same : ∀ v, s.pc v ≠ .idle → v = u := fun v hv => j.one v u hv hne
      cases t with
      | skip => exact ⟨by simpa using h1, Or.inr ⟨u, len, i, hu⟩⟩
      | unknown id h => exact ⟨by simpa using h1, Or.inr ⟨u, len, i, hu⟩⟩
      | install a pos h => exact ⟨by simpa using h1, Or.inr ⟨u, len, i, hu⟩⟩
      | removeHeld m hk hh => exact ⟨by simpa using h1, Or.inr ⟨u, len, i, hu⟩⟩
      | removeFree m hk hh => exact ⟨by simpa using h1, Or.inr ⟨u, len, i, hu⟩⟩
      | start v h hn he => simp [h u] at hne
      | next v l i' p h hp => have := same v (by simp [h]); subst this; rw [hu] at h; simp at h
      | choose v m l i' h hk => have := same v (by simp [h]); subst this; rw [hu] at h; simp at h
      | call v m l i' h => have := same v (by simp [h]); subst this; rw [hu] at h; simp at h
      | ret v m l i' stop h => have := same v (by simp [h]); subst this; rw [hu] at h; simp at h
      | stop v m l i' h =>
        have := same v (by simp [h]); subst this; rw [hu] at h; simp at h
        obtain ⟨rfl, rfl, rfl⟩ := h
        refine ⟨by simpa using h1, Or.inl ⟨j.nd.not_mem_erase, j.fresh k ⟨v, by simp [hu, aux_pe_held]⟩, ?_⟩⟩
        rintro ⟨w, l, i', hw⟩
        by_cases e : w = v
        · simp [e] at hw
        · simp [e] at hw; exact e (same w (by simp [hw]))
      | keepIn v m l i' h hk => have := same v (by simp [h]); subst this; rw [hu] at h; simp at h
      | keepOut v m l i' h hk => have := same v (by simp [h]); subst this; rw [hu] at h; simp at h
      | finish v h => have := same v (by simp [h]); subst this; rw [hu] at h; simp at h

/-- While a handler runs, a step keeps it running, or it returns; and no other is called. -/
theorem aux_pe_calling {s s' : PoolEvents} {evs : List PeEvent} {k u len i : Nat} (j : aux_pe_J s) (t : aux_pe_T s s' evs)
    (hu : s.pc u = .calling k len i) :
    (∀ m, PeEvent.began m ∉ evs) ∧ (s'.pc u = .calling k len i ∨ ∃ b, evs = [.ended k b]) := by
  have hne : s.pc u ≠ .idle := by simp [hu]
  have same : ∀ v, s.pc v ≠ .idle → v = u := fun v hv => j.one v u hv hne
  cases t with
  | start v h hn he => simp [h u] at hne
  | next v l i' p h hp => have := same v (by simp [h]); subst this; rw [hu] at h; simp at h
  | choose v m l i' h hk => have := same v (by simp [h]); subst this; rw [hu] at h; simp at h
  | call v m l i' h => have := same v (by simp [h]); subst this; rw [hu] at h; simp at h
  | ret v m l i' stop h =>
    have := same v (by simp [h]); subst this; rw [hu] at h; simp at h
    obtain ⟨rfl, rfl, rfl⟩ := h
    simp
  | stop v m l i' h => have := same v (by simp [h]); subst this; rw [hu] at h; simp at h
  | keepIn v m l i' h hk => have := same v (by simp [h]); subst this; rw [hu] at h; simp at h
  | keepOut v m l i' h hk => have := same v (by simp [h]); subst this; rw [hu] at h; simp at h
  | finish v h => have := same v (by simp [h]); subst this; rw [hu] at h; simp at h
  | _ => simp [hu]

/-- C99: a handler is called only after the handler called before it returned. -/
theorem C99_exclusive (ops : List PeOp) (pre mid post : List PeEvent) (k m : Nat)
    (h : (peRun .init [] ops).2 = pre ++ .began k :: (mid ++ .began m :: post)) : ∃ b, PeEvent.ended k b ∈ mid := by
  have := aux_pe_after (P := fun _ _ => True) trivial (fun _ _ _ _ _ _ _ => trivial) (.began k)
    (fun _ s post => ((∃ t len i, s.pc t = .calling k len i) ∧ ∀ m, PeEvent.began m ∉ post) ∨
      ∃ x b y, post = x ++ .ended k b :: y ∧ ∀ m, PeEvent.began m ∉ x) ?_ ?_ ops pre _ h
  · rcases this with ⟨_, hn⟩ | ⟨x, b, y, hx, hn⟩
    · exact absurd (by simp) (hn m)
    · rcases aux_pe_log hx with ⟨a, ha, hb⟩ | ⟨c, hc, hd⟩
      · cases a with
        | nil => simp at hb
        | cons z a => simp at hb; obtain ⟨rfl, _⟩ := hb; exact absurd (by simp [ha]) (hn m)
      · exact ⟨b, by simp [hc]⟩
  · intro s log s' evs a b j _ t he
    cases t with
    | call t k' len i h =>
      obtain ⟨_, e, hb⟩ := aux_pe_one he
      simp at e; subst e
      exact Or.inl ⟨⟨t, len, i, by simp⟩, by simp [hb]⟩
    | removeFree m hk hh => rcases aux_pe_two he with ⟨_, h, _⟩ | ⟨_, h, _⟩ <;> simp at h
    | _ => first | exact (aux_pe_zero he).elim | (have := (aux_pe_one he).2.1; simp at this)
  · rintro pre s s' evs post j h1 t
    rcases h1 with ⟨⟨u, len, i, hu⟩, hn⟩ | ⟨x, b, y, hx, hn⟩
    · obtain ⟨h2, h3 | ⟨b, h3⟩⟩ := aux_pe_calling j t hu
      · exact Or.inl ⟨⟨u, len, i, h3⟩, fun m hm => (List.mem_append.1 hm).elim (hn m) (h2 m)⟩
      · exact Or.inr ⟨post, b, [], by simp [h3], hn⟩
    · exact Or.inr ⟨x, b, y ++ evs, by simp [hx], hn⟩

/-- A handler that did not return is being called by a thread. -/
def aux_pe_W (s : PoolEvents) (log : List PeEvent) : Prop :=
  ∀ p m q, log = p ++ .began m :: q → (∀ b, PeEvent.ended m b ∉ q) → ∃ t len i, s.pc t = .calling m len i

theorem aux_pe_W_T (s : PoolEvents) (log : List PeEvent) (s' : PoolEvents) (evs : List PeEvent) (j : aux_pe_J s) (h : aux_pe_W s log)
    (t : aux_pe_T s s' evs) : aux_pe_W s' (log ++ evs) := by
  intro p m q he hq
  rcases aux_pe_log he with ⟨a, ha, hb⟩ | ⟨c, hc, hd⟩
  · cases t with
    | call t k' len i h =>
      obtain ⟨_, e, _⟩ := aux_pe_one hb
      simp at e; subst e
      exact ⟨t, len, i, by simp⟩
    | removeFree m hk hh => rcases aux_pe_two hb with ⟨_, h, _⟩ | ⟨_, h, _⟩ <;> simp at h
    | _ => first | exact (aux_pe_zero hb).elim | (have := (aux_pe_one hb).2.1; simp at this)
  · obtain ⟨u, len, i, hu⟩ := h p m c hc (fun b hb => hq b (by simp [hd, hb]))
    obtain ⟨_, h3 | ⟨b, h3⟩⟩ := aux_pe_calling j t hu
    · exact ⟨u, len, i, h3⟩
    · exact absurd (by simp [hd, h3]) (hq b)

/-- C99: an event removed while a handler runs, for example by that handler, is not called any more. -/
theorem C99_removed_within_partial (ops : List PeOp) (pre post : List PeEvent) (k id : Nat)
    (h : (peRun .init [] ops).2 = pre ++ .removed k id :: post) (hin : peInHandler pre) : PeEvent.began k ∉ post := by
  have := aux_pe_after (P := aux_pe_W) (by intro p m q h; simp at h) aux_pe_W_T (.removed k id)
    (fun pre s post => peInHandler pre → PeEvent.began k ∉ post ∧ k ∉ s.events ∧ k < s.next ∧ ¬ aux_pe_about s k) ?_ ?_ ops pre post h hin
  · exact this.1
  · rintro s log s' evs a b j hw t he ⟨p, m, q, hp, hq⟩
    have key : a = [] → ¬ aux_pe_about s k := by
      rintro rfl ⟨u, len, i, hu⟩
      obtain ⟨v, len', i', hv⟩ := hw p m q (by simpa using hp) hq
      have := j.one u v (by simp [hu]) (by simp [hv])
      subst this; rw [hu] at hv; simp at hv
    cases t with
    | removeHeld m hk hh =>
      obtain ⟨ha, e, hb⟩ := aux_pe_one he
      simp at e; obtain ⟨rfl, _⟩ := e
      exact ⟨by simp [hb], j.nd.not_mem_erase, j.lt _ hk, key ha⟩
    | removeFree m hk hh =>
      rcases aux_pe_two he with ⟨ha, h, hb⟩ | ⟨_, h, _⟩
      · simp at h; obtain ⟨rfl, _⟩ := h
        exact ⟨by simp [hb], j.nd.not_mem_erase, j.lt _ hk, key ha⟩
      · simp at h
    | _ => first | exact (aux_pe_zero he).elim | (have := (aux_pe_one he).2.1; simp at this)
  · intro pre s s' evs post j hq t hin
    obtain ⟨h1, h2, h3, h4⟩ := hq hin
    have ha := aux_pe_about_T j t h2
    have hg := aux_pe_gone t h2 h3
    refine ⟨?_, hg.1, hg.2, fun hx => h4 (ha.1 hx).1⟩
    simp only [List.mem_append, not_or]
    exact ⟨h1, fun hm => h4 (ha.2.2 hm)⟩

/-- What the log says about the events. -/
structure aux_pe_I (s : PoolEvents) (log : List PeEvent) : Prop where
  inst : ∀ k id, PeEvent.installed k id ∈ log → k < s.next ∧ id = s.addr k % 4294967296
  known : ∀ k, k < s.next → PeEvent.installed k (s.addr k % 4294967296) ∈ log
  rem : ∀ k id, PeEvent.removed k id ∈ log → k ∉ s.events ∧ k < s.next
  stop : ∀ k, PeEvent.ended k true ∈ log → k < s.next ∧ (k ∉ s.events ∨ ∃ t len i, s.pc t = .returned k len i true)
  ret : ∀ k t len i b, s.pc t = .returned k len i b → PeEvent.ended k b ∈ log
  gone : ∀ k, k < s.next → k ∉ s.events → (∃ id, PeEvent.removed k id ∈ log) ∨ PeEvent.ended k true ∈ log
  freed : ∀ k, PeEvent.freed k ∈ log ↔ k < s.next ∧ s.refs k = 0

theorem aux_pe_I_init : aux_pe_I .init [] := by
  constructor <;> simp [PoolEvents.init]

theorem aux_pe_I_T (s : PoolEvents) (log : List PeEvent) (s' : PoolEvents) (evs : List PeEvent) (j : aux_pe_J s) (h : aux_pe_I s log)
    (t : aux_pe_T s s' evs) : aux_pe_I s' (log ++ evs) := by
  have j' := aux_pe_J_T j t
  obtain ⟨h1, h2, h3, h4, h5, h6, h7⟩ := h
  have hev := fun k => @aux_pe_J.pos_ev s j k
  have hpc := fun k t => @aux_pe_J.pos_pc s j k t
  have hlt := fun k => @aux_pe_J.lt_of s j k
  have hne : ∀ k ∈ s.events, k ≠ s.next := fun k hk e => Nat.lt_irrefl _ (e ▸ j.lt k hk)
  have hone := j.one
  have hnd := j.nd
  cases t with
  | skip => simpa using ⟨h1, h2, h3, h4, h5, h6, h7⟩
  | unknown id h => constructor <;> simp <;> grind
  | install a pos h =>
    have pm : ∀ k, (k ∈ s.events.take pos ++ s.next :: s.events.drop pos) ↔ k = s.next ∨ k ∈ s.events := fun k => by
      rw [(aux_pe_perm s.events s.next pos).mem_iff]; simp
    constructor <;> simp only [List.mem_append, List.mem_singleton, pm] <;> simp <;> grind
  | removeHeld m hk hh =>
    have he : ∀ k, k ∈ s.events.erase m ↔ k ≠ m ∧ k ∈ s.events := fun k => j.nd.mem_erase_iff
    constructor <;> simp only [List.mem_append, List.mem_singleton, he] <;> simp <;> grind
  | removeFree m hk hh =>
    have he : ∀ k, k ∈ s.events.erase m ↔ k ≠ m ∧ k ∈ s.events := fun k => j.nd.mem_erase_iff
    constructor <;> simp only [List.mem_append, List.mem_cons, he] <;> simp <;> grind
  | start t h hn he => constructor <;> simp <;> grind
  | next t len i p h hp => constructor <;> simp <;> grind
  | choose t m len i h hk => constructor <;> simp <;> grind
  | call t m len i h => constructor <;> simp <;> grind
  | ret t m len i stop h =>
    have hm : m < s.next := j.fresh m ⟨t, by simp [h, aux_pe_held]⟩
    constructor
    case stop =>
      intro k hk
      rcases List.mem_append.1 hk with hk | hk
      · refine ⟨(h4 k hk).1, (h4 k hk).2.imp id ?_⟩
        rintro ⟨u, l, i', hu⟩
        have := j.one u t (by simp [hu]) (by simp [h])
        subst this; rw [h] at hu; simp at hu
      · simp at hk
        obtain ⟨rfl, rfl⟩ := hk
        exact ⟨hm, Or.inr ⟨t, len, i, by simp⟩⟩
    all_goals (simp; grind)
  | stop t m len i h =>
    have hm : m < s.next := j.fresh m ⟨t, by simp [h, aux_pe_held]⟩
    have he : ∀ k, k ∈ s.events.erase m ↔ k ≠ m ∧ k ∈ s.events := fun k => j.nd.mem_erase_iff
    constructor <;> simp only [List.mem_append, List.mem_singleton, he] <;> simp <;> grind
  | keepIn t m len i h hk => constructor <;> simp <;> grind
  | keepOut t m len i h hk =>
    have hm : m < s.next := j.fresh m ⟨t, by simp [h, aux_pe_held]⟩
    constructor <;> simp <;> grind
  | finish t h => constructor <;> simp <;> grind

/-- C99: what is reported removed is an event that was given this identifier and was not removed before; that there is none is reported
only if all events that were given it were removed, or their handlers said so. -/
theorem C99_remove (ops : List PeOp) (pre post : List PeEvent) (id : Nat) :
    (∀ k, (peRun .init [] ops).2 = pre ++ .removed k id :: post →
      PeEvent.installed k id ∈ pre ∧ ∀ id', PeEvent.removed k id' ∉ pre) ∧
    ((peRun .init [] ops).2 = pre ++ .unknown id :: post → ∀ k, PeEvent.installed k id ∈ pre →
      (∃ id', PeEvent.removed k id' ∈ pre) ∨ PeEvent.ended k true ∈ pre) := by
  constructor
  · intro k h
    refine aux_pe_after (P := aux_pe_I) aux_pe_I_init aux_pe_I_T (.removed k id)
      (fun pre _ _ => PeEvent.installed k id ∈ pre ∧ ∀ id', PeEvent.removed k id' ∉ pre) ?_ (fun _ _ _ _ _ _ h _ => h) ops pre post h
    intro s log s' evs a b j hi t he
    cases t with
    | removeHeld m hk hh =>
      obtain ⟨ha, e, hb⟩ := aux_pe_one he
      simp at e; obtain ⟨rfl, rfl⟩ := e
      subst ha
      simp only [List.append_nil]
      exact ⟨hi.known m (j.lt m hk), fun id' h => (hi.rem m id' h).1 hk⟩
    | removeFree m hk hh =>
      rcases aux_pe_two he with ⟨ha, e, hb⟩ | ⟨_, e, _⟩
      · simp at e; obtain ⟨rfl, rfl⟩ := e
        subst ha
        simp only [List.append_nil]
        exact ⟨hi.known m (j.lt m hk), fun id' h => (hi.rem m id' h).1 hk⟩
      · simp at e
    | _ => first | exact (aux_pe_zero he).elim | (have := (aux_pe_one he).2.1; simp at this)
  · intro h
    refine aux_pe_after (P := aux_pe_I) aux_pe_I_init aux_pe_I_T (.unknown id)
      (fun pre _ _ => ∀ k, PeEvent.installed k id ∈ pre → (∃ id', PeEvent.removed k id' ∈ pre) ∨ PeEvent.ended k true ∈ pre)
      ?_ (fun _ _ _ _ _ _ h _ => h) ops pre post h
    intro s log s' evs a b j hi t he
    cases t with
    | unknown id hn =>
      obtain ⟨ha, e, hb⟩ := aux_pe_one he
      simp at e; subst e; subst ha
      simp only [List.append_nil]
      intro k hk
      have := hi.inst k _ hk
      exact hi.gone k this.1 (fun hm => hn k hm this.2.symm)
    | removeFree m hk hh => rcases aux_pe_two he with ⟨_, h, _⟩ | ⟨_, h, _⟩ <;> simp at h
    | _ => first | exact (aux_pe_zero he).elim | (have := (aux_pe_one he).2.1; simp at this)

/-- C99: if no identifier is given twice, what is removed is the event the identifier was given for. -/
theorem C99_remove_partial (ops : List PeOp) (pre post : List PeEvent) (k id : Nat)
    (h : (peRun .init [] ops).2 = pre ++ .removed k id :: post)
    (hu : ∀ a b i, PeEvent.installed a i ∈ pre → PeEvent.installed b i ∈ pre → a = b) (m : Nat)
    (hm : PeEvent.installed m id ∈ pre) : m = k :=
  hu _ _ _ hm ((C99_remove ops pre post id).1 k h).1

/-- C99: when no thread is at it, an event is in the list if and only if it was installed, not removed, and its handler did not say that it
should be; otherwise its memory was released. -/
theorem C99_listed (ops : List PeOp) (hq : ∀ t, (peRun .init [] ops).1.pc t = .idle) (k : Nat) : let r := peRun .init [] ops
    (k ∈ r.1.events ↔ (∃ id, PeEvent.installed k id ∈ r.2) ∧ (∀ id, PeEvent.removed k id ∉ r.2) ∧ PeEvent.ended k true ∉ r.2) ∧
    ((∃ id, PeEvent.installed k id ∈ r.2) → (PeEvent.freed k ∈ r.2 ↔ k ∉ r.1.events)) := by
  obtain ⟨j, hi⟩ := aux_pe_ind aux_pe_I_init aux_pe_I_T ops
  have hu : ¬ aux_pe_use (peRun .init [] ops).1 k := by rintro ⟨t, ht⟩; simp [hq t, aux_pe_held] at ht
  refine ⟨⟨fun hk => ⟨⟨_, hi.known k (j.lt k hk)⟩, fun id h => (hi.rem k id h).1 hk, fun h => ?_⟩, ?_⟩, ?_⟩
  · rcases (hi.stop k h).2 with h | ⟨t, len, i, h⟩
    · exact h hk
    · simp [hq t] at h
  · rintro ⟨⟨id, h1⟩, h2, h3⟩
    refine Classical.byContradiction fun hk => ?_
    rcases hi.gone k (hi.inst k id h1).1 hk with ⟨id', h⟩ | h
    · exact h2 id' h
    · exact h3 h
  · rintro ⟨id, h1⟩
    rw [hi.freed k]
    refine ⟨fun h hk => j.pos_ev hk h.2, fun hk => ⟨(hi.inst k id h1).1, j.zero hk hu⟩⟩

/-- Events that are looked at one after the other, none of them touched by anyone else. -/
theorem aux_pe_pass (t : Nat) (due stop : Nat → Bool) (l : List Nat) : ∀ (d : List Nat) (len : Nat) (s : PoolEvents) (log : List PeEvent),
    s.events = d ++ l → s.events.Nodup → s.pc t = .scan len d.length → d.length + l.length ≤ len → (∀ k ∈ l, s.refs k = 1) →
    ∃ s', peRun s log (l.flatMap fun k => if due k then [.look t true, .call t, .ret t (stop k), .settle t] else [.look t false]) =
        (s', log ++ pePassLog due stop l) ∧
      s'.events = d ++ l.filter (fun k => !(due k && stop k)) ∧ s'.pc t = .scan len s'.events.length ∧ s'.processing = s.processing ∧
      ∀ u, u ≠ t → s'.pc u = s.pc u := by
  induction l with
  | nil =>
    intro d len s log he _ hp _ _
    simp at he
    exact ⟨s, by simp [peRun, pePassLog], by simp [he], by rw [he]; exact hp, rfl, fun _ _ => rfl⟩
  | cons k l ih =>
    intro d len s log he hn hp hl hr
    have hi : s.events[d.length]? = some k := by simp [he]
    have hlt : ¬ len ≤ d.length := by simp at hl; omega
    have hrk : s.refs k = 1 := hr k (by simp)
    have hn' : (d ++ k :: l).Nodup := he ▸ hn
    have hkl : k ∉ l := fun h => by
      have := (List.nodup_append.1 hn').2.1; simp at this; exact this.1 h
    have hkd : k ∉ d := fun h => by
      have := (List.nodup_append.1 hn').2.2 k h k (by simp); exact this rfl
    have hke : k ∈ s.events := by simp [he]
    have hne : ∀ m ∈ l, m ≠ k := fun m hm e => hkl (e ▸ hm)
    cases hd : due k with
    | false =>
      have e : peStep s (.look t false) = (peGoto s t (.scan len (d.length + 1)), []) := by
        simp [peStep, hp, hlt, hi, hrk]
      obtain ⟨s', h1, h2, h3, h4, h5⟩ := ih (d ++ [k]) len (peGoto s t (.scan len (d.length + 1))) log (by simp [peGoto, he]) hn
        (by simp [peGoto]) (by simp at hl ⊢; omega) (fun m hm => hr m (by simp [hm]))
      refine ⟨s', ?_, ?_, h3, h4, fun u hu => by rw [h5 u hu]; simp [peGoto, hu]⟩
      · simp only [List.flatMap_cons, hd, pePassLog] at h1 ⊢
        simp [peRun, e, h1]
      · simp [h2, hd]
    | true =>
      have e1 : peStep s (.look t true) = (peGoto (peRef s k 2) t (.chosen k len d.length), []) := by
        simp [peStep, hp, hlt, hi, hrk]
      cases hs : stop k with
      | true =>
        have hee : s.events.erase k = d ++ l := by
          rw [he, List.erase_append_right _ hkd]; simp
        obtain ⟨s', h1, h2, h3, h4, h5⟩ := ih d len
          { s with events := s.events.erase k, refs := fun j => if j = k then 0 else s.refs j, pc := fun u => if u = t then .scan len d.length else s.pc u }
          (log ++ [.began k, .ended k true, .freed k]) hee (hn.erase k) (by simp) (by simp at hl; omega)
          (fun m hm => by simp [hne m hm]; exact hr m (by simp [hm]))
        refine ⟨s', ?_, ?_, h3, h4, fun u hu => by rw [h5 u hu]; simp [hu]⟩
        · simp only [List.flatMap_cons, hd, hs, if_true, pePassLog] at h1 ⊢
          simp only [aux_pe_run_append]
          have : peRun s log [.look t true, .call t, .ret t true, .settle t] =
              ({ s with events := s.events.erase k, refs := fun j => if j = k then 0 else s.refs j, pc := fun u => if u = t then .scan len d.length else s.pc u },
                log ++ [.began k, .ended k true, .freed k]) := by
            simp [peRun, e1]
            simp [peStep, peGoto, peRef, peDrop, peUnref, hke]
            constructor <;> (funext x; by_cases hx : x = k <;> by_cases hx : x = t <;> simp_all)
          rw [this, h1]; simp
        · simp [h2, hd, hs]
      | false =>
        obtain ⟨s', h1, h2, h3, h4, h5⟩ := ih (d ++ [k]) len
          { s with pc := fun u => if u = t then .scan len (d.length + 1) else s.pc u }
          (log ++ [.began k, .ended k false]) (by simp [he]) hn (by simp) (by simp at hl ⊢; omega) (fun m hm => hr m (by simp [hm]))
        refine ⟨s', ?_, ?_, h3, h4, fun u hu => by rw [h5 u hu]; simp [hu]⟩
        · simp only [List.flatMap_cons, hd, hs, if_true, pePassLog] at h1 ⊢
          simp only [aux_pe_run_append]
          have : peRun s log [.look t true, .call t, .ret t false, .settle t] =
              ({ s with pc := fun u => if u = t then .scan len (d.length + 1) else s.pc u }, log ++ [.began k, .ended k false]) := by
            simp [peRun, e1]
            simp [peStep, peGoto, peRef, peUnref]
            constructor <;> (funext x; by_cases hx : x = k <;> by_cases hx : x = t <;> simp_all)
          rw [this, h1]; simp
        · simp [h2, hd, hs]

/-- C99: if nothing else goes on, a thread that processes the events calls the handlers of those that are due, each once, and leaves those
whose handlers did not say that they should be removed. -/
theorem C99_pass (ops : List PeOp) (t : Nat) (due stop : Nat → Bool) (hq : ∀ u, (peRun .init [] ops).1.pc u = .idle)
    (hne : (peRun .init [] ops).1.events ≠ []) : let s := (peRun .init [] ops).1
    let r := peRun s [] (pePassOps t due stop s.events)
    r.2 = pePassLog due stop s.events ∧ r.1.events = s.events.filter (fun k => !(due k && stop k)) ∧
    (∀ u, r.1.pc u = .idle) ∧ r.1.processing = false := by
  obtain ⟨j, -⟩ := aux_pe_ind (P := fun _ _ => True) trivial (fun _ _ _ _ _ _ _ => trivial) ops
  generalize (peRun .init [] ops).1 = s at *
  have hpr : s.processing = false := by
    cases h : s.processing with
    | false => rfl
    | true => obtain ⟨u, hu⟩ := j.pr.1 h; exact absurd (hq u) hu
  have hr : ∀ k ∈ s.events, s.refs k = 1 := by
    intro k hk
    have hu : ¬ aux_pe_use s k := by rintro ⟨u, h⟩; simp [hq u, aux_pe_held] at h
    have := j.rc k; simpa [hk, hu] using this
  have e : peStep s (.start t) = (peGoto { s with processing := true } t (.scan s.events.length 0), []) := by
    simp [peStep, hq, hpr, hne]
  obtain ⟨s', h1, h2, h3, h4, h5⟩ := aux_pe_pass t due stop s.events [] s.events.length
    (peGoto { s with processing := true } t (.scan s.events.length 0)) [] (by simp [peGoto]) j.nd (by simp [peGoto]) (by simp) hr
  have e2 : peStep s' (.look t false) = (peGoto s' t .last, []) := by
    by_cases hl : s.events.length ≤ s'.events.length <;> simp [peStep, h3, hl]
  have e3 : peStep (peGoto s' t .last) (.finish t) = (peGoto { peGoto s' t .last with processing := false } t .idle, []) := by
    simp [peStep, peGoto]
  have : peRun s [] (pePassOps t due stop s.events) =
      (peGoto { peGoto s' t .last with processing := false } t .idle, pePassLog due stop s.events) := by
    unfold pePassOps
    rw [aux_pe_run_append]
    simp only [peRun, e]
    simp only [List.nil_append] at h1 ⊢
    rw [h1]
    simp only [e2, e3]
    simp
  intro r
  show (peRun s [] (pePassOps t due stop s.events)).2 = _ ∧ (peRun s [] (pePassOps t due stop s.events)).1.events = _ ∧
    (∀ u, (peRun s [] (pePassOps t due stop s.events)).1.pc u = _) ∧ (peRun s [] (pePassOps t due stop s.events)).1.processing = _
  rw [this]
  refine ⟨rfl, by simpa [peGoto] using h2, fun u => ?_, rfl⟩
  by_cases hu : u = t
  · simp [peGoto, hu]
  · simp [peGoto, hu, h5 u hu, hq u]

/-- C99: a handler is called after the removal of the event was reported: the thread that processes events had chosen it before. -/
theorem C99_called_after_removal : (peRun .init [] [.install 16 0, .start 0, .look 0 true, .remove 16, .call 0]).2 =
    [.installed 0 16, .removed 0 16, .began 0] := by rfl

/-- C99: two events whose addresses differ in the upper half only have the same identifier, and what is removed is the one before the
other, in whatever order they were installed. -/
theorem C99_same_identifier (pos : Nat) : ∃ k, (peRun .init [] [.install 16 0, .install 4294967312 pos, .remove 16]).2 =
    [.installed 0 16, .installed 1 16, .removed k 16, .freed k] := by
  cases pos with
  | zero => exact ⟨1, by rfl⟩
  | succ n => exact ⟨0, by cases n <;> rfl⟩

/-- C99: the identifier of an event that ended removes an event installed later by someone else, at the same address. -/
theorem C99_old_identifier : (peRun .init []
      [.install 16 0, .start 0, .look 0 true, .call 0, .ret 0 true, .settle 0, .look 0 false, .finish 0, .install 16 0, .remove 16]).2 =
    [.installed 0 16, .began 0, .ended 0 true, .freed 0, .installed 1 16, .removed 1 16, .freed 1] := by rfl

/-- C99: if an event is removed while its handler runs, the event behind it is not called in this pass, although its time has come. -/
theorem C99_passed_over : let r := peRun .init [] [.install 16 0, .install 32 1, .install 48 2, .start 0, .look 0 true, .call 0, .remove 16,
      .ret 0 false, .settle 0, .look 0 true, .call 0, .ret 0 false, .settle 0, .look 0 true, .finish 0]
    r.2 = [.installed 0 16, .installed 1 32, .installed 2 48, .began 0, .removed 0 16, .ended 0 false, .freed 0, .began 2, .ended 2 false] ∧
    r.1.events = [1, 2] ∧ r.1.processing = false := ⟨rfl, rfl, rfl⟩

theorem C99_statement_false : ¬ C99_statement := by
  intro h
  have := (h [.install 16 0, .start 0, .look 0 true, .remove 16, .call 0]).2.2.2.1 [.installed 0 16] 0 16 [.began 0] C99_called_after_removal
  simp at this

/-- Two threads, three events: one ends, one is kept, one is removed by the handler of another. -/
example : let r := peRun .init [] [.install 16 0, .install 32 1, .install 48 2, .start 0, .start 1, .look 0 true, .call 0, .look 1 true, .remove 48,
      .ret 0 true, .settle 0, .look 0 true, .call 0, .ret 0 false, .settle 0, .look 0 true, .finish 0, .remove 48, .start 1, .look 1 true, .call 1]
    r.2 = [.installed 0 16, .installed 1 32, .installed 2 48] ++ (.began 0 :: ([.removed 2 48, .freed 2, .ended 0 true, .freed 0] ++ .began 1 ::
      [.ended 1 false, .unknown 48, .began 1])) ∧ r.1.events = [1] := ⟨rfl, rfl⟩

example : peInHandler [.installed 0 16, .installed 1 32, .began 0] := ⟨[.installed 0 16, .installed 1 32], 0, [], rfl, by simp⟩

/-- Identifiers given once only. -/
example : ∀ a b i, PeEvent.installed a i ∈ [PeEvent.installed 0 16, .installed 1 32] →
    PeEvent.installed b i ∈ [PeEvent.installed 0 16, .installed 1 32] → a = b := by
  intro a b i; simp; omega

/-- A pass over three events that are installed while no thread is at it. -/
example : let s := (peRun .init [] [.install 16 0, .install 32 1, .install 48 0]).1
    (∀ u, s.pc u = .idle) ∧ s.events = [2, 0, 1] ∧
    (peRun s [] (pePassOps 3 (fun k => k ≠ 0) (fun k => k = 1) s.events)).2 = [.began 2, .ended 2 false, .began 1, .ended 1 true, .freed 1] :=
  ⟨fun _ => rfl, rfl, rfl⟩

end Verif.Props
