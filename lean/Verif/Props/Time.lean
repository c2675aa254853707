import Verif.Spec.Time
/-!
# C36, C37: timers and time difference
-/
namespace Verif.Props
open Verif.Model Verif.Spec

/-! ## C37 -/

/-- C37. Exact difference, microseconds in range, sign, and the second argument still denotes the same
instant. -/
theorem C37_difference (a b : TimeVal) (ha : Normal a) (hb : Normal b) :
    micros (timevalSubtract a b).2.1 = micros a - micros b ∧
    Normal (timevalSubtract a b).2.1 ∧
    ((timevalSubtract a b).1 = true ↔ micros a < micros b) ∧
    micros (timevalSubtract a b).2.2 = micros b := by
  obtain ⟨as, au⟩ := a
  obtain ⟨bs, bu⟩ := b
  simp only [Normal] at ha hb
  by_cases h : au < bu
  · have hq : (bu - au).tdiv 1000000 = 0 := Int.tdiv_eq_zero_of_lt (by omega) (by omega)
    have h2 : ¬ (au - (bu - 1000000 * (0 + 1)) > 1000000) := by omega
    simp only [timevalSubtract, if_pos h, hq, if_neg h2, micros, Normal, decide_eq_true_eq]
    omega
  · have h2 : ¬ (au - bu > 1000000) := by omega
    simp only [timevalSubtract, if_neg h, if_neg h2, micros, Normal, decide_eq_true_eq]
    refine ⟨by omega, by omega, by omega, ?_⟩
    trivial

/-- C37, beyond: the difference is exact whatever the arguments, normalised or not. -/
theorem C37_exact_always (a b : TimeVal) :
    micros (timevalSubtract a b).2.1 = micros a - micros b ∧
    micros (timevalSubtract a b).2.2 = micros b ∧
    0 ≤ (timevalSubtract a b).2.1.usec ∧ (timevalSubtract a b).2.1.usec ≤ 1000000 := by
  obtain ⟨as, au⟩ := a
  obtain ⟨bs, bu⟩ := b
  have key : ∀ (bs bu : Int), 0 ≤ au - bu →
      let b : TimeVal := if au - bu > 1000000 then
        ⟨bs - (au - bu).tdiv 1000000, bu + 1000000 * (au - bu).tdiv 1000000⟩ else ⟨bs, bu⟩
      micros ⟨as - b.sec, au - b.usec⟩ = micros ⟨as, au⟩ - micros ⟨bs, bu⟩ ∧ micros b = micros ⟨bs, bu⟩ ∧
      0 ≤ au - b.usec ∧ au - b.usec ≤ 1000000 := by
    intro bs bu h
    have hq : (au - bu).tdiv 1000000 = (au - bu) / 1000000 := Int.tdiv_eq_ediv_of_nonneg h
    simp only [hq, micros]
    split
    · dsimp only; omega
    · dsimp only; omega
  by_cases h : au < bu
  · have hq : (bu - au).tdiv 1000000 = (bu - au) / 1000000 := Int.tdiv_eq_ediv_of_nonneg (by omega)
    simp only [timevalSubtract, if_pos h]
    have := key (bs + ((bu - au).tdiv 1000000 + 1)) (bu - 1000000 * ((bu - au).tdiv 1000000 + 1)) (by omega)
    simp only at this
    obtain ⟨h1, h2, h3, h4⟩ := this
    have hm : micros ⟨bs + ((bu - au).tdiv 1000000 + 1), bu - 1000000 * ((bu - au).tdiv 1000000 + 1)⟩ =
        micros ⟨bs, bu⟩ := by simp only [micros]; omega
    exact ⟨by rw [h1, hm], by rw [h2, hm], h3, h4⟩
  · simp only [timevalSubtract, if_neg h]
    have := key bs bu (by omega)
    simp only at this
    exact this

example : timevalSubtract ⟨10, 200000⟩ ⟨7, 900000⟩ = (false, ⟨2, 300000⟩, ⟨8, -100000⟩) := by decide +kernel
example : Normal ⟨10, 200000⟩ ∧ Normal ⟨7, 900000⟩ := by simp [Normal]

/-! ## C36 -/

/-- C36 in full: a timed wait does not give up early, and an event of period `d` runs neither before `d` after
it was installed nor before `d` after it last ran. -/
def C36_statement : Prop :=
  (∀ now us, Normal now → 0 < us → micros now + us ≤ micros (condDeadline now us)) ∧
  (∀ (ops : List TimerOp) (pre post : List TimerEvent) (id : Nat) (now t : TimeVal) (d : Int),
    NormalOps ops → 0 < d → (Timers.run ⟨[], 0⟩ ops).1 = pre ++ .ran id t :: post →
    .installed id now d ∈ pre → micros now + d ≤ micros t ∧
      ∀ t', .ran id t' ∈ pre → micros t' + d ≤ micros t)

/-- C36, timed wait, the part that holds: the wait ends exactly at the time asked for, unless the present
microseconds and those asked for add up to 1000000. -/
theorem C36_wait_partial (now : TimeVal) (us : Int) (hn : Normal now) (hu : 0 < us)
    (h : now.usec + us ≠ 1000000) :
    micros (condDeadline now us) = micros now + us ∧ Normal (condDeadline now us) := by
  obtain ⟨s, u⟩ := now
  simp only [Normal] at hn
  have hq : (us + u).tdiv 1000000 = (us + u) / 1000000 := Int.tdiv_eq_ediv_of_nonneg (by omega)
  have hm : (us + u).tmod 1000000 = (us + u) % 1000000 := Int.tmod_eq_emod_of_nonneg (by omega)
  simp only [condDeadline, micros, hq, hm, Normal]
  simp only at h
  split <;> omega

/-- The missing case: a wait of up to a second begun at the wrong microsecond ends at once, its limit being
in the past. -/
theorem C36_wait_gives_up (now : TimeVal) (us : Int) (hn : Normal now)
    (h : now.usec + us = 1000000) : micros (condDeadline now us) ≤ micros now := by
  obtain ⟨s, u⟩ := now
  simp only [Normal] at hn
  simp only at h
  have h' : us + u = 1000000 := by omega
  simp only [condDeadline, micros, h']
  have : ¬ ((1000000 : Int) > 1000000) := by omega
  rw [if_neg this]
  have : (1000000 : Int).tmod 1000000 = 0 := by decide
  rw [this]; omega

theorem C36_statement_false : ¬ C36_statement := by
  intro h
  have := h.1 ⟨10, 500000⟩ 500000 (by simp [Normal]) (by decide)
  exact absurd this (by decide)

/-- An event installed at the wrong microsecond runs at once (period half a second). -/
theorem C36_event_early : (Timers.run ⟨[], 0⟩ [.install ⟨10, 500000⟩ 500000, .pass ⟨10, 500000⟩ []]).1 =
    [.installed 0 ⟨10, 500000⟩ 500000, .ran 0 ⟨10, 500000⟩] := by decide +kernel

/-- An event served late runs again at once, until it has caught up (period one tenth of a second; two
passes in the same microsecond). -/
theorem C36_catches_up : (Timers.run ⟨[], 0⟩
    [.install ⟨10, 0⟩ 100000, .pass ⟨10, 500000⟩ [], .pass ⟨10, 500000⟩ []]).1 =
    [.installed 0 ⟨10, 0⟩ 100000, .ran 0 ⟨10, 500000⟩, .ran 0 ⟨10, 500000⟩] := by decide +kernel

/-- Instant `n` periods after `now`. -/
def aux_at (now : TimeVal) (d : Int) (n : Nat) : TimeVal :=
  ⟨now.sec + (now.usec + n * d) / 1000000, (now.usec + n * d) % 1000000⟩

theorem aux_at_micros (now : TimeVal) (d : Int) (n : Nat) : micros (aux_at now d n) = micros now + n * d := by
  simp only [aux_at, micros]
  generalize (n : Int) * d = x
  omega

theorem aux_increase_gen (s u d x : Int) (hd : 0 < d) (h : (u + x) % 1000000 + d ≠ 1000000) :
    increaseStamp ⟨s + (u + x) / 1000000, (u + x) % 1000000⟩ d =
      ⟨s + (u + (x + d)) / 1000000, (u + (x + d)) % 1000000⟩ := by
  have h0 : 0 ≤ (u + x) % 1000000 := by omega
  have hq : ((u + x) % 1000000 + d).tdiv 1000000 = ((u + x) % 1000000 + d) / 1000000 :=
    Int.tdiv_eq_ediv_of_nonneg (by omega)
  have hm : ((u + x) % 1000000 + d).tmod 1000000 = ((u + x) % 1000000 + d) % 1000000 :=
    Int.tmod_eq_emod_of_nonneg (by omega)
  simp only [increaseStamp]
  rw [hq, hm]
  congr 1
  · split <;> omega
  · omega

theorem aux_increase {now : TimeVal} {d : Int} {n : Nat} (hd : 0 < d)
    (h : (now.usec + n * d) % 1000000 + d ≠ 1000000) : increaseStamp (aux_at now d n) d = aux_at now d (n + 1) := by
  have hn : ((n + 1 : Nat) : Int) * d = n * d + d := by
    rw [Int.natCast_add]; simp [Int.add_mul]
  have := aux_increase_gen now.sec now.usec d (n * d) hd h
  rw [aux_at, this, aux_at, hn]

theorem aux_reached {now next : TimeVal} (hn : Normal now) (hx : Normal next) (h : now.reached next = true) :
    micros next ≤ micros now := by
  simp only [TimeVal.reached, Bool.or_eq_true, Bool.and_eq_true, decide_eq_true_eq] at h
  simp only [Normal, micros] at *
  omega

theorem aux_runs_append (id : Nat) (a b : List TimerEvent) : runs id (a ++ b) = runs id a + runs id b := by
  induction a with
  | nil => simp [runs]
  | cons e a ih => cases e <;> simp only [List.cons_append, runs, ih] <;> omega

/-- No stamp of the event lands on a whole second the wrong way up to its run number `n`. -/
def Clean (now : TimeVal) (d : Int) (n : Nat) : Prop :=
  ∀ k : Nat, k ≤ n → (now.usec + k * d) % 1000000 + d ≠ 1000000

/-- The event is due where it should. -/
def aux_Due (L : List TimerEvent) (e : TimedEvent) : Prop :=
  ∃ now, .installed e.id now e.delay ∈ L ∧ Normal now ∧
    (0 < e.delay → Clean now e.delay (runs e.id L) → e.next = aux_at now e.delay (runs e.id L + 1))

structure aux_TInv (L : List TimerEvent) (events : List TimedEvent) (nextId : Nat) : Prop where
  ids : (events.map (·.id)).Nodup
  fresh : ∀ id now d, .installed id now d ∈ L → id < nextId
  once : ∀ id now d now' d', .installed id now d ∈ L → .installed id now' d' ∈ L → now = now' ∧ d = d'
  due : ∀ e ∈ events, aux_Due L e
  good : ∀ pre post id now t d, L = pre ++ .ran id t :: post → .installed id now d ∈ pre → 0 < d →
    Clean now d (runs id pre) → micros now + (runs id pre + 1 : Nat) * d ≤ micros t
  known : ∀ pre post id t, L = pre ++ .ran id t :: post → ∃ now d, .installed id now d ∈ pre

theorem aux_tsnoc {α : Type} {pre post L : List α} {x y : α} (h : L ++ [y] = pre ++ x :: post) :
    (pre = L ∧ x = y ∧ post = []) ∨ ∃ post', L = pre ++ x :: post' ∧ post = post' ++ [y] := by
  rcases List.eq_nil_or_concat post with hp | ⟨post', z, hp⟩
  · subst hp
    have := List.append_inj' h rfl
    exact .inl ⟨this.1.symm, by simpa using this.2.symm, rfl⟩
  · subst hp
    right
    have h' : L ++ [y] = (pre ++ x :: post') ++ [z] := by simpa using h
    have := List.append_inj' h' rfl
    have hz : y = z := by simpa using this.2
    exact ⟨post', this.1, by rw [hz]; simp⟩

theorem aux_due_other {L : List TimerEvent} {e : TimedEvent} (h : aux_Due L e) (x : TimerEvent)
    (hx : ∀ t, x ≠ .ran e.id t) : aux_Due (L ++ [x]) e := by
  obtain ⟨now, h1, h2, h3⟩ := h
  have hr : runs e.id (L ++ [x]) = runs e.id L := by
    rw [aux_runs_append]
    cases x with
    | installed => rfl
    | ran id t =>
      have : id ≠ e.id := fun hi => hx t (by rw [hi])
      simp [runs, this]
  exact ⟨now, List.mem_append_left _ h1, h2, by rw [hr]; exact h3⟩

theorem aux_pass {now : TimeVal} {finished : List Nat} {nextId : Nat} (hn : Normal now) (es : List TimedEvent) :
    ∀ (L : List TimerEvent) (ds : List TimedEvent), aux_TInv L (ds ++ es) nextId →
      aux_TInv (L ++ (processEvents now finished es).1) (ds ++ (processEvents now finished es).2) nextId := by
  induction es with
  | nil => intro L ds I; simpa [processEvents] using I
  | cons e es ih =>
    intro L ds I
    by_cases hr : now.reached e.next = true
    · -- the event runs
      have hin : e ∈ ds ++ e :: es := by simp
      obtain ⟨inow, d1, d2, d3⟩ := I.due e hin
      have hnd := I.ids
      rw [List.map_append, List.map_cons] at hnd
      have hother : ∀ x ∈ ds ++ es, x.id ≠ e.id := by
        intro x hx
        have := (List.nodup_append.mp hnd)
        obtain ⟨n1, n2, n3⟩ := this
        rcases List.mem_append.mp hx with hx | hx
        · exact n3 x.id (List.mem_map.mpr ⟨x, hx, rfl⟩) e.id (by simp)
        · intro he
          rw [List.nodup_cons] at n2
          exact n2.1 (he ▸ List.mem_map.mpr ⟨x, hx, rfl⟩)
      have hgood : ∀ pre post id now' t d, L ++ [TimerEvent.ran e.id now] = pre ++ .ran id t :: post →
          .installed id now' d ∈ pre → 0 < d → Clean now' d (runs id pre) →
          micros now' + (runs id pre + 1 : Nat) * d ≤ micros t := by
        intro pre post id now' t d hl hi hd hc
        rcases aux_tsnoc hl with ⟨h1, h2, _⟩ | ⟨post', h1, _⟩
        · injection h2 with h3 h4
          subst h1; subst h3; subst h4
          obtain ⟨e1, e2⟩ := I.once _ _ _ _ _ hi d1
          subst e1; subst e2
          have hnx := d3 hd hc
          have hnorm : Normal e.next := by
            rw [hnx]; simp only [aux_at, Normal]
            generalize ((runs e.id pre + 1 : Nat) : Int) * e.delay = x
            omega
          have := aux_reached hn hnorm hr
          rw [hnx, aux_at_micros] at this
          exact this
        · exact I.good _ _ _ _ _ _ h1 hi hd hc
      have hknown : ∀ pre post id t, L ++ [TimerEvent.ran e.id now] = pre ++ .ran id t :: post →
          ∃ now d, .installed id now d ∈ pre := by
        intro pre post id t hl
        rcases aux_tsnoc hl with ⟨h1, h2, _⟩ | ⟨post', h1, _⟩
        · injection h2 with h3 h4
          subst h1; subst h3
          exact ⟨_, _, d1⟩
        · exact I.known _ _ _ _ h1
      have hfresh : ∀ id now' d, .installed id now' d ∈ L ++ [TimerEvent.ran e.id now] → id < nextId := by
        intro id now' d hm
        rcases List.mem_append.mp hm with hm | hm
        · exact I.fresh _ _ _ hm
        · simp at hm
      have honce : ∀ id a d a' d', .installed id a d ∈ L ++ [TimerEvent.ran e.id now] →
          .installed id a' d' ∈ L ++ [TimerEvent.ran e.id now] → a = a' ∧ d = d' := by
        intro id a d a' d' hm hm'
        rcases List.mem_append.mp hm with hm | hm
        · rcases List.mem_append.mp hm' with hm' | hm'
          · exact I.once _ _ _ _ _ hm hm'
          · simp at hm'
        · simp at hm
      by_cases hf : finished.contains e.id = true
      · have I' : aux_TInv (L ++ [.ran e.id now]) (ds ++ es) nextId := by
          refine ⟨?_, hfresh, honce, fun x hx => ?_, hgood, hknown⟩
          · exact I.ids.sublist ((List.Sublist.append_left (List.sublist_cons_self _ _) _).map _)
          · have hx' : x ∈ ds ++ e :: es := by
              rcases List.mem_append.mp hx with h | h <;> simp [h]
            refine aux_due_other (I.due x hx') _ (fun t he => ?_)
            injection he with he
            exact hother x hx he.symm
        have := ih _ _ I'
        simp only [processEvents, if_pos hr, if_pos hf]
        simpa using this
      · have I' : aux_TInv (L ++ [.ran e.id now]) ((ds ++ [{ e with next := increaseStamp e.next e.delay }]) ++ es) nextId := by
          refine ⟨?_, hfresh, honce, fun x hx => ?_, hgood, hknown⟩
          · simpa using I.ids
          · by_cases hxe : x = { e with next := increaseStamp e.next e.delay }
            · subst hxe
              refine ⟨inow, List.mem_append_left _ d1, d2, fun hd hc => ?_⟩
              have hrn : runs e.id (L ++ [.ran e.id now]) = runs e.id L + 1 := by
                rw [aux_runs_append]; simp [runs]
              simp only [hrn] at hc ⊢
              have := d3 hd (fun k hk => hc k (by omega))
              show increaseStamp e.next e.delay = _
              rw [this]
              exact aux_increase hd (hc (runs e.id L + 1) (by omega))
            · have hx2 : x ∈ ds ++ es := by
                simp only [List.append_assoc, List.mem_append, List.mem_cons, List.mem_nil_iff, or_false] at hx ⊢
                rcases hx with h | h | h
                · exact .inl h
                · exact absurd h hxe
                · exact .inr h
              have hx' : x ∈ ds ++ e :: es := by
                rcases List.mem_append.mp hx2 with h | h <;> simp [h]
              refine aux_due_other (I.due x hx') _ (fun t he => ?_)
              injection he with he
              exact hother x hx2 he.symm
        have := ih _ _ I'
        simp only [processEvents, if_pos hr, if_neg hf]
        simpa using this
    · have := ih L (ds ++ [e]) (by simpa using I)
      simp only [processEvents, if_neg hr]
      simpa using this

theorem aux_tstep {L : List TimerEvent} {t : Timers} (I : aux_TInv L t.events t.nextId) (op : TimerOp)
    (hn : NormalOps [op]) : aux_TInv (L ++ (t.step op).1) (t.step op).2.events (t.step op).2.nextId := by
  cases op with
  | install now d =>
    have hnow : Normal now := hn (.install now d) (by simp)
    have hnoran : ∀ pre post (id : Nat) (t' : TimeVal),
        L ++ [TimerEvent.installed t.nextId now d] = pre ++ .ran id t' :: post → ∃ post', L = pre ++ .ran id t' :: post' := by
      intro pre post id t' hl
      rcases aux_tsnoc hl with ⟨_, h2, _⟩ | ⟨post', h1, _⟩
      · exact absurd h2 (by simp)
      · exact ⟨post', h1⟩
    have hidlt : ∀ e ∈ t.events, e.id < t.nextId := by
      intro e he
      obtain ⟨_, h1, _⟩ := I.due e he
      exact I.fresh _ _ _ h1
    have hnorun : ∀ M : List TimerEvent, (∀ pre post id t', M = pre ++ .ran id t' :: post →
        ∃ now d, TimerEvent.installed id now d ∈ M) → (∀ id now d, TimerEvent.installed id now d ∈ M → id < t.nextId) →
        runs t.nextId M = 0 := by
      intro M h1 h2
      have : ∀ t', TimerEvent.ran t.nextId t' ∉ M := by
        intro t' hm
        obtain ⟨pre, post, hs⟩ := List.append_of_mem hm
        obtain ⟨a, d, hi⟩ := h1 _ _ _ _ hs
        have := h2 _ _ _ hi
        omega
      clear h1 h2
      induction M with
      | nil => rfl
      | cons x M ih =>
        have ihM := ih (fun t' hm => this t' (List.mem_cons_of_mem _ hm))
        cases x with
        | installed => exact ihM
        | ran id t' =>
          have : id ≠ t.nextId := fun hi => this t' (by simp [hi])
          simp [runs, this, ihM]
    have hr0 : runs t.nextId L = 0 := by
      refine hnorun L (fun pre post id t' hs => ?_) I.fresh
      obtain ⟨a, d, h⟩ := I.known _ _ _ _ hs
      exact ⟨a, d, by rw [hs]; exact List.mem_append_left _ h⟩
    show aux_TInv (L ++ [.installed t.nextId now d]) (t.events ++ [⟨t.nextId, d, increaseStamp now d⟩]) (t.nextId + 1)
    refine ⟨?_, fun id a d' hm => ?_, fun id a d1 a' d2 hm hm' => ?_, fun e he => ?_, ?_, ?_⟩
    · rw [List.map_append, List.nodup_append]
      refine ⟨I.ids, by simp, fun a ha b hb => ?_⟩
      obtain ⟨e, he, hea⟩ := List.mem_map.mp ha
      have := hidlt e he
      simp at hb
      omega
    · rcases List.mem_append.mp hm with hm | hm
      · exact Nat.lt_succ_of_lt (I.fresh _ _ _ hm)
      · simp at hm; omega
    · rcases List.mem_append.mp hm with hm | hm <;> rcases List.mem_append.mp hm' with hm' | hm'
      · exact I.once _ _ _ _ _ hm hm'
      · have := I.fresh _ _ _ hm
        simp at hm'
        omega
      · have := I.fresh _ _ _ hm'
        simp at hm
        omega
      · simp at hm hm'
        exact ⟨by rw [hm.2.1, hm'.2.1], by rw [hm.2.2, hm'.2.2]⟩
    · rcases List.mem_append.mp he with he | he
      · exact aux_due_other (I.due e he) _ (fun t => by simp)
      · have he := List.mem_singleton.mp he
        subst he
        refine ⟨now, by simp, hnow, fun hd hc => ?_⟩
        have hr : runs t.nextId (L ++ [.installed t.nextId now d]) = 0 := by
          rw [aux_runs_append, hr0]; rfl
        simp only [hr] at hc ⊢
        have h0 : aux_at now d 0 = now := by
          obtain ⟨s, u⟩ := now
          simp only [Normal] at hnow
          simp only [aux_at]
          congr 1 <;> omega
        have := aux_increase (n := 0) hd (hc 0 (by omega))
        rw [h0] at this
        exact this
    · intro pre post id a t' d' hl hi hd hc
      obtain ⟨post', hs⟩ := hnoran _ _ _ _ hl
      exact I.good _ _ _ _ _ _ hs hi hd hc
    · intro pre post id t' hl
      obtain ⟨post', hs⟩ := hnoran _ _ _ _ hl
      exact I.known _ _ _ _ hs
  | remove id =>
    show aux_TInv (L ++ []) (t.events.filter _) t.nextId
    rw [List.append_nil]
    exact ⟨I.ids.sublist (List.filter_sublist.map _), I.fresh, I.once,
      fun e he => I.due e ((List.mem_filter.mp he).1), I.good, I.known⟩
  | pass now finished =>
    have hnow : Normal now := hn (.pass now finished) (by simp)
    exact aux_pass hnow t.events L [] I

theorem aux_trun (ops : List TimerOp) : ∀ (L : List TimerEvent) (t : Timers), NormalOps ops →
    aux_TInv L t.events t.nextId → aux_TInv (L ++ (t.run ops).1) (t.run ops).2.events (t.run ops).2.nextId := by
  induction ops with
  | nil => intro L t _ I; simpa [Timers.run] using I
  | cons op ops ih =>
    intro L t hn I
    have h1 : NormalOps [op] := fun o ho => hn o (by simp at ho; simp [ho])
    have h2 : NormalOps ops := fun o ho => hn o (List.mem_cons_of_mem _ ho)
    have := ih _ _ h2 (aux_tstep I op h1)
    simpa [Timers.run] using this

/-- C36, events, the part that holds, for every history with any number of events: the run number `n` (from
zero) of an event of period `d` is not before `n + 1` periods after it was installed, unless one of its due
instants, counted from the installation, falls on a whole second from the second before (`Clean`). Missing: those
instants (`C36_event_early`), and the time since the last run (`C36_catches_up`). -/
theorem C36_event_partial (ops : List TimerOp) (hn : NormalOps ops) (pre post : List TimerEvent) (id : Nat)
    (t : TimeVal) (hl : (Timers.run ⟨[], 0⟩ ops).1 = pre ++ .ran id t :: post) :
    ∃ now d, .installed id now d ∈ pre ∧
      (0 < d → Clean now d (runs id pre) → micros now + (runs id pre + 1 : Nat) * d ≤ micros t) := by
  have I := aux_trun ops [] ⟨[], 0⟩ hn ⟨List.nodup_nil, by simp, by simp, by simp,
    fun pre post id now t d h => by simp at h, fun pre post id t h => by simp at h⟩
  rw [List.nil_append] at I
  obtain ⟨now, d, hi⟩ := I.known _ _ _ _ hl
  exact ⟨now, d, hi, fun hd hc => I.good _ _ _ _ _ _ hl hi hd hc⟩

/-- An event is installed only once under its identifier: the installation of `C36_event_partial` is the only
one. -/
theorem C36_installed_once (ops : List TimerOp) (hn : NormalOps ops) (id : Nat) (now now' : TimeVal) (d d' : Int)
    (h : .installed id now d ∈ (Timers.run ⟨[], 0⟩ ops).1)
    (h' : .installed id now' d' ∈ (Timers.run ⟨[], 0⟩ ops).1) : now = now' ∧ d = d' := by
  have I := aux_trun ops [] ⟨[], 0⟩ hn ⟨List.nodup_nil, by simp, by simp, by simp,
    fun pre post id now t d h => by simp at h, fun pre post id t h => by simp at h⟩
  rw [List.nil_append] at I
  exact I.once _ _ _ _ _ h h'

/-- Periods of more than a second are always clean. -/
theorem C36_clean_long (now : TimeVal) (d : Int) (hd : 1000000 < d) (n : Nat) : Clean now d n := by
  intro k _
  have : 0 ≤ (now.usec + k * d) % 1000000 := Int.emod_nonneg _ (by decide)
  omega

/-- A history with two events, one of them removed by its handler. -/
example : (Timers.run ⟨[], 0⟩ [.install ⟨10, 1⟩ 300000, .install ⟨10, 2⟩ 1500000, .pass ⟨10, 300000⟩ [],
    .pass ⟨10, 300001⟩ [], .pass ⟨11, 600000⟩ [1], .pass ⟨13, 0⟩ []]).1 =
    [.installed 0 ⟨10, 1⟩ 300000, .installed 1 ⟨10, 2⟩ 1500000, .ran 0 ⟨10, 300001⟩, .ran 0 ⟨11, 600000⟩,
     .ran 1 ⟨11, 600000⟩, .ran 0 ⟨13, 0⟩] := by decide +kernel
example : Clean ⟨10, 2⟩ 1500000 7 := C36_clean_long _ _ (by decide) _

end Verif.Props
