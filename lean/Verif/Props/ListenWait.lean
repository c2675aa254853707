import Verif.Spec.ListenWait
/-!
# C71: waiting for listeners to end
-/
namespace Verif.Props
open Verif.Model Verif.Spec

/-- C71, full: no schedule uses a released queue, and when a call to unlock returns (or a listener failed to start) every thread that
waits comes out, and if none waits the next one that calls does. False of the code. -/
def C71_statement : Prop :=
  ∀ ops, ∃ r, ListenWait.init.run ops = some r ∧
    (∀ op s', unlockReturns r.1 op s' → ∀ i, s'.waiting i ≠ .out → canReturn s' i) ∧
    ((∀ i, r.1.waiting i = .out) → r.1.unlocker = none → ∀ r', (r.1.run [.unlock, .go] = some r' ∨ r.1.run [.fail, .go, .go] = some r') →
      ∀ i, canReturn r'.1 i)

theorem aux_lw_run_append (a b : List LwOp) : ∀ s : ListenWait, s.run (a ++ b) =
    match s.run a with
    | none => none
    | some r => match r.1.run b with
      | none => none
      | some q => some (q.1, r.2 ++ q.2) := by
  induction a with
  | nil => intro s; simp only [List.nil_append, ListenWait.run]; cases s.run b <;> simp
  | cons op a ih =>
    intro s
    simp only [List.cons_append, ListenWait.run]
    cases s.step op with
    | none => rfl
    | some r =>
      dsimp only
      rw [ih]
      cases r.1.run a with
      | none => rfl
      | some q =>
        dsimp only
        cases q.1.run b <;> simp

/-- Nobody unlocks. -/
def aux_lw_quiet (s : ListenWait) : Prop :=
  s.skip = false ∧ s.unlocker = none ∧ (∀ q, (s.queues q).items = 0) ∧ (∀ q, q < s.next → (s.queues q).refs = 1) ∧
  (∀ q, s.lock = some q → q < s.next) ∧
  ∀ i, match s.waiting i with
    | .out | .checked => True
    | .entered | .saw => s.lock.isSome = true
    | .holds q | .blocked q => q < s.next
    | .popped _ => False

theorem aux_lw_quiet_step (s : ListenWait) (i : Nat) (h : aux_lw_quiet s) :
    ∃ s', s.step (.wait i) = some (s', []) ∧ aux_lw_quiet s' := by
  obtain ⟨h1, h2, h3, h4, h5, h6⟩ := h
  have hi := h6 i
  simp only [ListenWait.step, ListenWait.waitStep]
  cases hw : s.waiting i <;> rw [hw] at hi <;> dsimp only at hi ⊢
  case out =>
    split
    · exact ⟨s, rfl, h1, h2, h3, h4, h5, h6⟩
    · rw [h1]
      refine ⟨_, rfl, rfl, h2, h3, h4, h5, fun j => ?_⟩
      have := h6 j
      simp only [ListenWait.at]
      by_cases e : j = i <;> simp_all
  case checked =>
    split
    · next hl =>
      refine ⟨_, rfl, h1, h2, fun q => ?_, fun q hq => ?_, fun q hq => ?_, fun j => ?_⟩
      · simp only [ListenWait.at, ListenWait.put]; split <;> simp [h3]
      · simp only [ListenWait.at, ListenWait.put] at hq ⊢; split
        · rfl
        · exact h4 q (by omega)
      · simp only [ListenWait.at, ListenWait.put] at hq ⊢; simp at hq; omega
      · have := h6 j
        simp only [ListenWait.at, ListenWait.put]
        by_cases e : j = i
        · simp [e]
        · simp only [e, if_false]
          split <;> simp_all <;> omega
    · next q hl =>
      refine ⟨_, rfl, h1, h2, h3, h4, h5, fun j => ?_⟩
      have := h6 j
      simp only [ListenWait.at]
      by_cases e : j = i <;> simp_all
  case entered =>
    obtain ⟨q, hq⟩ := Option.isSome_iff_exists.1 hi
    rw [hq]
    refine ⟨_, rfl, h1, h2, h3, h4, h5, fun j => ?_⟩
    have := h6 j
    simp only [ListenWait.at]
    by_cases e : j = i <;> simp_all
  case saw =>
    obtain ⟨q, hq⟩ := Option.isSome_iff_exists.1 hi
    rw [hq]
    refine ⟨_, rfl, h1, h2, h3, h4, h5, fun j => ?_⟩
    have := h6 j
    have := h5 q hq
    simp only [ListenWait.at]
    by_cases e : j = i <;> simp_all
  case holds q =>
    rw [if_neg (by rw [h4 q hi]; decide)]
    refine ⟨_, rfl, h1, h2, fun p => ?_, fun p hp => ?_, h5, fun j => ?_⟩
    · simp only [ListenWait.at, ListenWait.put]; split
      · exact h3 q
      · exact h3 p
    · simp only [ListenWait.at, ListenWait.put]; split
      · exact h4 q hi
      · exact h4 p hp
    · have := h6 j
      simp only [ListenWait.at, ListenWait.put]
      by_cases e : j = i <;> simp_all
  case blocked q =>
    rw [if_neg (by rw [h4 q hi]; decide), if_pos (h3 q)]
    exact ⟨s, rfl, h1, h2, h3, h4, h5, h6⟩

/-- `vortex_listener_wait` does not return before somebody unlocks, whatever the number of threads that wait. -/
theorem C71_waits (ops : List LwOp) (h : ∀ op ∈ ops, op ≠ .unlock ∧ op ≠ .fail) :
    ∃ s, ListenWait.init.run ops = some (s, []) := by
  have key : ∀ (ops : List LwOp) (s : ListenWait), (∀ op ∈ ops, op ≠ .unlock ∧ op ≠ .fail) → aux_lw_quiet s →
      ∃ s', s.run ops = some (s', []) := by
    intro ops
    induction ops with
    | nil => intro s _ _; exact ⟨s, rfl⟩
    | cons op ops ih =>
      intro s ho hs
      have h1 := ho op (by simp)
      have : ∃ s', s.step op = some (s', []) ∧ aux_lw_quiet s' := by
        cases op with
        | wait i => exact aux_lw_quiet_step s i hs
        | unlock => simp at h1
        | fail => simp at h1
        | go => exact ⟨s, by simp [ListenWait.step, ListenWait.goStep, hs.2.1], hs⟩
      obtain ⟨s', e, hs'⟩ := this
      obtain ⟨s'', e'⟩ := ih s' (fun o ho' => ho o (by simp [ho'])) hs'
      exact ⟨s'', by simp [ListenWait.run, e, e']⟩
  exact key ops _ h ⟨rfl, rfl, fun _ => rfl, by simp [ListenWait.init], by simp [ListenWait.init], by simp [ListenWait.init]⟩

example : ∃ s, ListenWait.init.run [.wait 0, .wait 1, .wait 0, .wait 1, .wait 0, .wait 1, .wait 0, .wait 0, .wait 0] = some (s, []) ∧
    s.waiting 0 = .blocked 0 ∧ s.waiting 1 = .entered := ⟨_, rfl, rfl, rfl⟩

/-- One thread waits, in order. -/
def aux_lw_inv (s : ListenWait) : Prop :=
  (∀ i, i ≠ 0 → s.waiting i = .out) ∧
  (∀ i, s.mutex = some i → i = 0) ∧ (s.mutex = some 0 ↔ s.waiting 0 = .checked) ∧
  match s.waiting 0 with
  | .out => (s.lock = none ∧ (s.unlocker = none ∨ s.unlocker = some .noQueue)) ∨ s.unlocker = some .clear
  | .checked => s.unlocker = none ∧ s.lock = none
  | .entered | .saw => s.unlocker = none ∧ ∃ q, s.lock = some q ∧ s.queues q = ⟨1, 0, 0⟩
  | .holds q => s.unlocker = none ∧ s.lock = some q ∧ s.queues q = ⟨1, 0, 0⟩
  | .blocked q =>
    (s.queues q = ⟨1, 0, 1⟩ ∧ s.lock = some q ∧ (s.unlocker = none ∨ s.unlocker = some .found ∨ s.unlocker = some .push)) ∨
    (s.queues q = ⟨1, 1, 1⟩ ∧ (s.unlocker = some .clear ∨ (s.lock = none ∧ (s.unlocker = none ∨ s.unlocker = some .noQueue))))
  | .popped q =>
    s.queues q = ⟨1, 0, 0⟩ ∧ (s.unlocker = some .clear ∨ (s.lock = none ∧ (s.unlocker = none ∨ s.unlocker = some .noQueue)))

theorem aux_lw_inv_step (s : ListenWait) (op : LwOp) (ho : orderly s op) (h : aux_lw_inv s) :
    ∃ r, s.step op = some r ∧ aux_lw_inv r.1 := by
  obtain ⟨h1, h2, h3, h4⟩ := h
  cases op with
  | fail => exact ho.elim
  | unlock =>
    simp only [ListenWait.step]
    split
    · exact ⟨_, rfl, h1, h2, h3, h4⟩
    · next hu =>
      have hn : s.unlocker = none := by cases hs : s.unlocker <;> simp_all
      have := ho hn
      refine ⟨_, rfl, h1, h2, h3, ?_⟩
      dsimp only
      cases hw : s.waiting 0 <;> rw [hw] at h4 this <;> simp_all
      all_goals grind
  | go =>
    simp only [ListenWait.step, ListenWait.goStep]
    cases hw : s.waiting 0 <;> rw [hw] at h4
    case out =>
      rcases h4 with ⟨hl, hu | hu⟩ | hu <;> rw [hu] <;> refine ⟨_, rfl, h1, h2, h3, ?_⟩ <;> simp [hw, *]
    case checked => rw [h4.1]; exact ⟨_, rfl, h1, h2, h3, by rw [hw]; exact h4⟩
    case entered => rw [h4.1]; exact ⟨_, rfl, h1, h2, h3, by rw [hw]; exact h4⟩
    case saw => rw [h4.1]; exact ⟨_, rfl, h1, h2, h3, by rw [hw]; exact h4⟩
    case holds => rw [h4.1]; exact ⟨_, rfl, h1, h2, h3, by rw [hw]; exact h4⟩
    case blocked q =>
      rcases h4 with ⟨hq, hl, hu | hu | hu⟩ | ⟨hq, hu | ⟨hl, hu | hu⟩⟩ <;> rw [hu]
      · exact ⟨_, rfl, h1, h2, h3, by rw [hw]; exact .inl ⟨hq, hl, .inl hu⟩⟩
      · dsimp only; rw [hl]; dsimp only; rw [hq]
        refine ⟨_, rfl, h1, h2, h3, ?_⟩; dsimp only; rw [hw]; exact .inl ⟨hq, by first | exact hl | rfl, .inr (.inr rfl)⟩
      · dsimp only; rw [hl]; dsimp only; rw [hq]
        refine ⟨_, rfl, h1, h2, h3, ?_⟩; simp only [ListenWait.put]; rw [hw]; exact .inr ⟨by simp, .inl (by simp)⟩
      · refine ⟨_, rfl, h1, h2, h3, ?_⟩; dsimp only; rw [hw]; exact .inr ⟨hq, .inr ⟨rfl, .inl rfl⟩⟩
      · exact ⟨_, rfl, h1, h2, h3, by rw [hw]; exact .inr ⟨hq, .inr ⟨hl, .inl hu⟩⟩⟩
      · refine ⟨_, rfl, h1, h2, h3, ?_⟩; dsimp only; rw [hw]; exact .inr ⟨hq, .inr ⟨hl, .inl rfl⟩⟩
    case popped q =>
      obtain ⟨hq, hu | ⟨hl, hu | hu⟩⟩ := h4 <;> rw [hu]
      · refine ⟨_, rfl, h1, h2, h3, ?_⟩; dsimp only; rw [hw]; exact ⟨hq, .inr ⟨rfl, .inl rfl⟩⟩
      · exact ⟨_, rfl, h1, h2, h3, by rw [hw]; exact ⟨hq, .inr ⟨hl, .inl hu⟩⟩⟩
      · refine ⟨_, rfl, h1, h2, h3, ?_⟩; dsimp only; rw [hw]; exact ⟨hq, .inr ⟨hl, .inl rfl⟩⟩
  | wait i =>
    obtain ⟨rfl, ho⟩ := ho
    simp only [ListenWait.step, ListenWait.waitStep]
    cases hw : s.waiting 0 <;> rw [hw] at h4
    case out =>
      have hu := ho hw
      dsimp only
      split
      · exact ⟨_, rfl, h1, h2, h3, by rw [hw]; exact h4⟩
      · split
        · exact ⟨_, rfl, h1, h2, h3, by rw [hw]; exact h4⟩
        · refine ⟨_, rfl, ?_, ?_, ?_, ?_⟩ <;> simp [ListenWait.at]
          · intro i hi; rw [if_neg hi]; exact h1 i hi
          · refine ⟨hu, ?_⟩
            rcases h4 with h | h
            · exact h.1
            · rw [hu] at h; simp at h
    case checked =>
      dsimp only
      rw [h4.2]
      refine ⟨_, rfl, ?_, ?_, ?_, ?_⟩ <;> simp [ListenWait.at, ListenWait.put]
      · intro i hi; rw [if_neg hi]; exact h1 i hi
      · exact h4.1
    case entered =>
      dsimp only
      obtain ⟨hu, q, hl, hq⟩ := h4
      rw [hl]
      refine ⟨_, rfl, ?_, ?_, ?_, ?_⟩ <;> simp [ListenWait.at]
      · intro i hi; rw [if_neg hi]; exact h1 i hi
      · exact h2
      · grind
      · exact ⟨hu, q, hl, hq⟩
    case saw =>
      dsimp only
      obtain ⟨hu, q, hl, hq⟩ := h4
      rw [hl]
      refine ⟨_, rfl, ?_, ?_, ?_, ?_⟩ <;> simp [ListenWait.at]
      · intro i hi; rw [if_neg hi]; exact h1 i hi
      · exact h2
      · grind
      · exact ⟨hu, hl, hq⟩
    case holds q =>
      dsimp only
      obtain ⟨hu, hl, hq⟩ := h4
      rw [hq]
      refine ⟨_, rfl, ?_, ?_, ?_, ?_⟩ <;> simp [ListenWait.at, ListenWait.put]
      · intro i hi; rw [if_neg hi]; exact h1 i hi
      · exact h2
      · grind
      · exact ⟨hl, .inl hu⟩
    case blocked q =>
      dsimp only
      rcases h4 with ⟨hq, hl, hu⟩ | ⟨hq, hu⟩
      · rw [hq]; exact ⟨_, rfl, h1, h2, h3, by rw [hw]; exact .inl ⟨hq, hl, hu⟩⟩
      · rw [hq]
        refine ⟨_, rfl, ?_, ?_, ?_, ?_⟩ <;> simp [ListenWait.at, ListenWait.put]
        · intro i hi; rw [if_neg hi]; exact h1 i hi
        · exact h2
        · grind
        · exact hu
    case popped q =>
      dsimp only
      obtain ⟨hq, hu⟩ := h4
      rw [hq]
      refine ⟨_, rfl, ?_, ?_, ?_, ?_⟩ <;> simp [ListenWait.at, ListenWait.put]
      · intro i hi; exact h1 i hi
      · exact h2
      · grind
      · grind

theorem aux_lw_reached (ops : List LwOp) : ∀ s, aux_lw_inv s → orderlyRun s ops → ∃ r, s.run ops = some r ∧ aux_lw_inv r.1 := by
  induction ops with
  | nil => intro s h _; exact ⟨_, rfl, h⟩
  | cons op ops ih =>
    intro s h ho
    obtain ⟨r, e, hr⟩ := aux_lw_inv_step s op ho.1 h
    obtain ⟨q, e', hq⟩ := ih r.1 hr (ho.2 r e)
    exact ⟨(q.1, r.2 ++ q.2), by simp [ListenWait.run, e, e'], hq⟩

theorem aux_lw_returns_blocked (s : ListenWait) (i q : Nat) (hw : s.waiting i = .blocked q) (hr : (s.queues q).refs ≠ 0)
    (hi : (s.queues q).items ≠ 0) : canReturn s i := by
  refine ⟨2, ?_⟩
  simp [List.replicate, ListenWait.run, ListenWait.step, ListenWait.waitStep, hw, hr, hi, ListenWait.at, ListenWait.put]

theorem aux_lw_returns_popped (s : ListenWait) (i q : Nat) (hw : s.waiting i = .popped q) (hr : (s.queues q).refs ≠ 0) :
    canReturn s i := by
  refine ⟨1, ?_⟩
  simp [List.replicate, ListenWait.run, ListenWait.step, ListenWait.waitStep, hw, hr]

theorem aux_lw_returns_skip (s : ListenWait) (i : Nat) (hw : s.waiting i = .out) (hm : s.mutex = none) (hs : s.skip = true) :
    canReturn s i := by
  refine ⟨1, ?_⟩
  simp [List.replicate, ListenWait.run, ListenWait.step, ListenWait.waitStep, hw, hm, hs]

/-- With one thread that waits, and calls to unlock that do not come while it is on its way to the queue: no released queue is used,
a call to unlock lets the thread out, and one that comes first makes every later wait return. Missing: everything else, where
the property is false. -/
theorem C71_released_partial (ops : List LwOp) (ho : orderlyRun ListenWait.init ops) :
    ∃ r, ListenWait.init.run ops = some r ∧
      (∀ op s', unlockReturns r.1 op s' → ∀ i, s'.waiting i ≠ .out → canReturn s' i) ∧
      ((∀ i, r.1.waiting i = .out) → r.1.unlocker = none → ∀ r', r.1.run [.unlock, .go] = some r' → ∀ i, canReturn r'.1 i) := by
  obtain ⟨r, e, h⟩ := aux_lw_reached ops ListenWait.init (by simp [aux_lw_inv, ListenWait.init]) ho
  refine ⟨r, e, ?_, ?_⟩
  · intro op s' ⟨ev, hs, hev⟩ i hi
    have hop : op = .go := by
      cases op with
      | go => rfl
      | wait j =>
        exfalso
        simp only [ListenWait.step, ListenWait.waitStep] at hs
        repeat' split at hs
        all_goals (simp at hs; try (obtain ⟨rfl, rfl⟩ := hs; simp at hev))
      | unlock => simp only [ListenWait.step] at hs; split at hs <;> simp at hs <;> obtain ⟨rfl, rfl⟩ := hs <;> simp at hev
      | fail => simp only [ListenWait.step] at hs; split at hs <;> simp at hs <;> obtain ⟨rfl, rfl⟩ := hs <;> simp at hev
    subst hop
    obtain ⟨r', e', h'⟩ := aux_lw_inv_step r.1 .go trivial h
    rw [e'] at hs
    obtain ⟨rfl⟩ : r' = (s', ev) := by simpa using hs
    have hun : s'.unlocker = none ∧ ∀ j, s'.waiting j = r.1.waiting j := by
      have e'' := e'
      simp only [ListenWait.step, ListenWait.goStep] at e''
      repeat' split at e''
      all_goals (simp at e''; try (obtain ⟨rfl, rfl⟩ := e''; simp at hev; try exact ⟨rfl, fun _ => rfl⟩))
    have hi0 : i = 0 := by
      apply Classical.byContradiction; intro h0
      exact hi (h'.1 i h0)
    subst hi0
    obtain ⟨g1, g2, g3, g4⟩ := h
    obtain ⟨k1, k2, k3, k4⟩ := h'
    dsimp only at k1 k2 k3 k4
    have hnone : r.1.unlocker ≠ none := by
      intro hn
      simp [ListenWait.step, ListenWait.goStep, hn] at e'
      rw [e'.2] at hev; simp at hev
    have hpush : r.1.unlocker ≠ some .found ∧ r.1.unlocker ≠ some .push := by
      constructor <;> intro hn <;> simp only [ListenWait.step, ListenWait.goStep, hn] at e' <;>
        repeat' split at e'
      all_goals (simp at e'; try (obtain ⟨rfl, rfl⟩ := e'; simp at hev))
    rw [hun.2 0] at hi k4
    cases hw : r.1.waiting 0 <;> rw [hw] at hi g4 k4 <;> dsimp only at g4 k4
    · simp at hi
    · exact absurd g4.1 hnone
    · exact absurd g4.1 hnone
    · exact absurd g4.1 hnone
    · exact absurd g4.1 hnone
    · next q =>
      rcases k4 with ⟨hq, hl, _⟩ | ⟨hq, _⟩
      · exfalso
        rcases g4 with ⟨_, _, hu | hu | hu⟩ | ⟨_, hu⟩
        · exact hnone hu
        · exact hpush.1 hu
        · exact hpush.2 hu
        · rcases hu with hu | ⟨hl', hu | hu⟩
          · simp only [ListenWait.step, ListenWait.goStep, hu] at e'
            simp at e'; obtain ⟨rfl, rfl⟩ := e'; simp at hl
          · exact hnone hu
          · simp only [ListenWait.step, ListenWait.goStep, hu] at e'
            simp at e'; obtain ⟨rfl, rfl⟩ := e'; simp [hl'] at hl
      · exact aux_lw_returns_blocked _ _ q (by rw [hun.2, hw]) (by rw [hq]; decide) (by rw [hq]; decide)
    · next q => exact aux_lw_returns_popped _ _ q (by rw [hun.2, hw]) (by rw [k4.1]; decide)
  · intro hout hun r' hr' i
    obtain ⟨g1, g2, g3, g4⟩ := h
    rw [hout 0] at g4 g3
    have hl : r.1.lock = none := by
      rcases g4 with h | h
      · exact h.1
      · rw [hun] at h; simp at h
    have hm : r.1.mutex = none := by
      cases hm : r.1.mutex with
      | none => rfl
      | some j => have := g2 j hm; subst this; simp [hm] at g3
    simp [ListenWait.run, ListenWait.step, ListenWait.goStep, hun, hl] at hr'
    subst hr'
    exact aux_lw_returns_skip _ i (hout i) hm rfl

/-- One that waits and is released, and a call to unlock before one that waits. -/
example : (∃ s, ListenWait.init.run ([.wait 0, .wait 0, .wait 0, .wait 0, .wait 0, .unlock, .go, .go, .wait 0, .go, .wait 0]) =
      some (s, [.unlocked, .returned 0])) ∧
    (∃ s, ListenWait.init.run [.unlock, .go, .wait 0] = some (s, [.unlocked, .returned 0])) ∧
    orderlyRun ListenWait.init [.unlock, .go, .wait 0] := by
  refine ⟨⟨_, rfl⟩, ⟨_, rfl⟩, ?_⟩
  simp [orderlyRun, orderly, ListenWait.step, ListenWait.init, ListenWait.goStep, ListenWait.waitStep]

theorem aux_lw_stuck (s : ListenWait) (i q : Nat) (hw : s.waiting i = .blocked q) (hr : (s.queues q).refs ≠ 0)
    (hi : (s.queues q).items = 0) : ∀ n, s.run (List.replicate n (.wait i)) = some (s, []) := by
  intro n
  induction n with
  | zero => rfl
  | succ n ih => simp [List.replicate, ListenWait.run, ListenWait.step, ListenWait.waitStep, hw, hr, hi]; rw [ih]

/-- A thread that stands on the queue without an item is not let out by its own steps, however many of them it takes before. -/
theorem aux_lw_never (s : ListenWait) (i : Nat) (k : Nat) (s' : ListenWait) (q : Nat)
    (hk : ∀ m, m < k → ∃ t, s.run (List.replicate m (.wait i)) = some (t, []))
    (e : s.run (List.replicate k (.wait i)) = some (s', []))
    (hw : s'.waiting i = .blocked q) (hr : (s'.queues q).refs ≠ 0) (hi : (s'.queues q).items = 0) : ¬ canReturn s i := by
  intro ⟨n, r, hn, hm⟩
  rcases Nat.lt_or_ge n k with h | h
  · obtain ⟨t, ht⟩ := hk n h
    rw [ht] at hn; simp at hn; rw [← hn] at hm; simp at hm
  · obtain ⟨d, rfl⟩ := Nat.exists_eq_add_of_le h
    rw [← List.replicate_append_replicate, aux_lw_run_append, e] at hn
    simp [aux_lw_stuck s' i q hw hr hi d] at hn
    rw [← hn] at hm; simp at hm

/-- Unlocking just after a thread that waits looked at the flag: the thread waits for ever. -/
theorem C71_lost : ∃ s, ListenWait.init.run [.wait 0, .unlock, .go] = some (s, [.unlocked]) ∧ s.waiting 0 ≠ .out ∧ ¬ canReturn s 0 := by
  refine ⟨_, rfl, by decide, ?_⟩
  refine aux_lw_never _ 0 4 _ 0 ?_ rfl rfl (by decide) rfl
  intro m hm
  match m, hm with
  | 0, _ => exact ⟨_, rfl⟩
  | 1, _ => exact ⟨_, rfl⟩
  | 2, _ => exact ⟨_, rfl⟩
  | 3, _ => exact ⟨_, rfl⟩

/-- A listener that cannot be started: the thread that waits afterwards, as usual, waits for ever. -/
theorem C71_failure_lost : ∃ s, ListenWait.init.run [.fail, .go, .go] = some (s, [.unlocked]) ∧ ¬ canReturn s 0 := by
  refine ⟨_, rfl, ?_⟩
  refine aux_lw_never _ 0 5 _ 0 ?_ rfl rfl (by decide) rfl
  intro m hm
  match m, hm with
  | 0, _ => exact ⟨_, rfl⟩
  | 1, _ => exact ⟨_, rfl⟩
  | 2, _ => exact ⟨_, rfl⟩
  | 3, _ => exact ⟨_, rfl⟩
  | 4, _ => exact ⟨_, rfl⟩

/-- Released queues are used: if the call to unlock comes when the thread is about to wait; if two threads wait; and if the thread
waits again before the call to unlock returned. -/
theorem C71_released_queue :
    ListenWait.init.run [.wait 0, .wait 0, .wait 0, .wait 0, .unlock, .go, .go, .go, .wait 0] = none ∧
    ListenWait.init.run ([.wait 0, .wait 0, .wait 0, .wait 0, .wait 0, .wait 1, .wait 1, .wait 1, .wait 1, .wait 1] ++
      [.unlock, .go, .go, .go, .wait 0, .wait 0, .wait 1]) = none ∧
    ListenWait.init.run ([.wait 0, .wait 0, .wait 0, .wait 0, .wait 0, .unlock, .go, .go, .wait 0, .wait 0] ++
      [.wait 0, .wait 0, .wait 0, .wait 0, .wait 0]) = none := ⟨rfl, rfl, rfl⟩

theorem C71_statement_false : ¬ C71_statement := by
  intro h
  obtain ⟨r, e, -⟩ := h [.wait 0, .wait 0, .wait 0, .wait 0, .unlock, .go, .go, .go, .wait 0]
  rw [C71_released_queue.1] at e
  cases e

end Verif.Props
