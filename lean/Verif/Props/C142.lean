import Verif.Spec.PyFrames
/-!
# C142: frames received by a Python channel
-/
namespace Verif.Props
open Verif.Model Verif.Spec

/-- What one more event makes of the handler in force. -/
def aux_yf_next (c : Option (Nat × Option Nat)) : PyfOp → Option (Nat × Option Nat)
  | .set h d => some (h, d)
  | .clear => none
  | _ => c

theorem aux_yf_force (ops : List PyfOp) (op : PyfOp) : ∀ c, pyfInForce (ops ++ [op]) c = aux_yf_next (pyfInForce ops c) op := by
  induction ops with
  | nil => intro c; cases op <;> rfl
  | cons o r ih => intro c; cases o <;> simp only [List.cons_append, pyfInForce] <;> exact ih _

theorem aux_yf_accepted (ops : List PyfOp) (op : PyfOp) : ∀ c, pyfAccepted (ops ++ [op]) c =
    pyfAccepted ops c ++ (match op with | .arrive f => if (pyfInForce ops c).isSome then [f] else [] | _ => []) := by
  induction ops with
  | nil => intro c; cases op <;> cases c <;> simp [pyfAccepted, pyfInForce]
  | cons o r ih =>
    intro c
    cases o with
    | arrive f => cases c <;> simp only [List.cons_append, pyfInForce, pyfAccepted] <;> rw [ih] <;> cases op <;> rfl
    | _ => simp only [List.cons_append, pyfInForce, pyfAccepted] <;> exact ih _

theorem aux_yf_run (ops : List PyfOp) (op : PyfOp) : pyfRun (ops ++ [op]) = pyfStep (pyfRun ops) op := by
  simp [pyfRun, List.foldl_append]

theorem aux_yf_snoc {P : List PyfOp → Prop} (h0 : P []) (h1 : ∀ l a, P l → P (l ++ [a])) (l : List PyfOp) : P l := by
  have : ∀ r : List PyfOp, P r.reverse := by
    intro r
    induction r with
    | nil => exact h0
    | cons a r ih => rw [List.reverse_cons]; exact h1 _ _ ih
  simpa using this l.reverse

/-- The references of one state. -/
def aux_yf_refs (c : Option (Nat × Option Nat)) (s : PyfState) : Prop :=
  ∀ x, s.hrefs x = (if c.map (·.1) = some x then 1 else 0) ∧
    s.drefs x = (if c.map (·.2) = some (some x) then 1 else 0) + (s.running.filter (fun e => e.2 == some x)).length

def aux_yf_inv (c : Option (Nat × Option Nat)) (s : PyfState) : Prop :=
  s.bad = false →
    (s.gone = false → s.received = c.isSome ∧ s.fr = c.map (·.1) ∧ s.frd = c.map (·.2) ∧ aux_yf_refs c s) ∧
    (s.gone = true → s.queued = [] ∧ s.entered = [] ∧ s.running = [] ∧ ∀ x, s.hrefs x = 0 ∧ s.drefs x = 0)

theorem aux_yf_filterErase (l : List (Nat × Option Nat)) (p : Nat × Option Nat → Bool) : ∀ (i : Nat) (e : Nat × Option Nat), l[i]? = some e →
    (l.filter p).length = ((l.eraseIdx i).filter p).length + (if p e then 1 else 0) := by
  induction l with
  | nil => intro i e h; simp at h
  | cons a r ih =>
    intro i e h
    cases i with
    | zero => simp at h; subst h; simp [List.filter_cons]; split <;> simp
    | succ i =>
      simp at h
      have := ih i e h
      simp only [List.eraseIdx_cons_succ, List.filter_cons]
      split <;> simp [this] <;> omega

theorem aux_yf_dropHandler (c : Option (Nat × Option Nat)) (s : PyfState) (hf : s.fr = c.map (·.1)) (hr : ∀ h, c.map (·.1) = some h → s.hrefs h ≠ 0) :
    pyfDropHandler s = { s with hrefs := fun x => s.hrefs x - (if c.map (·.1) = some x then 1 else 0), fr := none } := by
  cases c with
  | none => simp at hf; simp [pyfDropHandler, hf]; cases s; simp_all
  | some e =>
    simp at hf
    have := hr e.1 (by simp)
    simp only [pyfDropHandler, hf, if_neg this, Option.map_some, Option.some.injEq]
    congr 1
    funext x
    simp only [pyfDown]
    by_cases h : x = e.1
    · simp [h]
    · have h2 : ¬ e.1 = x := fun hh => h hh.symm
      simp [h, h2]

theorem aux_yf_dropData (c : Option (Nat × Option Nat)) (s : PyfState) (hf : s.frd = c.map (·.2)) (hr : ∀ h, c.map (·.2) = some (some h) → s.drefs h ≠ 0) :
    pyfDropData s = { s with drefs := fun x => s.drefs x - (if c.map (·.2) = some (some x) then 1 else 0), frd := none } := by
  cases c with
  | none => simp at hf; simp [pyfDropData, hf]
  | some e =>
    obtain ⟨h, d⟩ := e
    simp at hf
    cases d with
    | none => simp [pyfDropData, hf]
    | some d =>
      have := hr d (by simp)
      simp only [pyfDropData, hf, if_neg this, Option.map_some, Option.some.injEq]
      congr 1
      funext x
      simp only [pyfDown]
      by_cases h : x = d
      · simp [h]
      · have h2 : ¬ d = x := fun hh => h hh.symm
        simp [h, h2]

theorem aux_yf_stepInv (c : Option (Nat × Option Nat)) (s : PyfState) (op : PyfOp) (h : aux_yf_inv c s) :
    aux_yf_inv (aux_yf_next c op) (pyfStep s op) := by
  by_cases hb : s.bad = true
  · intro hb'; simp [pyfStep, hb] at hb'
  have hb0 : s.bad = false := by simpa using hb
  obtain ⟨h1, h2⟩ := h hb0
  by_cases hg : s.gone = true
  · have : pyfStep s op = s := by simp [pyfStep, hg]
    rw [this]; intro _
    exact ⟨fun h => (by rw [hg] at h; cases h), h2⟩
  have hg0 : s.gone = false := by simpa using hg
  obtain ⟨hrec, hfr, hfrd, hrefs⟩ := h1 hg0
  have hstep : pyfStep s op = pyfAct s op := by simp [pyfStep, hb0, hg0]
  rw [hstep]
  have hH : ∀ a, c.map (·.1) = some a → s.hrefs a ≠ 0 := by intro a ha; rw [(hrefs a).1, if_pos ha]; omega
  have hD : ∀ a, c.map (·.2) = some (some a) → s.drefs a ≠ 0 := by intro a ha; rw [(hrefs a).2, if_pos ha]; omega
  cases op with
  | set a d =>
    intro _
    have e1 := aux_yf_dropHandler c { s with hrefs := pyfUp s.hrefs a } hfr (by
      intro x hx; have := hH x hx; simp only [pyfUp]; split <;> omega)
    cases d with
    | none =>
      have e2 := aux_yf_dropData c { s with hrefs := fun x => pyfUp s.hrefs a x - (if c.map (·.1) = some x then 1 else 0), fr := some a } hfrd hD
      simp only [pyfAct, pyfSet, e1, e2]
      refine ⟨fun _ => ⟨rfl, rfl, rfl, fun x => ⟨?_, ?_⟩⟩, fun h => (by simp [hg0] at h)⟩
      · simp only [aux_yf_next, Option.map_some, Option.some.injEq, pyfUp, (hrefs x).1]
        by_cases hx : x = a
        · simp [hx]
        · have : ¬ a = x := fun e => hx e.symm
          simp [hx, this]
      · simp [aux_yf_next, (hrefs x).2]
    | some d =>
      have e2 := aux_yf_dropData c { s with hrefs := fun x => pyfUp s.hrefs a x - (if c.map (·.1) = some x then 1 else 0), fr := some a, drefs := pyfUp s.drefs d } hfrd (by
        intro x hx; have := hD x hx; simp only [pyfUp]; split <;> omega)
      simp only [pyfAct, pyfSet, e1, e2]
      refine ⟨fun _ => ⟨rfl, rfl, rfl, fun x => ⟨?_, ?_⟩⟩, fun h => (by simp [hg0] at h)⟩
      · simp only [aux_yf_next, Option.map_some, Option.some.injEq, pyfUp, (hrefs x).1]
        by_cases hx : x = a
        · simp [hx]
        · have : ¬ a = x := fun e => hx e.symm
          simp [hx, this]
      · simp only [aux_yf_next, Option.map_some, Option.some.injEq, pyfUp, (hrefs x).2]
        by_cases hx : x = d
        · simp only [hx, if_true]; omega
        · have : ¬ d = x := fun e => hx e.symm
          simp only [hx, this, if_false]; omega
  | refused => intro _; exact ⟨fun _ => ⟨hrec, hfr, hfrd, hrefs⟩, fun h => (by simp [pyfAct, hg0] at h)⟩
  | clear =>
    intro _
    have e1 := aux_yf_dropHandler c { s with received := false } hfr hH
    have e2 := aux_yf_dropData c { s with received := false, hrefs := fun x => s.hrefs x - (if c.map (·.1) = some x then 1 else 0), fr := none } hfrd hD
    simp only [pyfAct, e1, e2]
    refine ⟨fun _ => ⟨rfl, rfl, rfl, fun x => ⟨?_, ?_⟩⟩, fun h => (by simp [hg0] at h)⟩
    · simp [aux_yf_next, (hrefs x).1]
    · simp [aux_yf_next, (hrefs x).2]
  | arrive f =>
    intro _
    simp only [pyfAct]
    split
    · exact ⟨fun _ => ⟨hrec, hfr, hfrd, hrefs⟩, fun h => (by simp [hg0] at h)⟩
    · exact ⟨fun _ => ⟨hrec, hfr, hfrd, hrefs⟩, fun h => (by simp [hg0] at h)⟩
  | task i =>
    intro _
    simp only [pyfAct]
    cases s.queued[i]? with
    | none => exact ⟨fun _ => ⟨hrec, hfr, hfrd, hrefs⟩, fun h => (by simp [hg0] at h)⟩
    | some f =>
      dsimp only
      split
      · exact ⟨fun _ => ⟨hrec, hfr, hfrd, hrefs⟩, fun h => (by simp [hg0] at h)⟩
      · exact ⟨fun _ => ⟨hrec, hfr, hfrd, hrefs⟩, fun h => (by simp [hg0] at h)⟩
  | enter i =>
    intro hbad
    simp only [pyfAct] at hbad ⊢
    cases hi : s.entered[i]? with
    | none => exact ⟨fun _ => ⟨hrec, hfr, hfrd, hrefs⟩, fun h => (by simp [hg0] at h)⟩
    | some f =>
      rw [hi] at hbad
      cases c with
      | none => simp at hfr; simp [pyfEnter, hfr] at hbad
      | some e =>
        obtain ⟨a, d⟩ := e
        simp at hfr hfrd
        simp only [pyfEnter, hfr, hfrd]
        refine ⟨fun _ => ⟨hrec, by simp [aux_yf_next], by simp [aux_yf_next], fun x => ⟨(hrefs x).1, ?_⟩⟩, fun h => (by simp [hg0] at h)⟩
        have := (hrefs x).2
        simp only [List.filter_append, List.length_append, aux_yf_next]
        cases d with
        | none => simp [this]
        | some d =>
          simp only [pyfUp, this, Option.map_some, Option.some.injEq]
          by_cases hx : x = d
          · simp [hx]; omega
          · have h2 : ¬ d = x := fun e => hx e.symm
            simp [hx, h2]
  | finish i =>
    intro hbad
    simp only [pyfAct] at hbad ⊢
    cases hi : s.running[i]? with
    | none => exact ⟨fun _ => ⟨hrec, hfr, hfrd, hrefs⟩, fun h => (by simp [hg0] at h)⟩
    | some e =>
      obtain ⟨f, d⟩ := e
      have hfe := fun x => aux_yf_filterErase s.running (fun e => e.2 == some x) i (f, d) hi
      cases d with
      | none =>
        simp only [pyfFinish]
        refine ⟨fun _ => ⟨hrec, hfr, hfrd, fun x => ⟨(hrefs x).1, ?_⟩⟩, fun h => (by simp [hg0] at h)⟩
        have := (hrefs x).2; rw [hfe x] at this
        rw [this]; show _ = (if c.map (·.2) = some (some x) then 1 else 0) + _
        by_cases hm : c.map (·.2) = some (some x) <;> simp [hm]
      | some d =>
        have h0 : s.drefs d ≠ 0 := by rw [(hrefs d).2, hfe d]; simp
        simp only [pyfFinish, if_neg h0]
        refine ⟨fun _ => ⟨hrec, hfr, hfrd, fun x => ⟨(hrefs x).1, ?_⟩⟩, fun h => (by simp [hg0] at h)⟩
        have := (hrefs x).2; rw [hfe x] at this
        simp only [pyfDown, this, aux_yf_next]
        by_cases hm : c.map (·.2) = some (some x)
        · by_cases hx : x = d
          · subst hx; simp [hm]; try omega
          · have h2 : ¬ d = x := fun e => hx e.symm
            simp [hx, h2, hm]
        · by_cases hx : x = d
          · subst hx; simp [hm]
          · have h2 : ¬ d = x := fun e => hx e.symm
            simp [hx, h2, hm]
  | destroy =>
    intro hbad
    simp only [pyfAct] at hbad ⊢
    by_cases hq : s.queued = [] ∧ s.entered = [] ∧ s.running = []
    · have e1 := aux_yf_dropHandler c s hfr hH
      have e2 := aux_yf_dropData c { s with hrefs := fun x => s.hrefs x - (if c.map (·.1) = some x then 1 else 0), fr := none } hfrd hD
      rw [if_pos hq]
      simp only [e1, e2]
      refine ⟨fun h => (by cases h), fun _ => ⟨hq.1, hq.2.1, hq.2.2, fun x => ⟨?_, ?_⟩⟩⟩
      · simp [(hrefs x).1]
      · simp [(hrefs x).2, hq.2.2]
    · rw [if_neg hq]
      exact ⟨fun _ => ⟨hrec, hfr, hfrd, hrefs⟩, fun h => (by simp [hg0] at h)⟩

theorem aux_yf_runInv (ops : List PyfOp) : aux_yf_inv (pyfInForce ops none) (pyfRun ops) := by
  induction ops using aux_yf_snoc with
  | h0 => intro _; exact ⟨fun _ => ⟨rfl, rfl, rfl, fun x => ⟨rfl, rfl⟩⟩, fun h => (by cases h)⟩
  | h1 l a ih => rw [aux_yf_force, aux_yf_run]; exact aux_yf_stepInv _ _ _ ih

/-- **C142, references.** Until the process crashes, the references held for a channel are one to the handler in force, one to its data and one to the data for
each call that runs; none when the channel is gone. -/
theorem C142_refs_partial (ops : List PyfOp) (h : (pyfRun ops).bad = false) : PyfRefs ops := by
  obtain ⟨h1, h2⟩ := aux_yf_runInv ops h
  exact ⟨fun hg => (h1 hg).2.2.2, fun hg => (h2 hg).2.2.2⟩

theorem aux_yf_badStays (s : PyfState) (op : PyfOp) (h : (pyfStep s op).bad = false) : s.bad = false := by
  by_cases hb : s.bad = true
  · simp [pyfStep, hb] at h
  · simpa using hb

/-- **C142, calls.** Until the process crashes, the calls made are those that are due, in that order: each frame that a thread goes on with is given, once, to the handler that
is in force at that moment, with the data given with that handler. -/
theorem C142_calls_partial (ops : List PyfOp) (op : PyfOp) (h : (pyfRun (ops ++ [op])).bad = false) :
    (pyfRun (ops ++ [op])).calls = (pyfRun ops).calls ++ pyfDue ops op := by
  rw [aux_yf_run] at h ⊢
  have hb0 := aux_yf_badStays _ _ h
  obtain ⟨h1, h2⟩ := aux_yf_runInv ops hb0
  by_cases hg : (pyfRun ops).gone = true
  · have e : pyfStep (pyfRun ops) op = pyfRun ops := by simp [pyfStep, hg]
    rw [e]
    cases op <;> simp [pyfDue, (h2 hg).2.1]
  have hg0 : (pyfRun ops).gone = false := by simpa using hg
  obtain ⟨hrec, hfr, hfrd, hrefs⟩ := h1 hg0
  have hstep : pyfStep (pyfRun ops) op = pyfAct (pyfRun ops) op := by simp [pyfStep, hb0, hg0]
  rw [hstep] at h ⊢
  have dh : ∀ s : PyfState, (pyfDropHandler s).calls = s.calls := by
    intro s; unfold pyfDropHandler; split
    · rfl
    · split <;> rfl
  have dd : ∀ s : PyfState, (pyfDropData s).calls = s.calls := by
    intro s; unfold pyfDropData; split
    · split <;> rfl
    · rfl
  cases op with
  | set a d => cases d <;> simp [pyfAct, pyfSet, pyfDue, dh, dd]
  | refused => simp [pyfAct, pyfDue]
  | clear => simp [pyfAct, pyfDue, dh, dd]
  | arrive f => simp only [pyfAct, pyfDue]; split <;> simp
  | task i =>
    simp only [pyfAct, pyfDue]; split
    · simp
    · split <;> simp
  | enter i =>
    simp only [pyfAct, pyfDue] at h ⊢
    cases hi : (pyfRun ops).entered[i]? with
    | none => simp
    | some f =>
      rw [hi] at h
      cases hc : pyfInForce ops none with
      | none => rw [hc] at hfr; simp at hfr; simp [pyfEnter, hfr] at h
      | some e =>
        obtain ⟨a, d⟩ := e
        rw [hc] at hfr hfrd; simp at hfr hfrd
        simp [pyfEnter, hfr, hfrd]
  | finish i =>
    simp only [pyfAct, pyfDue]; split
    · simp
    · unfold pyfFinish; dsimp only; split
      · simp
      · split <;> simp
  | destroy => simp only [pyfAct, pyfDue]; split <;> simp [dh, dd]

theorem aux_yf_countErase (l : List Nat) (f : Nat) : ∀ (i e : Nat), l[i]? = some e →
    l.count f = (l.eraseIdx i).count f + [e].count f := by
  induction l with
  | nil => intro i e h; simp at h
  | cons a r ih =>
    intro i e h
    cases i with
    | zero => simp at h; subst h; rw [List.eraseIdx_cons_zero, List.count_cons, List.count_singleton]
    | succ i =>
      simp at h
      have := ih i e h
      rw [List.eraseIdx_cons_succ, List.count_cons, List.count_cons, this]; omega

/-- **C142, frames.** Until the process crashes or the channel is gone, each frame that arrived while there was a handler is in exactly one place: it waits, it was given to a
handler, or it was dropped because there was no handler when its turn came. -/
theorem C142_once_partial (ops : List PyfOp) (h : (pyfRun ops).bad = false) (hg : (pyfRun ops).gone = false) : PyfOnce ops := by
  induction ops using aux_yf_snoc with
  | h0 => intro f; rfl
  | h1 l op ih =>
    rw [aux_yf_run] at h hg
    have hb0 := aux_yf_badStays _ _ h
    have hg0 : (pyfRun l).gone = false := by
      by_cases hx : (pyfRun l).gone = true
      · simp [pyfStep, hx] at hg
      · simpa using hx
    have ih := ih hb0 hg0
    obtain ⟨hrec, hfr, hfrd, hrefs⟩ := (aux_yf_runInv l hb0).1 hg0
    have hstep : pyfStep (pyfRun l) op = pyfAct (pyfRun l) op := by simp [pyfStep, hb0, hg0]
    intro f
    have ih := ih f
    rw [aux_yf_accepted, aux_yf_run, hstep]
    rw [hstep] at h
    have dh : ∀ s : PyfState, (pyfDropHandler s).calls = s.calls ∧ (pyfDropHandler s).queued = s.queued ∧ (pyfDropHandler s).entered = s.entered ∧ (pyfDropHandler s).dropped = s.dropped := by
      intro s; unfold pyfDropHandler; split
      · simp
      · split <;> simp
    have dd : ∀ s : PyfState, (pyfDropData s).calls = s.calls ∧ (pyfDropData s).queued = s.queued ∧ (pyfDropData s).entered = s.entered ∧ (pyfDropData s).dropped = s.dropped := by
      intro s; unfold pyfDropData; split
      · split <;> simp
      · simp
    cases op with
    | set a d => cases d <;> simp [pyfAct, pyfSet, dh, dd, ih]
    | refused => simp [pyfAct, ih]
    | clear => simp [pyfAct, dh, dd, ih]
    | arrive g =>
      simp only [pyfAct, ← hrec]
      split
      · simp only [List.count_append, ih]; omega
      · simp [ih]
    | task i =>
      simp only [pyfAct, List.append_nil]
      cases hi : (pyfRun l).queued[i]? with
      | none => exact ih
      | some g =>
        have := aux_yf_countErase _ f _ _ hi
        dsimp only
        split
        · simp only [List.count_append]; omega
        · simp only [List.count_append]; omega
    | enter i =>
      simp only [pyfAct, List.append_nil] at h ⊢
      cases hi : (pyfRun l).entered[i]? with
      | none => exact ih
      | some g =>
        rw [hi] at h
        have := aux_yf_countErase _ f _ _ hi
        cases hc : pyfInForce l none with
        | none => rw [hc] at hfr; simp at hfr; simp [pyfEnter, hfr] at h
        | some e =>
          obtain ⟨a, d⟩ := e
          rw [hc] at hfr hfrd; simp at hfr hfrd
          simp only [pyfEnter, hfr, hfrd, List.map_append, List.count_append, List.map_cons, List.map_nil]; omega
    | finish i =>
      simp only [pyfAct, List.append_nil]
      split
      · exact ih
      · unfold pyfFinish; dsimp only; split
        · exact ih
        · split <;> exact ih
    | destroy =>
      simp only [pyfAct, List.append_nil]
      split
      · simp [dh, dd, ih]
      · exact ih

theorem aux_yf_quietPre (l : List PyfOp) (op : PyfOp) (h : PyfQuiet (l ++ [op])) : PyfQuiet l := by
  intro pre post e
  exact h pre (post ++ [op]) (by rw [e]; simp)

theorem aux_yf_quietInv (ops : List PyfOp) (hq : PyfQuiet ops) :
    (pyfRun ops).bad = false ∧ ((pyfRun ops).entered ≠ [] → (pyfRun ops).received = true) := by
  induction ops using aux_yf_snoc with
  | h0 => exact ⟨rfl, fun h => absurd rfl h⟩
  | h1 l op ih =>
    obtain ⟨hb0, hent⟩ := ih (aux_yf_quietPre _ _ hq)
    rw [aux_yf_run]
    by_cases hg : (pyfRun l).gone = true
    · have e : pyfStep (pyfRun l) op = pyfRun l := by simp [pyfStep, hg]
      rw [e]; exact ⟨hb0, hent⟩
    have hg0 : (pyfRun l).gone = false := by simpa using hg
    obtain ⟨hrec, hfr, hfrd, hrefs⟩ := (aux_yf_runInv l hb0).1 hg0
    have hstep : pyfStep (pyfRun l) op = pyfAct (pyfRun l) op := by simp [pyfStep, hb0, hg0]
    rw [hstep]
    generalize hc : pyfInForce l none = c at hrec hfr hfrd hrefs
    generalize hs : pyfRun l = s at *
    have hH : ∀ a, c.map (·.1) = some a → s.hrefs a ≠ 0 := by intro a ha; rw [(hrefs a).1, if_pos ha]; omega
    have hD : ∀ a, c.map (·.2) = some (some a) → s.drefs a ≠ 0 := by intro a ha; rw [(hrefs a).2, if_pos ha]; omega
    cases op with
    | set a d =>
      have e1 := aux_yf_dropHandler c { s with hrefs := pyfUp s.hrefs a } hfr (by
        intro x hx; have := hH x hx; simp only [pyfUp]; split <;> omega)
      cases d with
      | none =>
        have e2 := aux_yf_dropData c { s with hrefs := fun x => pyfUp s.hrefs a x - (if c.map (·.1) = some x then 1 else 0), fr := some a } hfrd hD
        simp only [pyfAct, pyfSet, e1, e2]
        exact ⟨hb0, fun _ => trivial⟩
      | some d =>
        have e2 := aux_yf_dropData c { s with hrefs := fun x => pyfUp s.hrefs a x - (if c.map (·.1) = some x then 1 else 0), fr := some a, drefs := pyfUp s.drefs d } hfrd (by
          intro x hx; have := hD x hx; simp only [pyfUp]; split <;> omega)
        simp only [pyfAct, pyfSet, e1, e2]
        exact ⟨hb0, fun _ => trivial⟩
    | refused => exact ⟨hb0, hent⟩
    | clear =>
      have e1 := aux_yf_dropHandler c { s with received := false } hfr hH
      have e2 := aux_yf_dropData c { s with received := false, hrefs := fun x => s.hrefs x - (if c.map (·.1) = some x then 1 else 0), fr := none } hfrd hD
      simp only [pyfAct, e1, e2]
      have := hq l [] rfl
      rw [hs] at this
      exact ⟨hb0, fun h => absurd this h⟩
    | arrive f =>
      simp only [pyfAct]; split
      · exact ⟨hb0, hent⟩
      · exact ⟨hb0, hent⟩
    | task i =>
      simp only [pyfAct]; split
      · exact ⟨hb0, hent⟩
      · split
        · rename_i hr; exact ⟨hb0, fun _ => hr⟩
        · exact ⟨hb0, hent⟩
    | enter i =>
      simp only [pyfAct]
      cases hi : s.entered[i]? with
      | none => exact ⟨hb0, hent⟩
      | some g =>
        have hr := hent (by intro e; rw [e] at hi; simp at hi)
        rw [hr] at hrec
        cases c with
        | none => simp at hrec
        | some e =>
          simp at hfr hfrd
          simp only [pyfEnter, hfr, hfrd]
          exact ⟨hb0, fun _ => hr⟩
    | finish i =>
      simp only [pyfAct]
      cases hi : s.running[i]? with
      | none => exact ⟨hb0, hent⟩
      | some e =>
        obtain ⟨f, d⟩ := e
        cases d with
        | none => exact ⟨hb0, hent⟩
        | some d =>
          have h0 : s.drefs d ≠ 0 := by
            rw [(hrefs d).2, aux_yf_filterErase s.running (fun e => e.2 == some d) i _ hi]; simp
          simp only [pyfFinish, if_neg h0]
          exact ⟨hb0, hent⟩
    | destroy =>
      simp only [pyfAct]
      have e1 := aux_yf_dropHandler c s hfr hH
      have e2 := aux_yf_dropData c { s with hrefs := fun x => s.hrefs x - (if c.map (·.1) = some x then 1 else 0), fr := none } hfrd hD
      simp only [e1, e2]
      split
      · rename_i hx; exact ⟨hb0, fun h => absurd hx.2.1 h⟩
      · exact ⟨hb0, hent⟩

/-- **C142, no crash.** The process does not crash if the handler is removed only while no thread is about to call it; replacing it is always safe. -/
theorem C142_safe_partial (ops : List PyfOp) (hq : PyfQuiet ops) : (pyfRun ops).bad = false := (aux_yf_quietInv ops hq).1

example : (pyfRun [.set 1 (some 7), .arrive 10, .task 0, .set 2 none, .enter 0, .arrive 11, .finish 0, .clear, .task 0, .destroy]).bad = false ∧
    (pyfRun [.set 1 (some 7), .arrive 10, .task 0, .set 2 none, .enter 0, .arrive 11, .finish 0, .clear, .task 0, .destroy]).calls = [(10, 2, none)] ∧
    (pyfRun [.set 1 (some 7), .arrive 10, .task 0, .set 2 none, .enter 0, .arrive 11, .finish 0, .clear, .task 0, .destroy]).dropped = [11] ∧
    (pyfRun [.set 1 (some 7), .arrive 10, .task 0, .set 2 none, .enter 0, .arrive 11, .finish 0, .clear, .task 0, .destroy]).gone = true := by
  decide +kernel

example : PyfQuiet [.set 1 (some 7), .arrive 10, .clear, .task 0] := by
  intro pre post e
  rcases pre with _ | ⟨a, _ | ⟨b, _ | ⟨c, _ | ⟨d, pre⟩⟩⟩⟩
  · simp at e
  · simp at e
  · simp at e; rw [← e.1, ← e.2.1]; decide +kernel
  · simp at e
  · simp at e

/-- **C142 is violated**: whatever happened before, if a thread has a frame for the handler and the program removes the handler before the thread gets the lock of the
interpreter, the process crashes. -/
theorem C142_crash (ops : List PyfOp) (i f : Nat) (h : (pyfRun ops).bad = false) (hi : (pyfRun ops).entered[i]? = some f) :
    (pyfRun (ops ++ [.clear, .enter i])).bad = true := by
  have e : ops ++ [.clear, .enter i] = (ops ++ [PyfOp.clear]) ++ [.enter i] := by simp
  rw [e, aux_yf_run]
  have hg0 : (pyfRun ops).gone = false := by
    by_cases hg : (pyfRun ops).gone = true
    · rw [((aux_yf_runInv ops h).2 hg).2.1] at hi; simp at hi
    · simpa using hg
  obtain ⟨hrec, hfr, hfrd, hrefs⟩ := (aux_yf_runInv ops h).1 hg0
  rw [aux_yf_run]
  have e0 : pyfStep (pyfRun ops) .clear = pyfAct (pyfRun ops) .clear := by simp [pyfStep, h, hg0]
  have e1 := aux_yf_dropHandler _ { pyfRun ops with received := false } hfr (by intro a ha; show (pyfRun ops).hrefs a ≠ 0; rw [(hrefs a).1, if_pos ha]; omega)
  have e2 := aux_yf_dropData (pyfInForce ops none) { pyfRun ops with received := false, hrefs := fun x => (pyfRun ops).hrefs x - (if (pyfInForce ops none).map (·.1) = some x then 1 else 0), fr := none } hfrd
    (by intro a ha; show (pyfRun ops).drefs a ≠ 0; rw [(hrefs a).2, if_pos ha]; omega)
  rw [e0]
  simp only [pyfAct, e1, e2]
  simp [pyfStep, h, hg0, pyfAct, hi, pyfEnter]

example : (pyfRun [.set 1 none, .arrive 10, .task 0]).entered[0]? = some 10 ∧ (pyfRun [.set 1 none, .arrive 10, .task 0]).bad = false := by decide +kernel

/-- C142 does not hold as stated. -/
theorem C142_statement_false : ¬ C142_statement := by
  intro h
  have := (h ([.set 1 none, .arrive 10, .task 0] ++ [.clear, .enter 0])).1
  rw [C142_crash _ 0 10 (by decide +kernel) (by decide +kernel)] at this
  cases this

end Verif.Props
