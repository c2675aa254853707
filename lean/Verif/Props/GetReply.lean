import Verif.Spec.GetReply
/-! C81: taking the replies of a channel from a queue. -/
namespace Verif.Props
open Verif.Model Verif.Spec

/-- C81, full: no released queue is used; a call returns NULL before the time is over only if the connection is down and no frame
is in the queue; and when all close handlers were called, a call that waits is not left to the end of its time. False of the code. -/
def C81_statement : Prop :=
  (∀ acts, GetReply.init.run acts ≠ none) ∧
  (∀ s r a, reachedGet s → s.step a = some r → r.results = s.results ++ [.null false] → s.connOk = false ∧ framesIn s.items = []) ∧
  (∀ s, reachedGet s → s.pc = .waiting → s.over = true → s.items ≠ [] ∨ s.marks ≠ 0)

theorem aux_gr_run_append (s : GetReply) (as bs : List GetAct) :
    s.run (as ++ bs) = (s.run as).bind fun r => r.run bs := by
  induction as generalizing s with
  | nil => rfl
  | cons a as ih =>
    simp only [List.cons_append, GetReply.run]
    cases s.step a with
    | none => rfl
    | some r => exact ih r

/-- An invariant kept by every step holds in every state reached. -/
theorem aux_gr_reach (P : GetReply → Prop) (h0 : P GetReply.init) (hs : ∀ s a r, P s → s.step a = some r → P r) (s : GetReply)
    (h : reachedGet s) : P s := by
  obtain ⟨acts, h⟩ := h
  suffices ∀ acts (s r : GetReply), P s → s.run acts = some r → P r from this acts _ _ h0 h
  intro acts
  induction acts with
  | nil => intro s r hp hr; simp only [GetReply.run, Option.some.injEq] at hr; exact hr ▸ hp
  | cons a as ih =>
    intro s r hp hr
    simp only [GetReply.run] at hr
    cases ha : s.step a with
    | none => rw [ha] at hr; simp at hr
    | some q => rw [ha] at hr; exact ih q r (hs s a q hp ha) hr

/-- All that is used of a state reached. -/
structure aux_gr_inv (s : GetReply) : Prop where
  order : framesGot s.results ++ frameHeld s.pc ++ framesIn s.items = s.delivered
  down : (.mark ∈ s.items ∨ s.marks ≠ 0 ∨ s.pc = .popped (some .mark) ∨ s.over = true) → s.connOk = false
  wakes : s.pc = .waiting → s.handler = true ∨ s.marks ≠ 0 ∨ s.items ≠ []
  popped : s.alive = false → s.pc = .idle
  handler : s.handler = true → s.pc = .waiting ∨ ∃ r, s.pc = .popped r

theorem aux_gr_step (s : GetReply) (a : GetAct) (r : GetReply) (h : aux_gr_inv s) (hs : s.step a = some r) : aux_gr_inv r := by
  obtain ⟨h1, h2, h3, h4, h5⟩ := h
  cases a with
  | piggyback x =>
    simp only [GetReply.step, Option.some.injEq] at hs; subst hs; exact ⟨h1, h2, h3, h4, h5⟩
  | deliver x =>
    simp only [GetReply.step] at hs
    split at hs <;> simp only [Option.some.injEq] at hs <;> subst hs
    · refine ⟨?_, ?_, ?_, h4, h5⟩
      · simp only [framesIn, List.filterMap_append, List.filterMap_cons, List.filterMap_nil] at h1 ⊢
        rw [← h1]; simp
      · simpa using h2
      · intro _; right; right; simp
    · exact ⟨h1, h2, h3, h4, h5⟩
  | fail =>
    simp only [GetReply.step, Option.some.injEq] at hs; subst hs
    exact ⟨h1, fun _ => rfl, h3, h4, h5⟩
  | takeHandler =>
    simp only [GetReply.step] at hs
    split at hs
    · simp only [Option.some.injEq] at hs; subst hs; exact ⟨h1, h2, h3, h4, h5⟩
    · next hc =>
      have hc' : s.connOk = false := by revert hc; cases s.connOk <;> simp
      split at hs <;> simp only [Option.some.injEq] at hs <;> subst hs
      · exact ⟨h1, fun _ => hc', fun _ => Or.inr (Or.inl (by simp)), h4, by simp⟩
      · exact ⟨h1, fun _ => hc', h3, h4, h5⟩
  | mark =>
    simp only [GetReply.step] at hs
    split at hs
    · simp only [Option.some.injEq] at hs; subst hs; exact ⟨h1, h2, h3, h4, h5⟩
    · next hm =>
      split at hs
      · simp only [Option.some.injEq] at hs; subst hs
        refine ⟨?_, fun _ => h2 (Or.inr (Or.inl hm)), fun _ => Or.inr (Or.inr (by simp)), h4, h5⟩
        simp only [framesIn, List.filterMap_append, List.filterMap_cons, List.filterMap_nil] at h1 ⊢
        rw [← h1]; simp
      · simp at hs
  | call =>
    simp only [GetReply.step] at hs
    split at hs
    · next hp =>
      cases hg : s.piggy with
      | some x =>
        rw [hg] at hs; simp only [Option.some.injEq] at hs; subst hs
        refine ⟨?_, h2, h3, h4, h5⟩
        simp only [framesGot, List.filterMap_append, List.filterMap_cons, List.filterMap_nil, List.append_nil] at h1 ⊢
        exact h1
      | none =>
        rw [hg] at hs; simp only at hs
        split at hs <;> simp only [Option.some.injEq] at hs <;> subst hs
        · refine ⟨?_, h2, h3, h4, h5⟩
          simp only [framesGot, List.filterMap_append, List.filterMap_cons, List.filterMap_nil, List.append_nil] at h1 ⊢
          exact h1
        · refine ⟨?_, ?_, by simp, ?_, ?_⟩
          · rw [hp.1] at h1; exact h1
          · rw [hp.1] at h2; simpa using h2
          · intro h; simp [hp.2] at h
          · intro h; simp only at h; rcases h5 h with h | ⟨q, h⟩ <;> rw [hp.1] at h <;> simp at h
    · simp only [Option.some.injEq] at hs; subst hs; exact ⟨h1, h2, h3, h4, h5⟩
  | install =>
    simp only [GetReply.step] at hs
    split at hs <;> simp only [Option.some.injEq] at hs <;> subst hs
    · next hp =>
      refine ⟨?_, ?_, fun _ => Or.inl rfl, ?_, fun _ => Or.inl rfl⟩
      · rw [hp] at h1; exact h1
      · rw [hp] at h2; simpa using h2
      · intro h; have := h4 h; rw [hp] at this; simp at this
    · exact ⟨h1, h2, h3, h4, h5⟩
  | pop =>
    simp only [GetReply.step] at hs
    split at hs
    · next hp =>
      cases hi : s.items with
      | nil => rw [hi] at hs; simp only [Option.some.injEq] at hs; subst hs; exact ⟨h1, h2, h3, h4, h5⟩
      | cons i rest =>
        rw [hi] at hs; simp only [Option.some.injEq] at hs; subst hs
        refine ⟨?_, ?_, by simp, ?_, fun _ => Or.inr ⟨_, rfl⟩⟩
        · rw [hi, hp] at h1; rw [← h1]; cases i <;> simp [frameHeld, framesIn]
        · rintro (h | h | h | h)
          · exact h2 (Or.inl (by rw [hi]; exact List.mem_cons_of_mem _ h))
          · exact h2 (Or.inr (Or.inl h))
          · simp only [GetPc.popped.injEq, Option.some.injEq] at h; exact h2 (Or.inl (by rw [hi, h]; exact List.mem_cons_self))
          · exact h2 (Or.inr (Or.inr (Or.inr h)))
        · intro h; have := h4 h; rw [hp] at this; simp at this
    · simp only [Option.some.injEq] at hs; subst hs; exact ⟨h1, h2, h3, h4, h5⟩
  | timeout =>
    simp only [GetReply.step] at hs
    split at hs <;> simp only [Option.some.injEq] at hs <;> subst hs
    · next hp =>
      refine ⟨?_, ?_, by simp, ?_, fun _ => Or.inr ⟨_, rfl⟩⟩
      · rw [hp.1] at h1; exact h1
      · rw [hp.1] at h2; simpa using h2
      · intro h; have := h4 h; rw [hp.1] at this; simp at this
    · exact ⟨h1, h2, h3, h4, h5⟩
  | finish =>
    simp only [GetReply.step] at hs
    cases hp : s.pc <;> rw [hp] at hs <;> simp only [Option.some.injEq] at hs <;> subst hs
    case popped q =>
      refine ⟨?_, ?_, by simp, by simp, by simp⟩
      · rw [hp] at h1; rw [← h1]
        simp only [framesGot, List.filterMap_append]
        rcases q with _ | (x | _) <;> simp [frameHeld, GetReply.result]
      · rintro (h | h | h | h)
        · exact h2 (Or.inl h)
        · exact h2 (Or.inr (Or.inl h))
        · simp at h
        · exact h2 (Or.inr (Or.inr (Or.inr h)))
    all_goals exact ⟨h1, h2, h3, h4, h5⟩
  | release =>
    simp only [GetReply.step] at hs
    split at hs <;> simp only [Option.some.injEq] at hs <;> subst hs
    · next hp => exact ⟨h1, h2, h3, fun _ => hp, h5⟩
    · exact ⟨h1, h2, h3, h4, h5⟩

theorem aux_gr_inv_of (s : GetReply) (h : reachedGet s) : aux_gr_inv s :=
  aux_gr_reach aux_gr_inv
    ⟨rfl, by simp [GetReply.init], by simp [GetReply.init], by simp [GetReply.init], by simp [GetReply.init]⟩ aux_gr_step s h

/-- C81, frames: in every state reached, the frames that calls returned, then one a call is about to return, then those in the queue are
the frames delivered, in order: none is lost, repeated or overtaken. -/
theorem C81_order (s : GetReply) (h : reachedGet s) :
    framesGot s.results ++ frameHeld s.pc ++ framesIn s.items = s.delivered := (aux_gr_inv_of s h).order

/-- Two frames, one of them behind the mark, and a piggyback. -/
example : ∃ s, GetReply.init.run [.piggyback 7, .deliver 1, .call, .call, .install, .pop, .finish, .deliver 2, .call] = some s ∧
    s.results = [.piggyback 7, .frame 1] ∧ s.items = [.frame 2] := ⟨_, rfl, rfl, rfl⟩

/-- C81, piggyback: if there is one, a call returns it at once, and only once. -/
theorem C81_piggyback (s : GetReply) (x : Nat) (hp : s.piggy = some x) (hi : s.pc = .idle) (ha : s.alive = true) :
    ∃ r, s.step .call = some r ∧ r.results = s.results ++ [.piggyback x] ∧ r.piggy = none ∧ r.pc = .idle ∧ r.items = s.items := by
  exact ⟨{ s with piggy := none, results := s.results ++ [.piggyback x] }, by simp [GetReply.step, hi, ha, hp], rfl, rfl, hi, rfl⟩

example : ∃ s, GetReply.init.run [.piggyback 7] = some s ∧ s.piggy = some 7 ∧ s.pc = .idle ∧ s.alive = true := ⟨_, rfl, rfl, rfl, rfl⟩

/-- C81, NULL: a call returns NULL before the time is over only if the connection is down. Missing: that no frame is in the queue
(false of the code, `C81_null_with_frame`). -/
theorem C81_null_partial (s r : GetReply) (a : GetAct) (h : reachedGet s) (hs : s.step a = some r)
    (hr : r.results = s.results ++ [.null false]) : s.connOk = false := by
  have hi := aux_gr_inv_of s h
  have hne : ∀ (l : List GetRes) x, l = l ++ [x] → False := by
    intro l x h; have := congrArg List.length h; simp at this
  cases a with
  | call =>
    simp only [GetReply.step] at hs
    split at hs
    · cases hg : s.piggy with
      | some x =>
        rw [hg] at hs; simp only [Option.some.injEq] at hs; subst hs
        simp at hr
      | none =>
        rw [hg] at hs; simp only at hs
        split at hs <;> simp only [Option.some.injEq] at hs <;> subst hs
        · next hc => exact hc.1
        · exact absurd hr (fun h => hne _ _ h)
    · simp only [Option.some.injEq] at hs; subst hs; exact absurd hr (fun h => hne _ _ h)
  | finish =>
    simp only [GetReply.step] at hs
    cases hp : s.pc <;> rw [hp] at hs <;> simp only [Option.some.injEq] at hs <;> subst hs
    case popped q =>
      simp only [List.append_cancel_left_eq, List.cons.injEq, and_true] at hr
      rcases q with _ | (x | _)
      · simp [GetReply.result] at hr
      · simp [GetReply.result] at hr
      · exact hi.down (Or.inr (Or.inr (Or.inl hp)))
    all_goals exact absurd hr (fun h => hne _ _ h)
  | piggyback x => simp only [GetReply.step, Option.some.injEq] at hs; subst hs; exact absurd hr (fun h => hne _ _ h)
  | fail => simp only [GetReply.step, Option.some.injEq] at hs; subst hs; exact absurd hr (fun h => hne _ _ h)
  | pop =>
    simp only [GetReply.step] at hs
    split at hs
    · cases hi : s.items <;> rw [hi] at hs <;> simp only [Option.some.injEq] at hs <;> subst hs <;> exact absurd hr (fun h => hne _ _ h)
    · simp only [Option.some.injEq] at hs; subst hs; exact absurd hr (fun h => hne _ _ h)
  | takeHandler =>
    simp only [GetReply.step] at hs
    split at hs
    · simp only [Option.some.injEq] at hs; subst hs; exact absurd hr (fun h => hne _ _ h)
    · split at hs <;> simp only [Option.some.injEq] at hs <;> subst hs <;> exact absurd hr (fun h => hne _ _ h)
  | mark =>
    simp only [GetReply.step] at hs
    split at hs
    · simp only [Option.some.injEq] at hs; subst hs; exact absurd hr (fun h => hne _ _ h)
    · split at hs
      · simp only [Option.some.injEq] at hs; subst hs; exact absurd hr (fun h => hne _ _ h)
      · simp at hs
  | _ =>
    simp only [GetReply.step] at hs
    split at hs <;> simp only [Option.some.injEq] at hs <;> subst hs <;> exact absurd hr (fun h => hne _ _ h)

/-- The connection fails while a call waits. -/
example : ∃ s r, GetReply.init.run [.call, .install, .fail, .takeHandler, .mark, .pop] = some s ∧ s.step .finish = some r ∧
    r.results = s.results ++ [.null false] := ⟨_, _, rfl, rfl, rfl⟩

/-- C81, no call is left alone: a call that waits has its handler in the connection, or a thread that is going to push the mark, or an item
in the queue. So if the handler was taken from the list, the wait ends without the time being over. Missing: handlers installed after
they were all taken (false of the code, `C81_late`). -/
theorem C81_wakes_partial (s : GetReply) (h : reachedGet s) (hw : s.pc = .waiting) (hh : s.handler = false) :
    s.items ≠ [] ∨ s.marks ≠ 0 := by
  rcases (aux_gr_inv_of s h).wakes hw with h | h | h
  · rw [h] at hh; simp at hh
  · exact Or.inr h
  · exact Or.inl h

example : ∃ s, GetReply.init.run [.call, .install, .fail, .takeHandler] = some s ∧ s.pc = .waiting ∧ s.handler = false :=
  ⟨_, rfl, rfl, rfl⟩

/-- C81, memory: if the queue is released only when no thread is about to call the close handler with it, no released queue is used.
Missing: nothing tells the user when that is (`C81_released`). -/
theorem C81_safe_partial (acts : List GetAct) (hp : politeRelease GetReply.init acts) : GetReply.init.run acts ≠ none := by
  suffices ∀ acts (s : GetReply), (s.alive = false → s.marks = 0 ∧ s.handler = false) → aux_gr_inv s → politeRelease s acts →
      s.run acts ≠ none from
    this acts _ (by simp [GetReply.init]) (aux_gr_inv_of _ ⟨[], rfl⟩) hp
  intro acts
  induction acts with
  | nil => intro s _ _ _; simp [GetReply.run]
  | cons a as ih =>
    intro s h1 hi ⟨h2, h3⟩
    have hnn : s.step a ≠ none := by
      cases a <;> simp only [GetReply.step] <;> grind
    cases hs : s.step a with
    | none => exact absurd hs hnn
    | some r =>
      simp only [GetReply.run, hs]
      refine ih r ?_ (aux_gr_step s a r hi hs) (h3 r hs)
      have h4 := hi.popped
      have h5 := hi.handler
      cases a <;> simp only [GetReply.step] at hs <;> grind

/-- A connection that fails; the queue is released after the mark. -/
example : politeRelease GetReply.init [.deliver 1, .call, .install, .pop, .fail, .takeHandler, .finish, .mark, .release] := by
  simp [politeRelease, GetReply.step, GetReply.init]

/-- Violation: the connection fails while a frame is returned; the thread of the close handler pushes the mark into the queue that the user
released after the call. -/
theorem C81_released : GetReply.init.run [.deliver 1, .call, .install, .pop, .fail, .takeHandler, .finish, .release, .mark] = none := by
  decide +kernel

/-- Violation: a frame delivered just after the mark is in the queue when the call returns NULL for the mark. -/
theorem C81_null_with_frame :
    ∃ s r, GetReply.init.run [.call, .install, .fail, .takeHandler, .mark, .deliver 1, .pop] = some s ∧ s.step .finish = some r ∧
      r.results = s.results ++ [.null false] ∧ framesIn s.items = [1] := ⟨_, _, rfl, rfl, rfl, rfl⟩

/-- Violation: the connection fails between the look at it and the installation of the handler: the call waits to the end of its time. -/
theorem C81_late :
    ∃ s, GetReply.init.run [.call, .fail, .takeHandler, .install] = some s ∧ s.pc = .waiting ∧ s.over = true ∧ s.items = [] ∧
      s.marks = 0 := ⟨_, rfl, rfl, rfl, rfl, rfl⟩

theorem C81_statement_false : ¬ C81_statement := fun h => h.1 _ C81_released

end Verif.Props
