import Verif.Spec.HashWait
/-! C84: waiting for a change of a hash. -/
namespace Verif.Props
open Verif.Model Verif.Spec

/-- C84, full: the function returns 1 only if the hash was changed since it was called, and a thread that waits when the hash is changed is
woken up. False of the code. -/
def C84_statement : Prop :=
  ∀ acts i, (∀ v n, (HashWait.init.run acts).wpc i = .returned v true n → v < n) ∧ ¬ hashMissed (HashWait.init.run acts) i

theorem aux_hw_left (k : Nat) : HChangePc.left k ≠ .changed := by cases k <;> simp [HChangePc.left]

theorem aux_hw_w (s : HashWait) (i k : Nat) (p : HWaitPc) : (s.setW i p).wpc k = if k = i then p else s.wpc k := rfl
theorem aux_hw_c (s : HashWait) (j k : Nat) (p : HChangePc) : (s.setC j p).cpc k = if k = j then p else s.cpc k := rfl

/-- What a call that began when all was quiet (`v` changes) can rely on. -/
structure aux_hw_inv (i v : Nat) (s : HashWait) : Prop where
  quiet : v < s.version ∨ (v = s.version ∧ s.tokens = 0 ∧ ∀ j, s.cpc j = .out)
  pc : s.wpc i = .entered v ∨ (∃ vc, s.wpc i = .inside v vc) ∨ ∃ b n, s.wpc i = .returned v b n ∧ (b = true → v < n)

theorem aux_hw_step (i v : Nat) (s : HashWait) (a : HWaitAct) (h : aux_hw_inv i v s) (ha : a ≠ .enter i) : aux_hw_inv i v (s.step a) := by
  obtain ⟨h1, h2⟩ := h
  cases a with
  | enter k =>
    have hk : i ≠ k := by intro h; subst h; exact ha rfl
    simp only [HashWait.step]
    cases hw : s.wpc k <;> simp only <;>
      first | exact ⟨h1, h2⟩ | exact ⟨h1, by simp only [aux_hw_w, if_neg hk]; exact h2⟩
  | count k =>
    simp only [HashWait.step]
    cases hw : s.wpc k <;> simp only <;> try exact ⟨h1, h2⟩
    rename_i v'
    by_cases hk : i = k
    · subst hk
      have hv : v' = v := by
        rcases h2 with h | ⟨_, h⟩ | ⟨_, _, h, _⟩ <;> rw [hw] at h <;> simp at h; exact h
      subst hv
      split
      · exact ⟨h1, Or.inr (Or.inl ⟨_, by rw [aux_hw_w, if_pos rfl]⟩)⟩
      · next ht =>
        rcases h1 with h1 | ⟨_, h1, _⟩
        · exact ⟨Or.inl h1, Or.inr (Or.inr ⟨true, _, by rw [aux_hw_w, if_pos rfl], fun _ => h1⟩)⟩
        · exact absurd h1 ht
    · split
      · exact ⟨h1, by simp only [aux_hw_w, if_neg hk]; exact h2⟩
      · refine ⟨?_, by simp only [aux_hw_w, if_neg hk]; exact h2⟩
        rcases h1 with h1 | ⟨h0, h1, h3⟩
        · exact Or.inl h1
        · exact Or.inr ⟨h0, by simp [HashWait.setW, h1], h3⟩
  | take k =>
    simp only [HashWait.step]
    cases hw : s.wpc k <;> simp only <;> try exact ⟨h1, h2⟩
    rename_i v' vc
    split
    · exact ⟨h1, h2⟩
    · next ht =>
      have h1' : v < s.version := by
        rcases h1 with h1 | ⟨_, h1, _⟩
        · exact h1
        · exact absurd h1 ht
      refine ⟨Or.inl h1', ?_⟩
      by_cases hk : i = k
      · subst hk
        have hv : v' = v := by
          rcases h2 with h | ⟨_, h⟩ | ⟨_, _, h, _⟩ <;> rw [hw] at h <;> simp at h; exact h.1
        subst hv
        exact Or.inr (Or.inr ⟨true, _, by rw [aux_hw_w, if_pos rfl], fun _ => h1'⟩)
      · simp only [aux_hw_w, if_neg hk]; exact h2
  | timeout k =>
    simp only [HashWait.step]
    cases hw : s.wpc k <;> simp only <;> try exact ⟨h1, h2⟩
    rename_i v' vc
    split
    · refine ⟨h1, ?_⟩
      by_cases hk : i = k
      · subst hk
        have hv : v' = v := by
          rcases h2 with h | ⟨_, h⟩ | ⟨_, _, h, _⟩ <;> rw [hw] at h <;> simp at h; exact h.1
        subst hv
        exact Or.inr (Or.inr ⟨false, _, by rw [aux_hw_w, if_pos rfl], by simp⟩)
      · simp only [aux_hw_w, if_neg hk]; exact h2
    · exact ⟨h1, h2⟩
  | change j =>
    simp only [HashWait.step]
    cases hw : s.cpc j <;> simp only <;> try exact ⟨h1, h2⟩
    refine ⟨Or.inl ?_, h2⟩
    simp only [HashWait.setC]
    rcases h1 with h1 | ⟨h1, _, _⟩ <;> omega
  | look j =>
    simp only [HashWait.step]
    cases hw : s.cpc j <;> simp only <;> try exact ⟨h1, h2⟩
    have h1' : v < s.version := by
      rcases h1 with h1 | ⟨_, _, h1⟩
      · exact h1
      · rw [h1 j] at hw; simp at hw
    split <;> exact ⟨Or.inl h1', h2⟩
  | push j =>
    simp only [HashWait.step]
    cases hw : s.cpc j with
    | pushing k =>
      have h1' : v < s.version := by
        rcases h1 with h1 | ⟨_, _, h1⟩
        · exact h1
        · rw [h1 j] at hw; simp at hw
      cases k <;> exact ⟨Or.inl h1', h2⟩
    | _ => exact ⟨h1, h2⟩

/-- C84, result: if a thread calls when no token is left and no notification is under way, it gets 1 only if the hash was changed since then.
Missing: calls at other moments (false of the code, `C84_stale`). -/
theorem C84_changed_partial (s : HashWait) (i v n : Nat) (acts : List HWaitAct) (ht : s.tokens = 0) (hq : hashSettled s)
    (hpc : s.wpc i = .out ∨ ∃ a b c, s.wpc i = .returned a b c) (hacts : .enter i ∉ acts)
    (h : ((s.step (.enter i)).run acts).wpc i = .returned v true n) : v = s.version ∧ v < n := by
  have h0 : aux_hw_inv i s.version (s.step (.enter i)) := by
    have : s.step (.enter i) = { s with queue := true }.setW i (.entered s.version) := by
      simp only [HashWait.step]
      rcases hpc with h | ⟨_, _, _, h⟩ <;> rw [h]
    rw [this]
    exact ⟨Or.inr ⟨rfl, ht, hq⟩, Or.inl (by rw [aux_hw_w, if_pos rfl])⟩
  have key : ∀ acts (s' : HashWait) w, .enter i ∉ acts → aux_hw_inv i w s' → aux_hw_inv i w (s'.run acts) := by
    intro acts
    induction acts with
    | nil => intro s' w _ h; exact h
    | cons a as ih =>
      intro s' w hn h
      simp only [List.mem_cons, not_or] at hn
      exact ih _ w hn.2 (aux_hw_step i w s' a h (Ne.symm hn.1))
  have hf := (key acts _ _ hacts h0).pc
  rw [h] at hf
  rcases hf with hf | ⟨_, hf⟩ | ⟨b, m, hf, hb⟩
  · simp at hf
  · simp at hf
  · simp only [HWaitPc.returned.injEq] at hf
    obtain ⟨rfl, rfl, rfl⟩ := hf
    exact ⟨rfl, hb rfl⟩

/-- One thread waits, another makes a change. -/
example : ((HashWait.init.step (.enter 0)).run [.count 0, .change 5, .look 5, .push 5, .take 0]).wpc 0 = .returned 0 true 1 := by decide

/-- With one waiter: it is counted when it is inside, and a change since then is under way to it. -/
structure aux_hw_one (i : Nat) (s : HashWait) : Prop where
  others : ∀ k, k ≠ i → s.wpc k = .out
  queue : s.wpc i ≠ .out → s.queue = true
  ins : ∀ v vc, s.wpc i = .inside v vc → s.waiters = 1 ∧
    (vc < s.version → s.tokens ≠ 0 ∨ ∃ j, s.cpc j = .changed ∨ ∃ k, s.cpc j = .pushing (k + 1))
  noz : (∀ v vc, s.wpc i ≠ .inside v vc) → s.waiters = 0

theorem aux_hw_one_w (i k : Nat) (s t : HashWait) (p : HWaitPc) (hk : k = i) (h : ∀ k, k ≠ i → s.wpc k = .out)
    (hw : t = s.setW k p) (hq : s.queue = true) (hins : ∀ v vc, p = .inside v vc → s.waiters = 1 ∧ vc = s.version)
    (hz : (∀ v vc, p ≠ .inside v vc) → s.waiters = 0) : aux_hw_one i t := by
  subst hw hk
  refine ⟨fun m hm => by rw [aux_hw_w, if_neg hm]; exact h m hm, fun _ => hq, ?_, ?_⟩
  · intro v vc hv
    rw [aux_hw_w, if_pos rfl] at hv
    have := hins v vc hv
    exact ⟨this.1, fun hlt => absurd hlt (by have := this.2; simp only [HashWait.setW]; omega)⟩
  · intro hn; exact hz (by intro v vc hv; exact hn v vc (by rw [aux_hw_w, if_pos rfl, hv]))

theorem aux_hw_one_step (i : Nat) (s : HashWait) (a : HWaitAct) (h : aux_hw_one i s) (ha : ∀ k, a = .enter k → k = i) :
    aux_hw_one i (s.step a) := by
  obtain ⟨h1, hq, h2, h3⟩ := h
  have hi : ∀ k, s.wpc k ≠ .out → k = i := fun k hk => Classical.byContradiction fun hne => hk (h1 k hne)
  cases a with
  | enter k =>
    have hk := ha k rfl
    simp only [HashWait.step]
    cases hw : s.wpc k <;> simp only <;> try exact ⟨h1, hq, h2, h3⟩
    all_goals
      refine aux_hw_one_w i k { s with queue := true } _ _ hk h1 rfl rfl (by simp) fun _ => h3 ?_
      intro v vc; rw [← hk, hw]; simp
  | count k =>
    simp only [HashWait.step]
    cases hw : s.wpc k <;> simp only <;> try exact ⟨h1, hq, h2, h3⟩
    have hk := hi k (by rw [hw]; simp)
    have hz := h3 (by intro v vc; rw [← hk, hw]; simp)
    have hq' := hq (by rw [← hk, hw]; simp)
    split
    · refine aux_hw_one_w i k { s with waiters := s.waiters + 1 } _ _ hk h1 rfl hq' ?_ ?_
      · intro v vc h; simp only [HWaitPc.inside.injEq] at h; simp only; exact ⟨by omega, h.2.symm⟩
      · intro h; exact absurd rfl (h _ _)
    · exact aux_hw_one_w i k { s with tokens := s.tokens - 1 } _ _ hk h1 rfl hq' (by simp) fun _ => hz
  | take k =>
    simp only [HashWait.step]
    cases hw : s.wpc k <;> simp only <;> try exact ⟨h1, hq, h2, h3⟩
    have hk := hi k (by rw [hw]; simp)
    have hq' := hq (by rw [← hk, hw]; simp)
    have hc := (h2 _ _ (by rw [← hk]; exact hw)).1
    split
    · exact ⟨h1, hq, h2, h3⟩
    · exact aux_hw_one_w i k { s with tokens := s.tokens - 1, waiters := s.waiters - 1 } _ _ hk h1 rfl hq' (by simp)
        fun _ => by simp only; omega
  | timeout k =>
    simp only [HashWait.step]
    cases hw : s.wpc k <;> simp only <;> try exact ⟨h1, hq, h2, h3⟩
    have hk := hi k (by rw [hw]; simp)
    have hq' := hq (by rw [← hk, hw]; simp)
    have hc := (h2 _ _ (by rw [← hk]; exact hw)).1
    split
    · exact aux_hw_one_w i k { s with waiters := s.waiters - 1 } _ _ hk h1 rfl hq' (by simp) fun _ => by simp only; omega
    · exact ⟨h1, hq, h2, h3⟩
  | change j =>
    simp only [HashWait.step]
    cases hw : s.cpc j <;> simp only <;> try exact ⟨h1, hq, h2, h3⟩
    refine ⟨h1, hq, fun v vc hv => ⟨(h2 v vc hv).1, fun _ => Or.inr ⟨j, Or.inl ?_⟩⟩, h3⟩
    rw [aux_hw_c, if_pos rfl]
  | look j =>
    simp only [HashWait.step]
    cases hw : s.cpc j <;> simp only <;> try exact ⟨h1, hq, h2, h3⟩
    by_cases hin : ∃ v vc, s.wpc i = .inside v vc
    · obtain ⟨v0, vc0, hin⟩ := hin
      have hq' := hq (by rw [hin]; simp)
      rw [if_pos hq', (h2 _ _ hin).1]
      refine ⟨h1, hq, fun v vc hv => ⟨(h2 v vc hv).1, fun _ => Or.inr ⟨j, Or.inr ⟨0, ?_⟩⟩⟩, h3⟩
      rw [aux_hw_c, if_pos rfl]; rfl
    · have hn : ∀ v vc, s.wpc i ≠ .inside v vc := fun v vc h => hin ⟨v, vc, h⟩
      split <;> exact ⟨h1, hq, fun v vc hv => absurd hv (hn v vc), h3⟩
  | push j =>
    simp only [HashWait.step]
    cases hw : s.cpc j with
    | pushing k =>
      cases k with
      | zero => exact ⟨h1, hq, h2, h3⟩
      | succ k => exact ⟨h1, hq, fun v vc hv => ⟨(h2 v vc hv).1, fun _ => Or.inl (by simp [HashWait.setC])⟩, h3⟩
    | _ => exact ⟨h1, hq, h2, h3⟩

/-- C84, wake-up: if one thread alone waits, in any number of calls, it is not left waiting when the hash was changed after it began to wait.
Missing: several threads that wait (false of the code, `C84_taken`). -/
theorem C84_wakes_partial (acts : List HWaitAct) (i : Nat) (h : onlyWaiter i acts) : ¬ hashMissed (HashWait.init.run acts) i := by
  have key : ∀ acts (s : HashWait), onlyWaiter i acts → aux_hw_one i s → aux_hw_one i (s.run acts) := by
    intro acts
    induction acts with
    | nil => intro s _ h; exact h
    | cons a as ih =>
      intro s hn h
      refine ih _ (fun k hk => hn k (List.mem_cons_of_mem _ hk)) (aux_hw_one_step i s a h ?_)
      intro k hk; exact hn k (by rw [hk]; exact List.mem_cons_self)
  have hf := key acts HashWait.init h ⟨fun _ _ => rfl, by simp [HashWait.init], by simp [HashWait.init], by simp [HashWait.init]⟩
  rintro ⟨v, vc, h1, h2, h3, h4⟩
  rcases (hf.ins v vc h1).2 h2 with h | ⟨j, h | ⟨k, h⟩⟩
  · exact h h3
  · rw [h4 j] at h; simp at h
  · rw [h4 j] at h; simp at h

example : onlyWaiter 0 [.enter 0, .count 0, .change 5, .look 5, .push 5, .take 0, .change 6, .enter 0] := by
  intro k hk; simpa using hk

/-- Violation: two changes before the waiting thread goes on leave a token; its next call returns 1 though nothing was changed. -/
theorem C84_stale :
    (HashWait.init.run [.enter 0, .count 0, .change 5, .look 5, .push 5, .change 5, .look 5, .push 5, .take 0, .enter 0, .count 0]).wpc 0 =
      .returned 2 true 2 := by decide

/-- Violation: a thread that calls after the change takes the token that was for the thread that waits, which is left waiting. -/
theorem C84_taken : hashMissed (HashWait.init.run [.enter 0, .count 0, .change 5, .look 5, .push 5, .enter 1, .count 1]) 0 := by
  refine ⟨0, 0, by decide, by decide, by decide, ?_⟩
  intro j
  simp only [HashWait.run, List.foldl, HashWait.step, HashWait.init, HashWait.setW, HashWait.setC]
  by_cases h : j = 5 <;> simp [h, HChangePc.left]

/-- Violation: a change made after the call, before the thread is counted, is not noticed: it waits for the next one. -/
theorem C84_unnoticed :
    (HashWait.init.run [.enter 0, .change 5, .look 5, .count 0]).wpc 0 = .inside 0 1 ∧
    (HashWait.init.run [.enter 0, .change 5, .look 5, .count 0]).tokens = 0 := by decide

theorem C84_statement_false : ¬ C84_statement := fun h => (h _ 0).2 C84_taken

end Verif.Props
