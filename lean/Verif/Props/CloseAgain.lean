import Verif.Spec.CloseAgain
/-! C87: calls to close channels return. -/
namespace Verif.Props
open Verif.Model Verif.Spec

/-- C87, full: a thread that called to close a channel and waits for another call goes on when no negotiation is under way; closing all
channels of a connection always returns. False of the code. -/
def C87_statement : Prop :=
  (∀ acts i, (CloseAgain.init.run acts).pc i = .waiting → ¬ closeUnderWay (CloseAgain.init.run acts) →
    ∃ r, ((CloseAgain.init.run acts).step (.look i)).pc i = .returned r) ∧
  (∀ also zero others r, closeAllChannels also zero others = some r → closeAllChannels also r.2.1 r.2.2 ≠ none)

structure aux_ca_inv (s : CloseAgain) : Prop where
  req : s.requests = if s.being then 1 else 0
  quiet : s.being = false → ∀ i, s.pc i = .out ∧ s.present = true
  yes : ∀ i, s.pc i = .returned true → s.present = false ∨ s.ok = false

theorem aux_ca_step (s : CloseAgain) (a : CloseAgainAct) (h : aux_ca_inv s) : aux_ca_inv (s.step a) := by
  obtain ⟨h1, h2, h3⟩ := h
  have hnb : ∀ i, s.pc i ≠ .out → s.being = true := fun i hi => by
    cases hb : s.being with
    | true => rfl
    | false => exact absurd (h2 hb i).1 hi
  cases a with
  | call i =>
    simp only [CloseAgain.step]
    split
    · exact ⟨h1, h2, h3⟩
    · split
      · next hb =>
        refine ⟨h1, fun hf => by simp [CloseAgain.set, hb] at hf, ?_⟩
        intro k hk; simp only [CloseAgain.set] at hk ⊢; split at hk
        · simp at hk
        · exact h3 k hk
      · next hb =>
        refine ⟨by simp [CloseAgain.set, h1, hb], fun hf => by simp at hf, ?_⟩
        intro k hk; simp only [CloseAgain.set] at hk ⊢; split at hk
        · simp at hk
        · exact h3 k hk
  | agree i =>
    simp only [CloseAgain.step]
    split
    · next hp =>
      have hb := hnb i (by simp [hp])
      exact ⟨h1, fun hf => by simp [CloseAgain.set, hb] at hf, fun k hk => Or.inl rfl⟩
    · exact ⟨h1, h2, h3⟩
  | broken i =>
    simp only [CloseAgain.step]
    split
    · next hp =>
      have hb := hnb i (by simp [hp.1])
      exact ⟨h1, fun hf => by simp [CloseAgain.set, hb] at hf, fun k hk => Or.inl rfl⟩
    · exact ⟨h1, h2, h3⟩
  | refuse i =>
    simp only [CloseAgain.step]
    split
    · next hp =>
      have hb := hnb i (by simp [hp])
      refine ⟨h1, fun hf => by simp [CloseAgain.set, hb] at hf, ?_⟩
      intro k hk; simp only [CloseAgain.set] at hk ⊢; split at hk
      · simp at hk
      · exact h3 k hk
    · exact ⟨h1, h2, h3⟩
  | look i =>
    simp only [CloseAgain.step]
    split
    · next hp =>
      have hb := hnb i (by simp [hp.1])
      refine ⟨h1, fun hf => by simp [CloseAgain.set, hb] at hf, ?_⟩
      intro k hk; simp only [CloseAgain.set] at hk ⊢
      have := hp.2
      simp only [Bool.and_eq_false_iff] at this
      exact this.symm
    · exact ⟨h1, h2, h3⟩
  | fail => exact ⟨h1, h2, fun _ _ => Or.inr rfl⟩

theorem aux_ca_run (acts : List CloseAgainAct) (s : CloseAgain) (h : aux_ca_inv s) : aux_ca_inv (s.run acts) := by
  induction acts generalizing s with
  | nil => exact h
  | cons a as ih => exact ih _ (aux_ca_step s a h)

theorem aux_ca_init : aux_ca_inv CloseAgain.init := ⟨rfl, fun _ _ => ⟨rfl, rfl⟩, by simp [CloseAgain.init]⟩

/-- C87, requests: however many threads call to close a channel, at most one request is sent. -/
theorem C87_one_request (acts : List CloseAgainAct) : (CloseAgain.init.run acts).requests ≤ 1 := by
  have := (aux_ca_run acts _ aux_ca_init).req
  split at this <;> omega

/-- C87, result: a call that returned true leaves a channel that is gone, or a connection that does not work. -/
theorem C87_true (acts : List CloseAgainAct) (i : Nat) (h : (CloseAgain.init.run acts).pc i = .returned true) :
    (CloseAgain.init.run acts).present = false ∨ (CloseAgain.init.run acts).ok = false :=
  (aux_ca_run acts _ aux_ca_init).yes i h

example : (CloseAgain.init.run [.call 0, .call 1, .agree 0, .look 1]).pc 1 = .returned true := by decide

theorem aux_ca_set (s : CloseAgain) (i k : Nat) (p : CloseAgainPc) : (s.set i p).pc k = if k = i then p else s.pc k := rfl

/-- C87, end: once the peer agreed, or the connection is down, a thread that waits returns true whenever it looks next, whatever happens before
that. Missing: refusals (false of the code, `C87_blocked`). -/
theorem C87_returns_partial (s : CloseAgain) (i : Nat) (acts : List CloseAgainAct) (hw : s.pc i = .waiting)
    (h : s.present = false ∨ s.ok = false) (hl : .look i ∉ acts) : ((s.run acts).step (.look i)).pc i = .returned true := by
  have H : ∀ (acts : List CloseAgainAct) (s : CloseAgain), s.pc i = .waiting → (s.present = false ∨ s.ok = false) → .look i ∉ acts →
      (s.run acts).pc i = .waiting ∧ ((s.run acts).present = false ∨ (s.run acts).ok = false) := by
    intro acts
    induction acts with
    | nil => intro s hw h _; exact ⟨hw, h⟩
    | cons a as ih =>
      intro s hw h hl
      simp only [List.mem_cons, not_or] at hl
      refine ih (s.step a) ?_ ?_ hl.2
      · cases a <;> simp only [CloseAgain.step] <;> (repeat' split) <;> (try simp only [aux_ca_set]) <;> grind
      · cases a <;> simp only [CloseAgain.step, CloseAgain.set] <;> (repeat' split) <;> simp_all
  obtain ⟨h1, h2⟩ := H acts s hw h hl
  have : ((s.run acts).ok && (s.run acts).present) = false := by rcases h2 with h2 | h2 <;> simp [h2]
  simp [CloseAgain.step, h1, this, CloseAgain.set]

example : (CloseAgain.init.run [.call 0, .call 1, .agree 0]).pc 1 = .waiting ∧ (CloseAgain.init.run [.call 0, .call 1, .agree 0]).present = false := by
  decide

/-- Violation: after a refusal every further call to close the channel waits for ever, unless the connection fails: whatever other calls do, in
every history in which it does not fail. -/
theorem C87_blocked (acts : List CloseAgainAct) (h : .fail ∉ acts) :
    (CloseAgain.init.run ([.call 0, .refuse 0, .call 1] ++ acts)).pc 1 = .waiting ∧
    ¬ closeUnderWay (CloseAgain.init.run ([.call 0, .refuse 0, .call 1] ++ acts)) := by
  have H : ∀ (acts : List CloseAgainAct) (s : CloseAgain), s.pc 1 = .waiting → s.being = true → s.present = true → s.ok = true →
      (∀ i, s.pc i ≠ .asking) → .fail ∉ acts → (s.run acts).pc 1 = .waiting ∧ ∀ i, (s.run acts).pc i ≠ .asking := by
    intro acts
    induction acts with
    | nil => intro s h1 _ _ _ h5 _; exact ⟨h1, h5⟩
    | cons a as ih =>
      intro s h1 h2 h3 h4 h5 hf
      simp only [List.mem_cons, not_or] at hf
      have key : (s.step a).pc 1 = .waiting ∧ (s.step a).being = true ∧ (s.step a).present = true ∧ (s.step a).ok = true ∧
          ∀ i, (s.step a).pc i ≠ .asking := by
        cases a with
        | fail => exact absurd rfl hf.1
        | call i =>
          simp only [CloseAgain.step, h2, if_true]
          split
          · exact ⟨h1, h2, h3, h4, h5⟩
          · refine ⟨?_, h2, h3, h4, ?_⟩
            · rw [aux_ca_set]; split <;> simp [h1]
            · intro k; rw [aux_ca_set]; split
              · simp
              · exact h5 k
        | agree i => simp only [CloseAgain.step, h5 i, if_false]; exact ⟨h1, h2, h3, h4, h5⟩
        | refuse i => simp only [CloseAgain.step, h5 i, if_false]; exact ⟨h1, h2, h3, h4, h5⟩
        | broken i => simp only [CloseAgain.step, h5 i, false_and, if_false]; exact ⟨h1, h2, h3, h4, h5⟩
        | look i => simp only [CloseAgain.step, h3, h4]; simpa using ⟨h1, h2, h3, h4, h5⟩
      exact ih _ key.1 key.2.1 key.2.2.1 key.2.2.2.1 key.2.2.2.2 hf.2
  have := H acts (CloseAgain.init.run [.call 0, .refuse 0, .call 1]) (by decide) (by decide) (by decide) (by decide)
    (by intro i; simp [CloseAgain.run, CloseAgain.step, CloseAgain.init, CloseAgain.set]; grind) h
  rw [show CloseAgain.init.run ([.call 0, .refuse 0, .call 1] ++ acts) = (CloseAgain.init.run [.call 0, .refuse 0, .call 1]).run acts by
    simp [CloseAgain.run, List.foldl_append]]
  exact ⟨this.1, fun ⟨i, hi⟩ => this.2 i hi⟩

example : .fail ∉ ([.call 2, .look 1, .look 2, .call 0] : List CloseAgainAct) := by decide

theorem aux_ca_each (cs : List ToClose) (h : ∀ c ∈ cs, c.being = false) :
    closeEach cs = some ((cs.filter fun c => !c.agrees).map afterRefusal) := by
  induction cs with
  | nil => rfl
  | cons c cs ih =>
    have hc := h c (by simp)
    simp only [closeEach, ToClose.close, hc, Bool.false_eq_true, if_false]
    rw [ih fun d hd => h d (by simp [hd])]
    cases ha : c.agrees <;> simp [ha, afterRefusal]

/-- C87, all channels: if the peer was not asked before to close any of the channels of a connection, the call returns; it returns true exactly
if the peer agrees for all of them, with channel 0 among them if asked for; exactly those it agrees for are gone, and channel 0 is not touched
while another channel is left. Missing: channels for which a close was refused before (false of the code, `C87_all_again`). -/
theorem C87_all_partial (also : Bool) (zero : ToClose) (others : List ToClose) (hz : zero.being = false) (h : ∀ c ∈ others, c.being = false) :
    ∃ res zero', closeAllChannels also (some zero) others = some (res, zero', (others.filter fun c => !c.agrees).map afterRefusal) ∧
      (res = true ↔ (∀ c ∈ others, c.agrees = true) ∧ (also = true → zero.agrees = true)) ∧
      ((∃ c ∈ others, c.agrees = false) ∨ also = false → zero' = some zero) ∧
      (zero' = none ↔ (∀ c ∈ others, c.agrees = true) ∧ also = true ∧ zero.agrees = true) := by
  have hz0 : closeZero also (some zero) =
      if also then some (zero.agrees, if zero.agrees then none else some (afterRefusal zero)) else some (true, some zero) := by
    cases also <;> cases ha : zero.agrees <;> simp [closeZero, ToClose.close, hz, ha, afterRefusal]
  have hall : (others.filter fun c => !c.agrees) = [] ↔ ∀ c ∈ others, c.agrees = true := by
    rw [List.filter_eq_nil_iff]; simp
  unfold closeAllChannels
  rw [aux_ca_each others h, hz0]
  by_cases hnil : (others.filter fun c => !c.agrees) = []
  · have hag := hall.1 hnil
    have hno : ¬ ∃ c ∈ others, c.agrees = false := by rintro ⟨c, hc, hf⟩; rw [hag c hc] at hf; simp at hf
    cases others with
    | nil => cases also <;> cases ha : zero.agrees <;> simp
    | cons o os =>
      have hno : ¬ ∃ c ∈ o :: os, c.agrees = false := hno
      rw [hnil]
      cases also <;> cases ha : zero.agrees <;> simp [-List.mem_cons] <;> grind
  · have hno : ∃ c ∈ others, c.agrees = false := by
      obtain ⟨c, hc⟩ := List.exists_mem_of_ne_nil _ hnil
      rw [List.mem_filter] at hc
      exact ⟨c, hc.1, by simpa using hc.2⟩
    have hne : ¬ ∀ c ∈ others, c.agrees = true := fun hag => hnil (hall.2 hag)
    have hlen : 0 < (others.filter fun c => !c.agrees).length := List.length_pos_iff.2 hnil
    have hlen2 : 0 < others.length := Nat.lt_of_lt_of_le hlen (List.length_filter_le _ _)
    refine ⟨false, some zero, ?_, by simp [hne], fun _ => rfl, by simp [hne]⟩
    simp only [Option.toList_some, List.length_cons, List.length_nil, List.length_map]
    rw [if_neg (by omega), if_neg (by omega), if_pos (by omega)]

example : closeAllChannels true (some ⟨0, false, true⟩) [⟨1, false, true⟩, ⟨3, false, false⟩, ⟨5, false, true⟩] =
    some (false, some ⟨0, false, true⟩, [⟨3, true, false⟩]) := by decide

/-- Violation: when a call returned false because the peer did not agree for one of the channels, the next call does not return, for every
connection and whatever the peer would answer now. -/
theorem C87_all_again (also : Bool) (zero : ToClose) (others : List ToClose) (hz : zero.being = false) (h : ∀ c ∈ others, c.being = false)
    (hr : ∃ c ∈ others, c.agrees = false) :
    ∃ r, closeAllChannels also (some zero) others = some r ∧ r.1 = false ∧
      ∀ others', others'.map (·.num) = r.2.2.map (·.num) → (∀ c ∈ others', c.being = true) → closeAllChannels also r.2.1 others' = none := by
  obtain ⟨res, z, h1, h2, h3, h4⟩ := C87_all_partial also zero others hz h
  have hz' := h3 (Or.inl hr)
  subst hz'
  refine ⟨_, h1, ?_, ?_⟩
  · cases hres : res with
    | false => rfl
    | true =>
      obtain ⟨c, hc, hf⟩ := hr
      rw [(h2.1 hres).1 c hc] at hf; simp at hf
  · intro os hm hb
    have hlen : os.length = ((others.filter fun c => !c.agrees).map afterRefusal).length := by
      have := congrArg List.length hm; simpa using this
    have hne : os ≠ [] := by
      rintro rfl
      obtain ⟨c, hc, hf⟩ := hr
      have : c ∈ others.filter fun c => !c.agrees := List.mem_filter.2 ⟨hc, by simp [hf]⟩
      simp only [List.length_nil, List.length_map] at hlen
      rw [List.eq_nil_of_length_eq_zero hlen.symm] at this; simp at this
    cases os with
    | nil => exact absurd rfl hne
    | cons o os => simp [closeAllChannels, closeEach, ToClose.close, hb o (by simp)]

theorem C87_statement_false : ¬ C87_statement := by
  intro h
  obtain ⟨h1, h2⟩ := C87_blocked [] (by simp)
  obtain ⟨r, hr⟩ := h.1 _ 1 h1 h2
  have h3 := (C87_blocked [.look 1] (by simp)).1
  have h4 : ((CloseAgain.init.run ([.call 0, .refuse 0, .call 1] ++ [])).step (.look 1)).pc 1 = .waiting := h3
  rw [h4] at hr; simp at hr

end Verif.Props
