import Verif.Spec.ConnClose
/-! C85: closing a connection. -/
namespace Verif.Props
open Verif.Model Verif.Spec

/-- C85, full: for a connection of any kind, whatever happens during the calls, no released connection is used; the calls give back one
reference for a connection that was created by the user, when one of them closed it, and none for others; and when a call tells that the
connection is closed it is not working any more. False of the code. -/
def C85_statement : Prop :=
  ∀ role engine acts, 0 < engine → closeCallsOk (ConnClose.init role engine) acts →
    ∃ s, (ConnClose.init role engine).run acts = some s ∧
      s.gaveBack = (if role = .initiator then closings s else 0) ∧
      (.closed ∈ s.results ∨ .told ∈ s.results → s.ok = false)

/-- The reference taken by the call that goes on. -/
def aux_cc_held : ClosePc → Nat
  | .held | .emptied | .shut | .counted _ => 1
  | _ => 0

structure aux_cc_inv (s : ConnClose) : Prop where
  role : s.role = .initiator
  refs : s.refs + s.gaveBack = s.engine + 1 + aux_cc_held s.pc
  le : s.gaveBack ≤ 1
  back : s.gaveBack = closings s
  flag : s.pc ≠ .idle → s.flag = true ∧ s.gaveBack = 0
  done : s.gaveBack = 1 → s.flag = true
  counted : ∀ n, s.pc = .counted n ∨ s.pc = .released n → s.ok = false ∧ n ≠ 1
  shut : (s.pc = .shut ∨ s.pc = .wasDown) → s.ok = false
  closed : .closed ∈ s.results → s.ok = false

theorem aux_cc_step (s : ConnClose) (a : CloseAct) (h : aux_cc_inv s) (ha : a = .call → s.gaveBack = 0) :
    ∃ r, s.step a = some r ∧ aux_cc_inv r := by
  obtain ⟨h1, h2, h3, h4, h5, h6, h7, h8, h9⟩ := h
  cases a with
  | call =>
    have h0 := ha rfl
    have hr : s.refs ≠ 0 := by omega
    simp only [ConnClose.step, if_neg hr]
    split
    · exact ⟨_, rfl, h1, h2, h3, by simpa [closings] using h4, h5, h6, h7, h8, by simpa using h9⟩
    · next hf =>
      have hi : s.pc = .idle := Classical.byContradiction fun hne => hf (h5 hne).1
      rw [hi] at h2
      refine ⟨_, rfl, h1, h2, h3, h4, fun _ => ⟨rfl, h0⟩, fun _ => rfl, by simp, by simp, h9⟩
  | fail => exact ⟨_, rfl, h1, h2, h3, h4, h5, h6, fun n hn => ⟨rfl, (h7 n hn).2⟩, fun _ => rfl, fun _ => rfl⟩
  | drop =>
    simp only [ConnClose.step]
    split
    · exact ⟨_, rfl, h1, h2, h3, h4, h5, h6, h7, h8, h9⟩
    · next he =>
      simp only [not_or] at he
      have hr : s.refs ≠ 0 := by omega
      rw [if_neg hr]
      refine ⟨_, rfl, h1, ?_, h3, h4, h5, h6, h7, h8, h9⟩
      simp only; omega
  | go b =>
    simp only [ConnClose.step]
    rw [if_neg (fun h => (h7 1 (Or.inr h)).2 rfl)]
    split
    · exact ⟨_, rfl, h1, h2, h3, h4, h5, h6, h7, h8, h9⟩
    · next hi =>
      obtain ⟨hfl, hg⟩ := h5 hi
      have hr : s.refs ≠ 0 := by omega
      rw [if_neg hr]
      refine ⟨_, rfl, ?_⟩
      have hback : ∀ (hh : aux_cc_held s.pc = 0) (hok : s.ok = false), aux_cc_inv s.giveBack := by
        intro hh hok
        refine ⟨h1, ?_, ?_, ?_, by simp [ConnClose.giveBack], fun _ => hfl, by simp [ConnClose.giveBack], by simp [ConnClose.giveBack],
          fun _ => hok⟩
        · simp only [ConnClose.giveBack, aux_cc_held]; omega
        · simp only [ConnClose.giveBack]; omega
        · simp only [ConnClose.giveBack, closings, List.count_append] at h4 ⊢; simp [h4]
      unfold ConnClose.next
      cases hp : s.pc with
      | idle => exact absurd hp hi
      | flagged =>
        simp only
        refine ⟨h1, ?_, h3, h4, fun _ => ⟨hfl, hg⟩, h6, ?_, ?_, h9⟩
        · rw [hp] at h2; simp only; split <;> exact h2
        · intro n hn; simp only at hn; split at hn <;> simp at hn
        · intro hn; simp only at hn ⊢; cases hk : s.ok <;> simp [hk] at hn ⊢
      | wasOk =>
        simp only
        split
        · refine ⟨h1, ?_, h3, h4, fun _ => ⟨hfl, hg⟩, h6, by simp, by simp, h9⟩
          rw [hp] at h2; simp only [aux_cc_held] at h2 ⊢; omega
        · next hk => exact hback (by rw [hp]; rfl) (by simpa using hk)
      | wasDown =>
        simp only [h1]
        exact hback (by rw [hp]; rfl) (h8 (Or.inr hp))
      | held =>
        simp only
        rw [hp] at h2; simp only [aux_cc_held] at h2
        split
        · exact ⟨h1, h2, h3, h4, fun _ => ⟨hfl, hg⟩, h6, by simp, by simp, h9⟩
        · refine ⟨h1, ?_, h3, h4, fun _ => ⟨hfl, hg⟩, h6, by simp, by simp, h9⟩
          simp only [aux_cc_held]; omega
      | undoing =>
        simp only
        rw [hp] at h2
        refine ⟨h1, h2, h3, by simpa [closings] using h4, by simp, ?_, by simp, by simp, by simpa using h9⟩
        intro h; simp only at h; omega
      | emptied =>
        simp only
        rw [hp] at h2
        exact ⟨h1, h2, h3, h4, fun _ => ⟨hfl, hg⟩, h6, by simp, fun _ => rfl, fun _ => rfl⟩
      | shut =>
        simp only
        have hok := h8 (Or.inl hp)
        rw [hp] at h2; simp only [aux_cc_held] at h2
        refine ⟨h1, h2, h3, h4, fun _ => ⟨hfl, hg⟩, h6, ?_, by simp, h9⟩
        intro n hn; simp only [ClosePc.counted.injEq, reduceCtorEq, or_false] at hn
        exact ⟨hok, by omega⟩
      | counted n =>
        simp only
        have hn := h7 n (Or.inl hp)
        rw [hp] at h2; simp only [aux_cc_held] at h2
        refine ⟨h1, ?_, h3, h4, fun _ => ⟨hfl, hg⟩, h6, ?_, by simp, h9⟩
        · simp only [aux_cc_held]; omega
        · intro m hm; simp only [reduceCtorEq, ClosePc.released.injEq, false_or] at hm; subst hm; exact hn
      | released n =>
        simp only [h1, if_true]
        exact hback (by rw [hp]; rfl) (h7 n (Or.inr hp)).1

theorem aux_cc_run (acts : List CloseAct) (s : ConnClose) (h : aux_cc_inv s) (hc : closeCallsOk s acts) :
    ∃ r, s.run acts = some r ∧ aux_cc_inv r := by
  induction acts generalizing s with
  | nil => exact ⟨s, rfl, h⟩
  | cons a as ih =>
    obtain ⟨h1, h2⟩ := hc
    obtain ⟨r, hr, hi⟩ := aux_cc_step s a h fun ha => (h1 ha).1 h.role
    simp only [ConnClose.run, hr]
    exact ih r hi (h2 r hr)

/-- C85, connections created by the user: if the function is only called before one of the calls has closed the connection, no released
connection is used, calls that close give back exactly one reference, at most one does, and then the connection is down. Missing: accepted
connections and listeners (`C85_refused`, `C85_freed`), and the calls that are told that another one goes on (`C85_told`): false of the
code. -/
theorem C85_initiator_partial (engine : Nat) (acts : List CloseAct) (hc : closeCallsOk (ConnClose.init .initiator engine) acts) :
    ∃ s, (ConnClose.init .initiator engine).run acts = some s ∧ s.gaveBack = closings s ∧ closings s ≤ 1 ∧
      (.closed ∈ s.results → s.ok = false) := by
  obtain ⟨s, h1, h2⟩ := aux_cc_run acts (ConnClose.init .initiator engine)
    ⟨rfl, by simp [ConnClose.init, aux_cc_held], by simp [ConnClose.init], rfl, by simp [ConnClose.init], by simp [ConnClose.init],
      by simp [ConnClose.init], by simp [ConnClose.init], by simp [ConnClose.init]⟩ hc
  exact ⟨s, h1, h2.back, by rw [← h2.back]; exact h2.le, h2.closed⟩

/-- A call that fails, then one that succeeds while the engine gives back its reference. -/
example : closeCallsOk (ConnClose.init .initiator 1)
    [.call, .go true, .go true, .go false, .go true, .call, .go true, .go true, .go true, .go true, .go true, .drop, .go true, .go true] := by
  simp [closeCallsOk, ConnClose.step, ConnClose.init, ConnClose.next, ConnClose.giveBack]

structure aux_cc_acc (s : ConnClose) : Prop where
  role : s.role = .accepted
  refs : s.refs = s.engine + aux_cc_held s.pc
  back : s.gaveBack = 0
  flag : s.pc ≠ .idle → s.flag = true ∧ s.engine ≠ 0
  counted : ∀ n, s.pc = .counted n ∨ s.pc = .released n → s.ok = false ∧ n ≠ 1
  wasOk : s.pc = .wasOk → s.ok = true
  shut : (s.pc = .shut ∨ s.pc = .wasDown) → s.ok = false
  closed : .closed ∈ s.results → s.ok = false

theorem aux_cc_acc_step (s : ConnClose) (a : CloseAct) (h : aux_cc_acc s) (ha : a = .call → s.engine ≠ 0) (hd : a = .drop → s.pc = .idle)
    (hf : a = .fail → s.pc ≠ .wasOk) : ∃ r, s.step a = some r ∧ aux_cc_acc r := by
  obtain ⟨h1, h2, h3, h4, h5, h6, h7, h8⟩ := h
  cases a with
  | call =>
    have h0 := ha rfl
    have hr : s.refs ≠ 0 := by omega
    simp only [ConnClose.step, if_neg hr]
    split
    · exact ⟨_, rfl, h1, h2, h3, h4, h5, h6, h7, by simpa using h8⟩
    · next hf =>
      have hi : s.pc = .idle := Classical.byContradiction fun hne => hf (h4 hne).1
      rw [hi] at h2
      exact ⟨_, rfl, h1, h2, h3, fun _ => ⟨rfl, h0⟩, by simp, by simp, by simp, h8⟩
  | fail => exact ⟨_, rfl, h1, h2, h3, h4, fun n hn => ⟨rfl, (h5 n hn).2⟩, fun hw => absurd hw (hf rfl), fun _ => rfl, fun _ => rfl⟩
  | drop =>
    have hi := hd rfl
    simp only [ConnClose.step]
    split
    · exact ⟨_, rfl, h1, h2, h3, h4, h5, h6, h7, h8⟩
    · next he =>
      simp only [not_or] at he
      have hr : s.refs ≠ 0 := by omega
      rw [if_neg hr]
      refine ⟨_, rfl, h1, ?_, h3, fun hne => absurd hi hne, h5, h6, h7, h8⟩
      simp only; omega
  | go b =>
    simp only [ConnClose.step]
    rw [if_neg (fun h => (h5 1 (Or.inr h)).2 rfl)]
    split
    · exact ⟨_, rfl, h1, h2, h3, h4, h5, h6, h7, h8⟩
    · next hi =>
      obtain ⟨hfl, hg⟩ := h4 hi
      have hr : s.refs ≠ 0 := by omega
      rw [if_neg hr]
      refine ⟨_, rfl, ?_⟩
      unfold ConnClose.next
      cases hp : s.pc with
      | idle => exact absurd hp hi
      | flagged =>
        simp only
        refine ⟨h1, ?_, h3, fun _ => ⟨hfl, hg⟩, ?_, ?_, ?_, h8⟩
        · rw [hp] at h2; simp only; split <;> exact h2
        · intro n hn; simp only at hn; split at hn <;> simp at hn
        · intro hn; simp only at hn ⊢; cases hk : s.ok <;> simp [hk] at hn ⊢
        · intro hn; simp only at hn ⊢; cases hk : s.ok <;> simp [hk] at hn ⊢
      | wasOk =>
        simp only [h6 hp, if_true]
        refine ⟨h1, ?_, h3, fun _ => ⟨hfl, hg⟩, by simp, by simp, by simp, fun hc => ?_⟩
        · rw [hp] at h2; simp only [aux_cc_held] at h2 ⊢; omega
        · have := h8 hc; rw [h6 hp] at this; simp at this
      | wasDown =>
        simp only [h1, if_true]
        rw [hp] at h2
        exact ⟨rfl, h2, h3, by simp, by simp, by simp, by simp, fun _ => h7 (Or.inr hp)⟩
      | held =>
        simp only
        rw [hp] at h2; simp only [aux_cc_held] at h2
        split
        · exact ⟨h1, h2, h3, fun _ => ⟨hfl, hg⟩, by simp, by simp, by simp, h8⟩
        · refine ⟨h1, ?_, h3, fun _ => ⟨hfl, hg⟩, by simp, by simp, by simp, h8⟩
          simp only [aux_cc_held]; omega
      | undoing =>
        simp only
        rw [hp] at h2
        exact ⟨h1, h2, h3, by simp, by simp, by simp, by simp, by simpa using h8⟩
      | emptied =>
        simp only
        rw [hp] at h2
        exact ⟨h1, h2, h3, fun _ => ⟨hfl, hg⟩, by simp, by simp, fun _ => rfl, fun _ => rfl⟩
      | shut =>
        simp only
        have hok := h7 (Or.inl hp)
        rw [hp] at h2; simp only [aux_cc_held] at h2
        refine ⟨h1, h2, h3, fun _ => ⟨hfl, hg⟩, ?_, by simp, by simp, h8⟩
        intro n hn; simp only [ClosePc.counted.injEq, reduceCtorEq, or_false] at hn
        exact ⟨hok, by omega⟩
      | counted n =>
        simp only
        have hn := h5 n (Or.inl hp)
        rw [hp] at h2; simp only [aux_cc_held] at h2
        refine ⟨h1, ?_, h3, fun _ => ⟨hfl, hg⟩, ?_, by simp, by simp, h8⟩
        · simp only [aux_cc_held]; omega
        · intro m hm; simp only [reduceCtorEq, ClosePc.released.injEq, false_or] at hm; subst hm; exact hn
      | released n =>
        simp only [h1, reduceCtorEq, if_false]
        rw [hp] at h2
        exact ⟨rfl, h2, h3, by simp, by simp, by simp, by simp, fun _ => (h5 n (Or.inr hp)).1⟩

/-- C85, accepted connections: if the engine gives no reference back while a call goes on and the connection does not fail between the two
looks at it, no released connection is used, no call gives back a reference it has not taken, and a call that closed the connection left it
down. Missing: other moments (false of the code, `C85_refused`, `C85_freed_accepted`). -/
theorem C85_accepted_partial (engine : Nat) (acts : List CloseAct) (hc : closeCallsOk (ConnClose.init .accepted engine) acts)
    (hu : closeUndisturbed (ConnClose.init .accepted engine) acts) :
    ∃ s, (ConnClose.init .accepted engine).run acts = some s ∧ s.gaveBack = 0 ∧ (.closed ∈ s.results → s.ok = false) := by
  have H : ∀ (acts : List CloseAct) (s : ConnClose), aux_cc_acc s → closeCallsOk s acts → closeUndisturbed s acts →
      ∃ r, s.run acts = some r ∧ aux_cc_acc r := by
    intro acts
    induction acts with
    | nil => intro s h _ _; exact ⟨s, rfl, h⟩
    | cons a as ih =>
      intro s h h1 h2
      obtain ⟨r, hr, hi⟩ := aux_cc_acc_step s a h (fun ha => (h1.1 ha).2 (by simp [h.role])) h2.1 h2.2.1
      simp only [ConnClose.run, hr]
      exact ih r hi (h1.2 r hr) (h2.2.2 r hr)
  obtain ⟨s, h1, h2⟩ := H acts (ConnClose.init .accepted engine)
    ⟨rfl, by simp [ConnClose.init, aux_cc_held], rfl, by simp [ConnClose.init], by simp [ConnClose.init], by simp [ConnClose.init],
      by simp [ConnClose.init], by simp [ConnClose.init]⟩ hc hu
  exact ⟨s, h1, h2.back, h2.closed⟩

/-- The connection fails while the channels are closed; the engine gives its references back after the call. -/
example : closeCallsOk (ConnClose.init .accepted 1)
      [.call, .go true, .go true, .fail, .go true, .go true, .go true, .go true, .go true, .drop] ∧
    closeUndisturbed (ConnClose.init .accepted 1)
      [.call, .go true, .go true, .fail, .go true, .go true, .go true, .go true, .go true, .drop] := by
  simp [closeCallsOk, closeUndisturbed, ConnClose.step, ConnClose.init, ConnClose.next]

/-- Violation: the engine gives its reference back between the look at the counter and the release. -/
theorem C85_freed_accepted : closeCallsOk (ConnClose.init .accepted 1)
      [.call, .go true, .go true, .go true, .go true, .go true, .drop, .go true, .go true] ∧
    (ConnClose.init .accepted 1).run [.call, .go true, .go true, .go true, .go true, .go true, .drop, .go true, .go true] = none := by
  constructor
  · simp [closeCallsOk, ConnClose.step, ConnClose.init, ConnClose.next]
  · decide

/-- Violation: a listener that is down already is closed before the engine gave its reference back: both give back the same reference. -/
theorem C85_down_listener : closeCallsOk (ConnClose.init .master 1) [.fail, .call, .go true, .go true, .drop] ∧
    (ConnClose.init .master 1).run [.fail, .call, .go true, .go true, .drop] = none := by
  constructor
  · simp [closeCallsOk, ConnClose.step, ConnClose.init, ConnClose.next, ConnClose.giveBack]
  · decide

/-- Steps left of the call that goes on. -/
def aux_cc_rank : ClosePc → Nat
  | .idle => 0
  | .flagged => 7
  | .wasOk => 6
  | .wasDown => 1
  | .held => 5
  | .undoing => 1
  | .emptied => 4
  | .shut => 3
  | .counted _ => 2
  | .released _ => 1

theorem aux_cc_rank_step (s : ConnClose) (b : Bool) (r : ConnClose) (hr : s.step (.go b) = some r) :
    aux_cc_rank r.pc ≤ aux_cc_rank s.pc - 1 := by
  simp only [ConnClose.step] at hr
  split at hr
  · simp only [Option.some.injEq] at hr; subst hr; simp [aux_cc_rank]
  · split at hr
    · next h => simp only [Option.some.injEq] at hr; subst hr; simp [h, aux_cc_rank]
    · split at hr
      · simp at hr
      · simp only [Option.some.injEq] at hr; subst hr
        unfold ConnClose.next ConnClose.giveBack
        cases hc : s.pc <;> cases hk : s.ok <;> cases hb : b <;> cases ho : s.role <;> simp_all [aux_cc_rank]

theorem aux_cc_rank_run (bs : List Bool) (s r : ConnClose) (hr : s.run (bs.map .go) = some r) :
    aux_cc_rank r.pc ≤ aux_cc_rank s.pc - bs.length := by
  induction bs generalizing s with
  | nil => simp only [List.map_nil, ConnClose.run, Option.some.injEq] at hr; subst hr; simp
  | cons b bs ih =>
    simp only [List.map_cons, ConnClose.run] at hr
    cases h : s.step (.go b) with
    | none => rw [h] at hr; simp at hr
    | some q =>
      rw [h] at hr
      have h1 := ih q hr
      have h2 := aux_cc_rank_step s b q h
      simp only [List.length_cons]; omega

/-- C85, end: a call that goes on has returned after seven of its steps, if the connection is still there. -/
theorem C85_ends (s r : ConnClose) (bs : List Bool) (h : 7 ≤ bs.length) (hr : s.run (bs.map .go) = some r) : r.pc = .idle := by
  have h1 := aux_cc_rank_run bs s r hr
  have h2 : aux_cc_rank s.pc ≤ 7 := by cases s.pc <;> simp [aux_cc_rank]
  have h3 : aux_cc_rank r.pc = 0 := by omega
  cases hp : r.pc <;> simp [hp, aux_cc_rank] at h3 ⊢

example : ∃ s r, (ConnClose.init .initiator 1).run [.call] = some s ∧ s.run ((List.replicate 7 true).map .go) = some r ∧
    r.results = [.closed] := ⟨_, _, rfl, rfl, rfl⟩

/-- Violation: a connection accepted by a listener fails just after it was found ok: the call gives back the reference of the engine, which
then uses the released connection. -/
theorem C85_refused : closeCallsOk (ConnClose.init .accepted 1) [.call, .go true, .fail, .go true, .drop] ∧
    (ConnClose.init .accepted 1).run [.call, .go true, .fail, .go true, .drop] = none := by
  constructor
  · simp [closeCallsOk, ConnClose.step, ConnClose.init, ConnClose.next, ConnClose.giveBack]
  · decide

/-- Violation: a listener is closed and the engine gives back its reference between the look at the counter and the release: the call reads
the role of the released connection. -/
theorem C85_freed : closeCallsOk (ConnClose.init .master 1)
      [.call, .go true, .go true, .go true, .go true, .go true, .drop, .go true, .go true] ∧
    (ConnClose.init .master 1).run [.call, .go true, .go true, .go true, .go true, .go true, .drop, .go true, .go true] = none := by
  constructor
  · simp [closeCallsOk, ConnClose.step, ConnClose.init, ConnClose.next]
  · decide

/-- Violation: a second call is told that the connection is closed while the first one fails to close it. -/
theorem C85_told : closeCallsOk (ConnClose.init .initiator 1) [.call, .go true, .go true, .call, .go false, .go true] ∧
    ∃ s, (ConnClose.init .initiator 1).run [.call, .go true, .go true, .call, .go false, .go true] = some s ∧
      s.results = [.told, .failed] ∧ s.ok = true := by
  constructor
  · simp [closeCallsOk, ConnClose.step, ConnClose.init, ConnClose.next]
  · exact ⟨_, rfl, rfl, rfl⟩

theorem C85_statement_false : ¬ C85_statement := by
  intro h
  obtain ⟨s, hs, _⟩ := h .accepted 1 _ (by decide) C85_refused.1
  rw [C85_refused.2] at hs; simp at hs

/-- When no call goes on and none closed the connection, the next call is not told that another one goes on but tries again. -/
theorem C85_retry (role : CloseRole) (engine : Nat) (acts : List CloseAct) (s r : ConnClose) (hs : (ConnClose.init role engine).run acts = some s)
    (hi : s.pc = .idle) (hc : .closed ∉ s.results) (hr : s.step .call = some r) : r.pc = .flagged ∧ r.results = s.results := by
  have key : ∀ (acts : List CloseAct) (s : ConnClose), (s.flag = true → s.pc = .idle → .closed ∈ s.results) → ∀ r, s.run acts = some r →
      (r.flag = true → r.pc = .idle → .closed ∈ r.results) := by
    intro acts
    induction acts with
    | nil => intro s h r hr; cases hr; exact h
    | cons a as ih =>
      intro s h r hr
      simp only [ConnClose.run] at hr
      cases hs : s.step a with
      | none => rw [hs] at hr; cases hr
      | some t =>
        rw [hs] at hr
        refine ih t ?_ r hr
        cases a with
        | call =>
          simp only [ConnClose.step] at hs
          split at hs
          · cases hs
          split at hs
          · cases hs
            intro h1 h2
            simp [h h1 h2]
          · cases hs
            intro _ h2
            cases h2
        | fail => cases hs; exact h
        | drop =>
          simp only [ConnClose.step] at hs
          split at hs
          · cases hs; exact h
          split at hs
          · cases hs
          · cases hs; exact h
        | go b =>
          simp only [ConnClose.step] at hs
          split at hs
          · cases hs; intro _ _; simp
          split at hs
          · cases hs; exact h
          split at hs
          · cases hs
          · cases hs
            intro h1 h2
            simp only [ConnClose.next, ConnClose.giveBack] at h1 h2 ⊢
            grind
  have := key acts _ (by simp [ConnClose.init]) s hs
  have hf : s.flag = false := by
    cases hf : s.flag with
    | false => rfl
    | true => exact absurd (this hf hi) hc
  simp only [ConnClose.step, hf] at hr
  split at hr
  · cases hr
  · simp only [Bool.false_eq_true, if_false] at hr
    cases hr
    exact ⟨rfl, rfl⟩

/-- A call fails because a channel cannot be closed; the next one tries again. -/
example : ∃ s r, (ConnClose.init .initiator 1).run [.call, .go true, .go true, .go false, .go true] = some s ∧ s.pc = .idle ∧
    s.results = [.failed] ∧ s.step .call = some r := ⟨_, _, rfl, rfl, rfl, rfl⟩

end Verif.Props
