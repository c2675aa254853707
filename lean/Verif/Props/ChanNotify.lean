import Verif.Spec.ChanNotify
/-! C86: the handlers called when a channel is added or removed. -/
namespace Verif.Props
open Verif.Model Verif.Spec

/-- C86, full: no handler is called twice by a notification, when it is over every handler installed before it and not removed was called, and
no handler is called after its removal. False of the code. -/
def C86_statement (front : Bool) : Prop :=
  ∀ hs acts, hs.Nodup → notifyUse hs acts →
    ((ChanNotify.init hs).run front acts).called.Nodup ∧
    (((ChanNotify.init hs).run front acts).over = true → ∀ h ∈ hs, .remove h ∉ acts → h ∈ ((ChanNotify.init hs).run front acts).called) ∧
    noCallAfterRemove front (ChanNotify.init hs) acts

/-- The handlers called, and the one taken, are the first ones of the list. -/
structure aux_chn_inv (hs known : List Nat) (s : ChanNotify) : Prop where
  next : s.next = s.called.length
  pre : ∃ rest, s.handlers = s.called ++ s.taken.toList ++ rest
  nodup : s.handlers.Nodup
  sub : ∀ h ∈ s.handlers, h ∈ known
  rem : ∀ h ∈ s.removed, h ∉ s.handlers ∧ h ∈ known
  start : ∀ h ∈ hs, h ∈ known ∧ (h ∈ s.handlers ∨ h ∈ s.removed)
  over : s.over = true → ∀ h ∈ hs, h ∈ s.handlers → h ∈ s.called

theorem aux_chn_add (hs known : List Nat) (s : ChanNotify) (h : Nat) (hi : aux_chn_inv hs known s) (hk : h ∉ known) :
    aux_chn_inv hs (h :: known) (s.step false (.add h)) := by
  obtain ⟨h1, ⟨rest, h2⟩, h3, h4, h5, h6, h7⟩ := hi
  have hnot : h ∉ s.handlers := fun hm => hk (h4 h hm)
  simp only [ChanNotify.step, Bool.false_eq_true, if_false]
  refine ⟨h1, ⟨rest ++ [h], by simp [h2]⟩, ?_, ?_, ?_, ?_, ?_⟩
  · simp only [List.nodup_append]
    refine ⟨h3, by simp, ?_⟩
    intro a ha b hb; simp only [List.mem_singleton] at hb; subst hb; rintro rfl; exact hnot ha
  · grind
  · grind
  · grind
  · grind

theorem aux_chn_remove (hs known : List Nat) (s : ChanNotify) (h : Nat) (hi : aux_chn_inv hs known s) (hk : h ∈ known)
    (hr : h ∉ s.called ∧ s.taken ≠ some h) : aux_chn_inv hs known (s.step false (.remove h)) := by
  obtain ⟨h1, ⟨rest, h2⟩, h3, h4, h5, h6, h7⟩ := hi
  simp only [ChanNotify.step]
  have hpre : h ∉ s.called ++ s.taken.toList := by
    rw [List.mem_append]
    rintro (hm | hm)
    · exact hr.1 hm
    · exact hr.2 (by simpa using hm)
  have hmem : ∀ x, x ∈ s.handlers.erase h ↔ x ≠ h ∧ x ∈ s.handlers := fun x => h3.mem_erase_iff
  refine ⟨h1, ⟨rest.erase h, by simp only [h2]; rw [List.erase_append_right _ hpre]⟩, h3.erase _, ?_, ?_, ?_, ?_⟩
  · intro x hx; exact h4 x ((hmem x).1 hx).2
  · intro x hx
    simp only [List.mem_cons] at hx
    rcases hx with rfl | hx
    · exact ⟨fun hm => ((hmem x).1 hm).1 rfl, hk⟩
    · exact ⟨fun hm => (h5 x hx).1 ((hmem x).1 hm).2, (h5 x hx).2⟩
  · intro x hx
    refine ⟨(h6 x hx).1, ?_⟩
    by_cases hxh : x = h
    · right; simp [hxh]
    · rcases (h6 x hx).2 with hm | hm
      · left; exact (hmem x).2 ⟨hxh, hm⟩
      · right; simp [hm]
  · intro ho x hx hm; exact h7 ho x hx ((hmem x).1 hm).2

theorem aux_chn_take (hs known : List Nat) (s : ChanNotify) (hi : aux_chn_inv hs known s) : aux_chn_inv hs known (s.step false .take) := by
  simp only [ChanNotify.step]
  split
  · exact hi
  · next hc =>
    obtain ⟨h1, ⟨rest, h2⟩, h3, h4, h5, h6, h7⟩ := hi
    simp only [Bool.or_eq_true, not_or, Bool.not_eq_true, Option.isSome_eq_false_iff, Option.isNone_iff_eq_none] at hc
    rw [hc.2] at h2; simp only [Option.toList_none, List.append_nil] at h2
    cases hg : s.handlers[s.next]? with
    | none =>
      simp only
      rw [h1, h2, List.getElem?_append_right (Nat.le_refl _)] at hg
      have hrest : rest = [] := by simpa using hg
      refine ⟨h1, ⟨rest, by simp [h2, hc.2]⟩, h3, h4, h5, h6, ?_⟩
      intro _ x _ hm; rw [h2, hrest] at hm; simpa using hm
    | some x =>
      simp only
      rw [h1, h2, List.getElem?_append_right (Nat.le_refl _)] at hg
      cases rest with
      | nil => simp at hg
      | cons y ys =>
        simp only [Nat.sub_self, List.getElem?_cons_zero, Option.some.injEq] at hg
        subst hg
        exact ⟨h1, ⟨ys, by simp [h2]⟩, h3, h4, h5, h6, h7⟩

theorem aux_chn_call (hs known : List Nat) (s : ChanNotify) (hi : aux_chn_inv hs known s) : aux_chn_inv hs known (s.step false .call) := by
  simp only [ChanNotify.step]
  cases ht : s.taken with
  | none => exact hi
  | some x =>
    obtain ⟨h1, ⟨rest, h2⟩, h3, h4, h5, h6, h7⟩ := hi
    rw [ht] at h2
    refine ⟨by simp [h1], ⟨rest, by simpa using h2⟩, h3, h4, h5, h6, ?_⟩
    intro ho y hy hm; exact List.mem_append_left _ (h7 ho y hy hm)

theorem aux_chn_run (hs : List Nat) (acts : List ChanNotifyAct) (known : List Nat) (s : ChanNotify) (hi : aux_chn_inv hs known s)
    (hu : notifyUse known acts) (hr : removedBeforeTurn false s acts) :
    (∃ known', aux_chn_inv hs known' (s.run false acts)) ∧ noCallAfterRemove false s acts ∧
      ∀ h ∈ (s.run false acts).removed, h ∈ s.removed ∨ .remove h ∈ acts := by
  induction acts generalizing s known with
  | nil => exact ⟨⟨known, hi⟩, trivial, fun h hm => Or.inl hm⟩
  | cons a as ih =>
    have hcall : a = .call → ∀ h, s.taken = some h → h ∉ s.removed := by
      intro _ h ht hm
      obtain ⟨rest, h2⟩ := hi.pre
      refine (hi.rem h hm).1 ?_
      rw [h2, ht]; simp
    obtain ⟨hr1, hr2⟩ := hr
    cases a with
    | add h =>
      obtain ⟨h1, h2, h3⟩ := ih _ _ (aux_chn_add hs known s h hi hu.1) hu.2 hr2
      exact ⟨h1, ⟨hcall, h2⟩, fun x hx => (h3 x hx).imp id (List.mem_cons_of_mem _)⟩
    | remove h =>
      obtain ⟨h1, h2, h3⟩ := ih _ _ (aux_chn_remove hs known s h hi hu.1 (hr1 h rfl)) hu.2 hr2
      refine ⟨h1, ⟨hcall, h2⟩, fun x hx => ?_⟩
      rcases h3 x hx with hm | hm
      · simp only [ChanNotify.step, List.mem_cons] at hm
        rcases hm with rfl | hm
        · exact Or.inr (by simp)
        · exact Or.inl hm
      · exact Or.inr (List.mem_cons_of_mem _ hm)
    | take =>
      obtain ⟨h1, h2, h3⟩ := ih _ _ (aux_chn_take hs known s hi) hu hr2
      refine ⟨h1, ⟨hcall, h2⟩, fun x hx => (h3 x hx).imp (fun hm => ?_) (List.mem_cons_of_mem _)⟩
      simp only [ChanNotify.step] at hm; split at hm
      · exact hm
      · split at hm <;> exact hm
    | call =>
      obtain ⟨h1, h2, h3⟩ := ih _ _ (aux_chn_call hs known s hi) hu hr2
      refine ⟨h1, ⟨hcall, h2⟩, fun x hx => (h3 x hx).imp (fun hm => ?_) (List.mem_cons_of_mem _)⟩
      simp only [ChanNotify.step] at hm; split at hm <;> exact hm

/-- C86, if new handlers go to the end of the list and handlers are removed only before their turn. Missing: removals at other moments (false of
the code: `C86_skipped`, `C86_called_removed`) and lists that grow at their front (`C86_twice`). -/
theorem C86_partial (hs : List Nat) (acts : List ChanNotifyAct) (hn : hs.Nodup) (hu : notifyUse hs acts)
    (hr : removedBeforeTurn false (ChanNotify.init hs) acts) :
    ((ChanNotify.init hs).run false acts).called.Nodup ∧
    (((ChanNotify.init hs).run false acts).over = true → ∀ h ∈ hs, .remove h ∉ acts → h ∈ ((ChanNotify.init hs).run false acts).called) ∧
    noCallAfterRemove false (ChanNotify.init hs) acts := by
  obtain ⟨⟨k, h1⟩, h2, h3⟩ := aux_chn_run hs acts hs (ChanNotify.init hs)
    ⟨rfl, ⟨hs, by simp [ChanNotify.init]⟩, hn, fun h hm => hm, by simp [ChanNotify.init], fun h hm => ⟨hm, Or.inl hm⟩,
      by simp [ChanNotify.init]⟩ hu hr
  refine ⟨?_, ?_, h2⟩
  · obtain ⟨rest, hp⟩ := h1.pre
    have := h1.nodup
    rw [hp, List.append_assoc] at this
    exact (List.nodup_append.1 this).1
  · intro ho h hm hnr
    rcases (h1.start h hm).2 with h4 | h4
    · exact h1.over ho h hm h4
    · rcases h3 h h4 with h5 | h5
      · simp [ChanNotify.init] at h5
      · exact absurd h5 hnr

/-- Three handlers; the first one removes the third and installs another. -/
example : notifyUse [1, 2, 3] [.take, .call, .remove 3, .add 4, .take, .call, .take, .call, .take] ∧
    removedBeforeTurn false (ChanNotify.init [1, 2, 3]) [.take, .call, .remove 3, .add 4, .take, .call, .take, .call, .take] ∧
    ((ChanNotify.init [1, 2, 3]).run false [.take, .call, .remove 3, .add 4, .take, .call, .take, .call, .take]).over = true := by
  refine ⟨by simp [notifyUse], ?_, by decide⟩
  simp [removedBeforeTurn, ChanNotify.step, ChanNotify.init]

/-- C86, order: under the same conditions the handlers are called in the order of the list: those called are its first part. -/
theorem C86_order (hs : List Nat) (acts : List ChanNotifyAct) (hn : hs.Nodup) (hu : notifyUse hs acts)
    (hr : removedBeforeTurn false (ChanNotify.init hs) acts) :
    ((ChanNotify.init hs).run false acts).called <+: ((ChanNotify.init hs).run false acts).handlers := by
  obtain ⟨⟨k, h1⟩, _⟩ := aux_chn_run hs acts hs (ChanNotify.init hs)
    ⟨rfl, ⟨hs, by simp [ChanNotify.init]⟩, hn, fun h hm => hm, by simp [ChanNotify.init], fun h hm => ⟨hm, Or.inl hm⟩,
      by simp [ChanNotify.init]⟩ hu hr
  obtain ⟨rest, hp⟩ := h1.pre
  exact ⟨_, by rw [hp, List.append_assoc]⟩

example : notifyUse [1, 2] [.take, .call, .take, .call, .take] ∧
    removedBeforeTurn false (ChanNotify.init [1, 2]) [.take, .call, .take, .call, .take] := by
  simp [notifyUse, removedBeforeTurn]

/-- C86, end: when no handler is installed meanwhile, the notification is over after as many rounds as there are handlers, and one look. -/
theorem C86_ends (front : Bool) (hs : List Nat) :
    (((ChanNotify.init hs).run front (hs.flatMap fun _ => [.take, .call])).step front .take).over = true ∧
    ((ChanNotify.init hs).run front (hs.flatMap fun _ => [.take, .call])).called = hs := by
  have H : ∀ (rest pre : List Nat), ((⟨pre ++ rest, pre.length, none, pre, false, []⟩ : ChanNotify).run front
      (rest.flatMap fun _ => [.take, .call])) = ⟨pre ++ rest, (pre ++ rest).length, none, pre ++ rest, false, []⟩ := by
    intro rest
    induction rest with
    | nil => intro pre; simp [ChanNotify.run]
    | cons x xs ih =>
      intro pre
      have := ih (pre ++ [x])
      simp only [List.append_assoc, List.cons_append, List.nil_append, List.length_append, List.length_cons, List.length_nil] at this
      simpa [ChanNotify.run, ChanNotify.step, List.flatMap_cons] using this
  have := H hs []
  simp only [List.nil_append, List.length_nil] at this
  unfold ChanNotify.init
  rw [this]
  simp [ChanNotify.step]

/-- Violation: a handler that removes itself makes the loop skip the next one. -/
theorem C86_skipped (front : Bool) : notifyUse [1, 2] [.take, .remove 1, .call, .take] ∧
    ((ChanNotify.init [1, 2]).run front [.take, .remove 1, .call, .take]).over = true ∧
    2 ∉ ((ChanNotify.init [1, 2]).run front [.take, .remove 1, .call, .take]).called := by
  refine ⟨by simp [notifyUse], ?_⟩
  cases front <;> decide

/-- Violation: another thread removes a handler that was taken: it is called after the removal, with its data perhaps released. -/
theorem C86_called_removed (front : Bool) : notifyUse [1] [.take, .remove 1, .call] ∧
    ¬ noCallAfterRemove front (ChanNotify.init [1]) [.take, .remove 1, .call] := by
  refine ⟨by simp [notifyUse], ?_⟩
  simp [noCallAfterRemove, ChanNotify.step, ChanNotify.init]

/-- If new handlers go to the front of the list, a handler that installs another is called twice. -/
theorem C86_twice : notifyUse [1] [.take, .add 2, .call, .take, .call] ∧
    ((ChanNotify.init [1]).run true [.take, .add 2, .call, .take, .call]).called = [1, 1] := by
  refine ⟨by simp [notifyUse], by decide⟩

theorem C86_statement_false (front : Bool) : ¬ C86_statement front := fun h =>
  (C86_called_removed front).2 (h [1] _ (by simp) (C86_called_removed front).1).2.2

end Verif.Props
