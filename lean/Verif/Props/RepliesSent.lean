import Verif.Spec.RepliesSent
/-! C83: waiting until all replies are sent. -/
namespace Verif.Props
open Verif.Model Verif.Spec

/-- C83, full: the wait finds nothing to wait for exactly if nothing is due; and it gives up, with the connection ok, only when the time
asked for is over. False of the code. -/
def C83_statement : Prop :=
  (∀ chan0 acts, rpyLegal ⟨chan0, []⟩ acts →
    ((rpyState chan0 acts).lastMsg = (rpyState chan0 acts).lastReply ↔ (rpyDue ⟨chan0, []⟩ acts).none)) ∧
  (∀ (timeout microseconds : Int) looks e, 0 ≤ microseconds → (∀ o ∈ looks, o.connOk = true) →
    rpyBlock timeout microseconds looks = some (false, e) → microseconds ≤ e)

structure aux_rs_inv (s : RpySent) (d : RpyDue) (seen : List Int) : Prop where
  nodup : d.msgs.Nodup
  sub : ∀ n ∈ d.msgs, n ∈ seen ∧ 0 ≤ n
  ch : d.greeting = true → s.chan0 = true ∧ s.lastReply = -2
  ng : d.greeting = false → s.lastReply ≠ -2
  reply : s.lastReply < 0 ∨ s.lastReply ∈ seen
  fresh : s.lastReply ∉ d.msgs
  last : ∀ n, d.msgs.getLast? = some n → s.lastMsg = n
  empty : d.msgs = [] → d.greeting = false → s.lastMsg = s.lastReply
  emptyG : d.msgs = [] → d.greeting = true → s.lastMsg = -1
  low : -2 ≤ s.lastReply

theorem aux_rs_run (acts : List RpyAct) (s : RpySent) (d : RpyDue) (seen : List Int) (h : aux_rs_inv s d seen) (hl : rpyLegal d acts)
    (hn : (seen ++ msgNumbers acts).Nodup) (he : ∀ n, .reply .err n ∉ acts) :
    ∃ seen', aux_rs_inv (s.run acts) (rpyDue d acts) seen' := by
  induction acts generalizing s d seen with
  | nil => exact ⟨seen, h⟩
  | cons a as ih =>
    obtain ⟨h1, h2, h3, h4, h5, h6, h7, h8, h9, h10⟩ := h
    have he' : ∀ n, RpyAct.reply .err n ∉ as := fun n hm => he n (List.mem_cons_of_mem _ hm)
    cases a with
    | msg n =>
      obtain ⟨hn0, hnd, hl⟩ := hl
      have hnn : (seen ++ n :: msgNumbers as).Nodup := hn
      have hns : n ∉ seen := by
        intro hm; rw [List.nodup_append] at hnn; exact hnn.2.2 n hm n List.mem_cons_self rfl
      refine ih (s.step (.msg n)) { d with msgs := d.msgs ++ [n] } (seen ++ [n]) ?_ hl (by simpa using hnn) he'
      refine ⟨?_, ?_, h3, h4, ?_, ?_, ?_, by simp, by simp, h10⟩
      · rw [List.nodup_append]; refine ⟨h1, by simp, ?_⟩
        intro a ha b hb hab; simp only [List.mem_singleton] at hb; subst hb; subst hab; exact hnd ha
      · intro m hm; simp only [List.mem_append, List.mem_singleton] at hm ⊢
        rcases hm with hm | hm
        · exact ⟨Or.inl (h2 m hm).1, (h2 m hm).2⟩
        · subst hm; exact ⟨Or.inr rfl, hn0⟩
      · rcases h5 with h | h
        · exact Or.inl h
        · exact Or.inr (by simp [RpySent.step, h])
      · simp only [RpySent.step, List.mem_append, List.mem_singleton, not_or]
        refine ⟨h6, ?_⟩
        rcases h5 with h | h
        · omega
        · intro he; exact hns (he ▸ h)
      · intro m hm; simp at hm; simpa [RpySent.step] using hm
    | reply t n =>
      have hn' : (seen ++ msgNumbers as).Nodup := by simpa [msgNumbers] using hn
      have hte : t ≠ .err := by intro h; subst h; exact he n List.mem_cons_self
      by_cases hta : t = .ans
      · subst hta
        have := hl.1 rfl
        simp only [RpySent.run, List.foldl_cons, rpyDue, lastOfReply]
        exact ih _ d seen (by simpa [RpySent.step] using ⟨h1, h2, h3, h4, h5, h6, h7, h8, h9, h10⟩) this.2.2 hn' he'
      · obtain ⟨hl0, hl1, hl2⟩ := hl.2 hta
        have hrn : t = .rpy ∨ t = .nul := by
          simp only [lastOfReply, Bool.or_eq_true, beq_iff_eq] at hl0
          rcases hl0 with (h | h) | h
          · exact Or.inl h
          · exact absurd h hte
          · exact Or.inr h
        simp only [RpySent.run, List.foldl_cons, rpyDue, hl0, if_true]
        cases hg : d.greeting with
        | true =>
          obtain ⟨_, hl1⟩ := hl1 hg
          obtain ⟨hc, hr⟩ := h3 hg
          simp only [if_true]
          refine ih _ { d with greeting := false } seen ?_ hl1 hn' he'
          have hst : s.step (.reply t n) = { s with lastReply := -1 } := by simp [RpySent.step, hrn, hr, hc]
          rw [hst]
          refine ⟨h1, h2, by simp, by simp, Or.inl (by simp), ?_, h7, ?_, by simp, by simp⟩
          · intro hm; have := (h2 _ hm).2; simp at this
          · intro hd _; exact h9 hd hg
        | false =>
          obtain ⟨hh, hl2⟩ := hl2 hg
          simp only [Bool.false_eq_true, if_false]
          rw [hg] at hl2
          refine ih _ ⟨false, d.msgs.tail⟩ seen ?_ hl2 hn' he'
          have hst : s.step (.reply t n) = { s with lastReply := n } := by simp [RpySent.step, hrn, h4 hg]
          rw [hst]
          cases hd : d.msgs with
          | nil => rw [hd] at hh; simp at hh
          | cons m ms =>
            rw [hd] at hh h1 h2 h7; simp only [List.head?_cons, Option.some.injEq] at hh; subst hh
            rw [List.nodup_cons] at h1
            have hm0 := h2 m List.mem_cons_self
            refine ⟨h1.2, fun k hk => h2 k (List.mem_cons_of_mem _ hk), by simp [hg], ?_, Or.inr hm0.1, h1.1, ?_, ?_, by simp [hg], ?_⟩
            · intro _; simp only; omega
            · intro k hk; simp only [List.tail_cons] at hk
              refine h7 k ?_
              cases ms with
              | nil => simp at hk
              | cons x xs => simpa [List.getLast?_cons_cons] using hk
            · intro hms _; simp only [List.tail_cons] at hms; subst hms; exact h7 m rfl
            · simp only; omega

/-- C83, what is waited for: if the peer does not use a message number again and no reply is an error, the two numbers compared are equal
exactly if nothing is due. Missing: numbers used again and error replies (false of the code, `C83_error`, `C83_same_number`). -/
theorem C83_due_partial (chan0 : Bool) (acts : List RpyAct) (hl : rpyLegal ⟨chan0, []⟩ acts) (hn : (msgNumbers acts).Nodup)
    (he : ∀ n, .reply .err n ∉ acts) :
    (rpyState chan0 acts).lastMsg = (rpyState chan0 acts).lastReply ↔ (rpyDue ⟨chan0, []⟩ acts).none := by
  obtain ⟨seen, h⟩ := aux_rs_run acts (RpySent.init chan0) ⟨chan0, []⟩ []
    ⟨by simp, by simp, by cases chan0 <;> simp [RpySent.init], by cases chan0 <;> simp [RpySent.init],
      by cases chan0 <;> simp [RpySent.init], by simp, by simp, by cases chan0 <;> simp [RpySent.init], by simp [RpySent.init],
      by cases chan0 <;> simp [RpySent.init]⟩ hl (by simpa using hn) he
  constructor
  · intro heq
    change (RpySent.run _ acts).lastMsg = (RpySent.run _ acts).lastReply at heq
    have hm : (rpyDue ⟨chan0, []⟩ acts).msgs = [] := by
      rcases List.eq_nil_or_concat (rpyDue ⟨chan0, []⟩ acts).msgs with h0 | ⟨l, n, h0⟩
      · exact h0
      · have h1 := h.last n (by rw [h0]; simp)
        have h2 := h.fresh
        rw [← heq, h1, h0] at h2; simp at h2
    refine ⟨?_, hm⟩
    cases hg : (rpyDue ⟨chan0, []⟩ acts).greeting with
    | false => rfl
    | true => have h1 := h.emptyG hm hg; have h2 := (h.ch hg).2; omega
  · intro hd; exact h.empty hd.2 hd.1

/-- Channel 0 with its greeting and two messages, one of them answered. -/
example : rpyLegal ⟨true, []⟩ [.reply .rpy 0, .msg 0, .msg 1, .reply .ans 0, .reply .nul 0] ∧
    (msgNumbers [.reply .rpy 0, .msg 0, .msg 1, .reply .ans 0, .reply .nul 0]).Nodup := by
  constructor
  · simp [rpyLegal, lastOfReply]
  · decide

/-- Violation: a message answered with an error is never counted as answered. -/
theorem C83_error : rpyLegal ⟨false, []⟩ [.msg 0, .reply .err 0] ∧ (rpyDue ⟨false, []⟩ [.msg 0, .reply .err 0]).none ∧
    rpyState false [.msg 0, .reply .err 0] = ⟨false, 0, -1⟩ := by
  refine ⟨by simp [rpyLegal, lastOfReply], by simp [rpyDue, lastOfReply, RpyDue.none], by decide⟩

/-- Violation: a message with the number of the one answered last counts as answered. -/
theorem C83_same_number : rpyLegal ⟨false, []⟩ [.msg 5, .reply .rpy 5, .msg 5] ∧
    (rpyDue ⟨false, []⟩ [.msg 5, .reply .rpy 5, .msg 5]).msgs = [5] ∧
    rpyState false [.msg 5, .reply .rpy 5, .msg 5] = ⟨false, 5, 5⟩ := by
  refine ⟨by simp [rpyLegal, lastOfReply], by simp [rpyDue, lastOfReply], by decide⟩

theorem C83_statement_false : ¬ C83_statement := by
  intro h
  have := (h.1 false _ C83_error.1).2 C83_error.2.1
  rw [C83_error.2.2] at this; simp at this

/-- C83, result: the wait returns true exactly if some look found nothing to wait for and no look before found the connection down or the
number of rounds used up. -/
theorem C83_true (timeout microseconds : Int) (looks : List RpyLook) (e : Nat)
    (h : rpyBlock timeout microseconds looks = some (true, e)) :
    ∃ before o after, looks = before ++ o :: after ∧ o.s.lastMsg = o.s.lastReply ∧ (∀ b ∈ before, b.connOk = true) ∧
      e = (before.map (·.waited)).sum := by
  suffices ∀ looks left e, rpyBlockLoop left looks = some (true, e) →
      ∃ before o after, looks = before ++ o :: after ∧ o.s.lastMsg = o.s.lastReply ∧ (∀ b ∈ before, b.connOk = true) ∧
        e = (before.map (·.waited)).sum from this _ _ _ h
  intro looks
  induction looks with
  | nil => intro left e h; simp [rpyBlockLoop] at h
  | cons o os ih =>
    intro left e h
    simp only [rpyBlockLoop] at h
    split at h
    · next heq => simp at h; exact ⟨[], o, os, rfl, heq, by simp, by simp [h]⟩
    · split at h
      · simp at h
      · split at h
        · next hok =>
          simp only [Option.map_eq_some_iff] at h
          obtain ⟨⟨b, e'⟩, h1, h2⟩ := h
          simp only [Prod.mk.injEq] at h2; obtain ⟨rfl, rfl⟩ := h2
          obtain ⟨before, q, after, h3, h4, h5, h6⟩ := ih _ _ h1
          refine ⟨o :: before, q, after, by rw [h3]; rfl, h4, ?_, ?_⟩
          · intro b hb; rcases List.mem_cons.mp hb with hb | hb
            · exact hb ▸ hok
            · exact h5 b hb
          · simp [h6]; omega
        · simp at h

example : rpyBlock 60000000 1000 [⟨⟨false, 3, 2⟩, true, 4000⟩, ⟨⟨false, 3, 3⟩, true, 0⟩] = some (true, 4000) := by decide

/-- C83, bound: the wait ends after at most one round for every half second of the time asked for, and one more. -/
theorem C83_ends (timeout microseconds : Int) (h0 : 0 ≤ microseconds) (looks : List RpyLook)
    (hl : microseconds / 500000 + 2 ≤ looks.length) : rpyBlock timeout microseconds looks ≠ none := by
  suffices ∀ looks (left : Int), -500000 ≤ left → left / 500000 + 2 ≤ (looks.length : Int) → rpyBlockLoop left looks ≠ none by
    simp only [rpyBlock]; rw [if_neg (by omega)]; exact this looks microseconds (by omega) hl
  intro looks
  induction looks with
  | nil => intro left h1 h2; simp at h2; omega
  | cons o os ih =>
    intro left h1 h2
    simp only [rpyBlockLoop]
    split
    · simp
    · split
      · simp
      · split
        · simp only [ne_eq, Option.map_eq_none_iff]
          refine ih _ (by omega) ?_
          simp only [List.length_cons] at h2; omega
        · simp

example : (1000000 : Int) / 500000 + 2 ≤ (List.replicate 4 (⟨⟨false, 3, 2⟩, true, 500000⟩ : RpyLook)).length := by decide

/-- C83, time: if every wait lasts the half second, the wait gives up with the connection ok only after more than the time asked for.
Missing: waits that are ended by a signal (false of the code, `C83_early`). -/
theorem C83_time_partial (timeout microseconds : Int) (h0 : 0 ≤ microseconds) (looks : List RpyLook) (e : Nat)
    (hw : ∀ o ∈ looks, o.connOk = true ∧ 500000 ≤ o.waited) (h : rpyBlock timeout microseconds looks = some (false, e)) :
    microseconds < e := by
  simp only [rpyBlock] at h; rw [if_neg (by omega)] at h
  suffices ∀ looks (left : Int) e, (∀ o ∈ looks, o.connOk = true ∧ 500000 ≤ o.waited) → rpyBlockLoop left looks = some (false, e) →
      left < e from this looks microseconds e hw h
  intro looks
  induction looks with
  | nil => intro left e _ h; simp [rpyBlockLoop] at h
  | cons o os ih =>
    intro left e hw h
    simp only [rpyBlockLoop] at h
    split at h
    · simp at h
    · split at h
      · simp at h; omega
      · rw [if_pos (hw o List.mem_cons_self).1] at h
        simp only [Option.map_eq_some_iff] at h
        obtain ⟨⟨b, e'⟩, h1, h2⟩ := h
        simp only [Prod.mk.injEq] at h2; obtain ⟨rfl, rfl⟩ := h2
        have := ih _ _ (fun o ho => hw o (List.mem_cons_of_mem _ ho)) h1
        have := (hw o List.mem_cons_self).2
        omega

example : rpyBlock 60000000 600000 (List.replicate 3 ⟨⟨false, 3, 2⟩, true, 500000⟩) = some (false, 1000000) := by decide

/-- Violation: three replies written at once, of more that are due, use up a second: the wait gives up after no time. -/
theorem C83_early : rpyBlock 60000000 1000000
    [⟨⟨false, 9, 2⟩, true, 10⟩, ⟨⟨false, 9, 3⟩, true, 10⟩, ⟨⟨false, 9, 4⟩, true, 10⟩, ⟨⟨false, 9, 5⟩, true, 10⟩] = some (false, 30) := by decide

end Verif.Props
