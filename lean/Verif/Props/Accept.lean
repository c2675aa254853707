import Verif.Spec.Accept
/-!
# C70: a connection is accepted exactly if all handlers accept it
-/
namespace Verif.Props
open Verif.Model Verif.Spec

theorem aux_ac_calls_append (a b : List AcceptEvent) : acceptCalls (a ++ b) = acceptCalls a ++ acceptCalls b := by
  induction a with
  | nil => rfl
  | cons x a ih => cases x <;> simp [acceptCalls, ih]

/-- What holds at any time. -/
def aux_ac_inv (s : Accepting) (log : List AcceptEvent) (answers : List Bool) : Prop :=
  s.pos ≤ s.handlers.length ∧ (acceptCalls log).length = answers.length ∧ acceptCalls log <+: s.handlers ∧
  (s.finished = false → s.refs = 1 ∧ s.watched = false ∧ .watch ∉ log ∧ .refuse ∉ log ∧ s.pos = answers.length ∧ ∀ a ∈ answers, a = true) ∧
  (s.finished = true →
    (s.watched = true ∧ s.refs = 1 ∧ log.count .watch = 1 ∧ .refuse ∉ log ∧ (∀ a ∈ answers, a = true)) ∨
    (s.watched = false ∧ s.refs = 0 ∧ s.ok = false ∧ .watch ∉ log ∧ ((∀ a ∈ answers, a = true) ∨ ∃ l, answers = l ++ [false] ∧ ∀ a ∈ l, a = true)))

theorem aux_ac_step (s : Accepting) (op : AcceptOp) (log : List AcceptEvent) (answers : List Bool) (h : aux_ac_inv s log answers) :
    aux_ac_inv (s.step op).1 (log ++ (s.step op).2) (answers ++ acceptAnswers s [op]) := by
  obtain ⟨h1, h2, h3, h4, h5⟩ := h
  cases op with
  | add h =>
    refine ⟨by simp [Accepting.step]; omega, by simpa [Accepting.step, acceptAnswers] using h2, ?_, ?_, ?_⟩
    · simp only [Accepting.step, List.append_nil]; exact h3.trans (List.prefix_append _ _)
    · simpa [Accepting.step, acceptAnswers] using h4
    · simpa [Accepting.step, acceptAnswers] using h5
  | close =>
    refine ⟨h1, by simpa [Accepting.step, acceptAnswers] using h2, by simpa [Accepting.step] using h3,
      by simpa [Accepting.step, acceptAnswers] using h4, ?_⟩
    intro hf
    have := h5 hf
    simp only [Accepting.step, acceptAnswers, List.append_nil]
    grind
  | next a =>
    simp only [Accepting.step, acceptAnswers]
    cases hf : s.finished with
    | true => simpa [hf] using ⟨h1, h2, h3, h4, h5⟩
    | false =>
      obtain ⟨g1, g2, g3, g4, g5, g6⟩ := h4 hf
      have hc : acceptCalls log = s.handlers.take s.pos := by
        rw [g5, ← h2]; exact (List.prefix_iff_eq_take.1 h3)
      simp only [Bool.false_eq_true, if_false]
      split
      · next x hx =>
        have hlt : s.pos < s.handlers.length := (List.getElem?_eq_some_iff.1 hx).1
        have hpre : acceptCalls log ++ [x] = s.handlers.take (s.pos + 1) := by
          rw [List.take_add_one, hx, hc]; rfl
        simp only [hlt, and_self, if_true]
        split
        · next ha =>
          subst ha
          refine ⟨Nat.succ_le_of_lt hlt, by simp [aux_ac_calls_append, acceptCalls, h2], ?_, ?_, by simp [hf]⟩
          · rw [aux_ac_calls_append]; simp only [acceptCalls, hpre]; exact List.take_prefix _ _
          · intro _
            refine ⟨g1, g2, by simp [g3], by simp [g4], by simp [g5], ?_⟩
            intro b hb; simp at hb; rcases hb with hb | hb; exact g6 b hb; exact hb
        · next ha =>
          have ha : a = false := by simpa using ha
          subst ha
          have hcall : acceptCalls (AcceptEvent.call x :: if s.ok = true then [.refuse, .shut] else []) = [x] := by
            split <;> rfl
          refine ⟨h1, by rw [aux_ac_calls_append, hcall]; simp [h2], ?_, by simp, ?_⟩
          · rw [aux_ac_calls_append, hcall, hpre]; exact List.take_prefix _ _
          · intro _
            refine .inr ⟨g2, by simp [g1], rfl, ?_, .inr ⟨answers, by simp, g6⟩⟩
            have : AcceptEvent.watch ∉ (if s.ok = true then [AcceptEvent.refuse, .shut] else []) := by split <;> simp
            simp [g3, this]
      · next hx =>
        have hge : s.handlers.length ≤ s.pos := by simpa using hx
        have hnl : ¬ s.pos < s.handlers.length := by omega
        simp only [hnl, and_false, if_false, List.append_nil]
        unfold Accepting.register
        split
        · refine ⟨h1, by simpa [aux_ac_calls_append, acceptCalls] using h2, by simpa [aux_ac_calls_append, acceptCalls] using h3, by simp, ?_⟩
          intro _
          exact .inl ⟨rfl, by simp [g1], by simp [List.count_append, List.count_eq_zero.2 g3], by simp [g4], g6⟩
        · next hok =>
          refine ⟨h1, by simpa using h2, by simpa using h3, by simp, ?_⟩
          intro _
          exact .inr ⟨g2, by simp [g1], by simpa using hok, by simpa using g3, .inl g6⟩

theorem aux_ac_answers (op : AcceptOp) (ops : List AcceptOp) (s : Accepting) :
    acceptAnswers s (op :: ops) = acceptAnswers s [op] ++ acceptAnswers (s.step op).1 ops := by
  cases op <;> simp [acceptAnswers]

theorem aux_ac_reached (ops : List AcceptOp) : ∀ (s : Accepting) (log : List AcceptEvent) (answers : List Bool),
    aux_ac_inv s log answers → aux_ac_inv (s.run ops).1 (log ++ (s.run ops).2) (answers ++ acceptAnswers s ops) := by
  induction ops with
  | nil => intro s log answers h; simpa [Accepting.run, acceptAnswers] using h
  | cons op ops ih =>
    intro s log answers h
    have := ih _ _ _ (aux_ac_step s op log answers h)
    rw [aux_ac_answers]
    simpa [Accepting.run, List.append_assoc] using this

/-- The handlers are called in the order they were installed, each once, until one refuses. -/
theorem C70_order (handlers : List Nat) (ops : List AcceptOp) :
    let r := (Accepting.init handlers).run ops
    acceptCalls r.2 <+: r.1.handlers ∧ (acceptCalls r.2).length = (acceptAnswers (Accepting.init handlers) ops).length ∧
    ∀ l1 l2, acceptAnswers (Accepting.init handlers) ops = l1 ++ false :: l2 → l2 = [] := by
  have := aux_ac_reached ops (Accepting.init handlers) [] [] (by simp [aux_ac_inv, Accepting.init, acceptCalls])
  simp only [List.nil_append] at this
  obtain ⟨h1, h2, h3, h4, h5⟩ := this
  refine ⟨h3, h2, fun l1 l2 he => ?_⟩
  have hall : ¬ ∀ a ∈ acceptAnswers (Accepting.init handlers) ops, a = true := by
    intro h; have := h false (by rw [he]; simp); simp at this
  cases hf : ((Accepting.init handlers).run ops).1.finished with
  | false => exact absurd (h4 hf).2.2.2.2.2 hall
  | true =>
    rcases h5 hf with ⟨_, _, _, _, h⟩ | ⟨_, _, _, _, h | ⟨l, h, hl⟩⟩
    · exact absurd h hall
    · exact absurd h hall
    · rw [he] at h
      rcases List.append_eq_append_iff.1 h with ⟨a, g1, g2⟩ | ⟨a, g1, g2⟩
      · cases a with
        | nil => simp at g2; exact g2
        | cons x a =>
          exfalso
          have : l.length < l.length := by
            have hl1 : (x :: a) ≠ [] := by simp
            simp at g2
            have := hl false (by rw [g1]; simp [g2.1])
            simp at this
          omega
      · cases a with
        | nil => simp at g2; exact g2
        | cons x a => simp at g2

/-- A connection is handed to the reader at most once, and only when every handler installed up to then was called and
accepted it. -/
theorem C70_accepted (handlers : List Nat) (ops : List AcceptOp) (a : Bool)
    (h : .watch ∈ (((Accepting.init handlers).run ops).1.step (.next a)).2) :
    let r := (Accepting.init handlers).run ops
    r.1.ok = true ∧ acceptCalls r.2 = r.1.handlers ∧ (∀ b ∈ acceptAnswers (Accepting.init handlers) ops, b = true) ∧ .watch ∉ r.2 := by
  have := aux_ac_reached ops (Accepting.init handlers) [] [] (by simp [aux_ac_inv, Accepting.init, acceptCalls])
  simp only [List.nil_append] at this
  obtain ⟨h1, h2, h3, h4, h5⟩ := this
  simp only [Accepting.step] at h
  split at h
  · simp at h
  · next hf =>
    obtain ⟨g1, g2, g3, g4, g5, g6⟩ := h4 (by simpa using hf)
    split at h
    · split at h
      · simp at h
      · split at h <;> simp at h
    · next hx =>
      have hge : ((Accepting.init handlers).run ops).1.handlers.length ≤ ((Accepting.init handlers).run ops).1.pos := by simpa using hx
      refine ⟨?_, ?_, g6, g3⟩
      · unfold Accepting.register at h; split at h
        · assumption
        · simp at h
      · exact h3.eq_of_length (by have := h3.length_le; omega)

/-- When the function returns, the connection is either watched, with the one reference of the reader, every handler having
accepted it; or it is closed and no reference is left. -/
theorem C70_settled (handlers : List Nat) (ops : List AcceptOp) (hf : ((Accepting.init handlers).run ops).1.finished = true) :
    let r := (Accepting.init handlers).run ops
    (r.1.watched = true ∧ r.1.refs = 1 ∧ r.2.count .watch = 1 ∧ .refuse ∉ r.2 ∧
      ∀ b ∈ acceptAnswers (Accepting.init handlers) ops, b = true) ∨
    (r.1.watched = false ∧ r.1.refs = 0 ∧ r.1.ok = false ∧ .watch ∉ r.2) := by
  have := aux_ac_reached ops (Accepting.init handlers) [] [] (by simp [aux_ac_inv, Accepting.init, acceptCalls])
  simp only [List.nil_append] at this
  rcases this.2.2.2.2 hf with h | ⟨a, b, c, d, _⟩
  · exact .inl h
  · exact .inr ⟨a, b, c, d⟩

/-- A refusal is told to a peer that is still there, and the connection is closed at once. -/
theorem C70_refused (s : Accepting) (h : Nat) (hf : s.finished = false) (hh : s.handlers[s.pos]? = some h) :
    (s.step (.next false)).1.finished = true ∧ (s.step (.next false)).1.ok = false ∧ (s.step (.next false)).1.watched = s.watched ∧
    (s.ok = true → (s.step (.next false)).2 = [.call h, .refuse, .shut]) := by
  simp only [Accepting.step, hf, hh]
  simp

/-- Two handlers; a third one is installed while the first one runs; all accept. And one where the second one refuses. -/
example : ((Accepting.init [1, 2]).run [.add 3, .next true, .next true, .next true, .next true]).2 = [.call 1, .call 2, .call 3, .watch] ∧
    ((Accepting.init [1, 2, 3]).run [.next true, .next false, .next true]).2 = [.call 1, .call 2, .refuse, .shut] := by decide

end Verif.Props
