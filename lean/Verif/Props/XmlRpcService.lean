import Verif.Proof.XmlEq
/-!
# C53: which service handles an XML-RPC call
-/
namespace Verif.Props
open Verif.Model

/-- The property: a call on a channel that was accepted is handed to one service only, one that accepts the resource of
the channel. -/
def C53_statement : Prop :=
  ∀ services : List XService, (∃ s ∈ services, s.accepts = true) →
    (handOver 0 services).1.length ≤ 1 ∧
    ∀ i ∈ (handOver 0 services).1, ∃ s, services[i]? = some s ∧ s.accepts = true

/-- **Violation**: a service that does not accept the resource gets the call nevertheless, and its answer is sent. -/
theorem C53_refused_resource :
    handOver 0 [⟨false, some (.ok (.int 1))⟩, ⟨true, some (.ok (.int 2))⟩] = ([0], some (.ok (.int 1))) := rfl

/-- **Violation**: when it defers its answer, a second service gets the same call. -/
theorem C53_handed_twice : handOver 0 [⟨false, none⟩, ⟨true, none⟩] = ([0, 1], none) := rfl

theorem C53_statement_false : ¬ C53_statement := by
  intro h
  have := (h [⟨false, none⟩, ⟨true, none⟩] ⟨⟨true, none⟩, by simp, rfl⟩).1
  rw [C53_handed_twice] at this
  exact absurd this (by decide)

/-- **C53**, partial: when the first service accepts the resource, it alone gets the call. Missing: services that refuse
the resource in front of it, see the violations. -/
theorem C53_first_partial (s : XService) (rest : List XService) (h : s.accepts = true) :
    handOver 0 (s :: rest) = ([0], s.answer) := by
  simp [handOver, h]

/-- Which services get the call, in general: the first ones, in order, each once; behind the last of them nobody; all but
the last one refuse the resource and defer; the response is the answer of the last one. -/
theorem C53_who (services : List XService) :
    ∃ n, (handOver 0 services).1 = List.range n ∧ n ≤ services.length ∧
      (∀ i s, i + 1 < n → services[i]? = some s → s.accepts = false ∧ s.answer = none) ∧
      (∀ s, 0 < n → services[n - 1]? = some s → (handOver 0 services).2 = s.answer ∧
        (n < services.length → s.accepts = true ∨ s.answer.isSome = true)) ∧
      (n = 0 → services = []) := by
  suffices H : ∀ (l : List XService) (i : Nat), ∃ n, (handOver i l).1 = List.range' i n ∧ n ≤ l.length ∧
      (∀ j s, j + 1 < n → l[j]? = some s → s.accepts = false ∧ s.answer = none) ∧
      (∀ s, 0 < n → l[n - 1]? = some s → (handOver i l).2 = s.answer ∧
        (n < l.length → s.accepts = true ∨ s.answer.isSome = true)) ∧ (n = 0 → l = []) by
    obtain ⟨n, h1, h2⟩ := H services 0
    exact ⟨n, by rw [h1, List.range_eq_range'], h2⟩
  intro l
  induction l with
  | nil => intro i; exact ⟨0, rfl, by simp, by simp, by simp, by simp⟩
  | cons s rest ih =>
    intro i
    by_cases ha : s.accepts = true
    · refine ⟨1, by simp [handOver, ha], by simp, by simp, ?_, by simp⟩
      intro t _ ht
      simp at ht; subst ht
      exact ⟨by simp [handOver, ha], fun _ => .inl ha⟩
    · cases hr : s.answer with
      | some r =>
        refine ⟨1, by simp [handOver, ha, hr], by simp, by simp, ?_, by simp⟩
        intro t _ ht
        simp at ht; subst ht
        exact ⟨by simp [handOver, ha, hr], fun _ => .inr (by simp [hr])⟩
      | none =>
        obtain ⟨n, h1, h2, h3, h4, h5⟩ := ih (i + 1)
        refine ⟨n + 1, by simp [handOver, ha, hr, h1, List.range'], by simpa using h2, ?_, ?_, by simp⟩
        · intro j t hj ht
          cases j with
          | zero => simp at ht; subst ht; exact ⟨by simpa using ha, hr⟩
          | succ j => exact h3 j t (by omega) (by simpa using ht)
        · intro t _ ht
          cases n with
          | zero =>
            have := h5 rfl
            subst this
            simp at ht; subst ht
            exact ⟨by simp [handOver, ha, hr], by simp⟩
          | succ n =>
            have := h4 t (by omega) (by simpa using ht)
            refine ⟨by simp [handOver, ha, hr, this.1], fun hl => this.2 (by simpa using hl)⟩

/-- A channel is opened exactly when some service accepts its resource. -/
theorem C53_boot (services : List XService) : bootAccepted services = true ↔ ∃ s ∈ services, s.accepts = true := by
  induction services with
  | nil => simp [bootAccepted]
  | cons s rest ih => simp [bootAccepted, ih]

/-- If no service refuses the resource, exactly the first one gets the call. -/
theorem C53_all_accept_partial (services : List XService) (h : ∀ s ∈ services, s.accepts = true) :
    (handOver 0 services).1.length ≤ 1 ∧
    ∀ i ∈ (handOver 0 services).1, ∃ s, services[i]? = some s ∧ s.accepts = true := by
  cases services with
  | nil => simp [handOver]
  | cons s rest =>
    have hs := h s (by simp)
    simp [handOver, hs]

example : handOver 0 [⟨true, some (.ok (.int 1))⟩, ⟨true, some (.ok (.int 2))⟩] = ([0], some (.ok (.int 1))) := rfl

end Verif.Props
