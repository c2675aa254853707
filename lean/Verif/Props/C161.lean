import Verif.Spec.PyTls
/-!
# C161 TLS started by Python programs
-/
namespace Verif.Props
open Verif.Model Verif.Spec

theorem aux_pt_append (s : PtsState) (a b : List PtsOp) : ptsRun s (a ++ b) = ptsRun (ptsRun s a) b := by simp [ptsRun]

def aux_pt_Inv (s : PtsState) : Prop := PtsExact s ∧ PtsHonest s ∧ ∀ c, s.obj = some c → c < s.next

theorem aux_pt_log (l : List (Bool × Option Nat)) (e : Bool × Option Nat) (h : ∀ x ∈ l, x.1 = true → x.2.isSome = true)
    (he : e.1 = true → e.2.isSome = true) : ∀ x ∈ l ++ [e], x.1 = true → x.2.isSome = true := by
  intro x hx
  simp only [List.mem_append, List.mem_singleton] at hx
  rcases hx with hx | hx
  · exact h x hx
  · rw [hx]; exact he

theorem aux_pt_same (s : PtsState) (c : Nat) (g : Bool) (hs : s.obj = some c) (h : aux_pt_Inv s) : aux_pt_Inv (ptsWrap s c g) := by
  obtain ⟨h1, h2, h3⟩ := h
  refine ⟨?_, aux_pt_log _ _ h2 (fun _ => rfl), ?_⟩
  · intro k
    have := h1 k
    rw [hs] at this
    have e : (ptsWrap s c g).refs k = s.refs k := by
      simp only [ptsWrap, ptsAdd]
      by_cases hk : k = c
      · simp only [hk, if_true]; omega
      · simp only [hk, if_false]
    rw [e, this]
    rfl
  · intro k hk
    simp only [ptsWrap, Option.some.injEq] at hk ⊢
    subst hk
    exact h3 c hs

theorem aux_pt_new (s : PtsState) (c : Nat) (g : Bool) (hs : s.obj = some c) (h : aux_pt_Inv s) :
    aux_pt_Inv (ptsWrap (ptsReplace s c g) s.next g) := by
  obtain ⟨h1, h2, h3⟩ := h
  have hc := h3 c hs
  refine ⟨?_, aux_pt_log _ _ h2 (fun _ => rfl), ?_⟩
  · intro k
    have := h1 k
    rw [hs] at this
    simp only [Option.some.injEq] at this
    simp only [ptsWrap, ptsReplace, ptsAdd, Option.some.injEq]
    by_cases e1 : k = s.next
    · have e2 : ¬ (k = c) := by omega
      have e3 : ¬ (c = k) := by omega
      rw [if_neg e3] at this
      rw [e1] at this
      simp only [e1, if_true, show ¬ (s.next = c) by omega, if_false]
      omega
    · by_cases e2 : k = c
      · subst e2
        simp only [e1, if_false, if_true, Ne.symm e1]
        rw [if_pos rfl] at this
        omega
      · rw [if_neg (Ne.symm e2)] at this
        simp only [e1, e2, if_false, Ne.symm e1]
        omega
  · intro k hk
    simp only [ptsWrap, ptsReplace, Option.some.injEq] at hk ⊢
    omega

theorem aux_pt_step (s : PtsState) (op : PtsOp) (h : aux_pt_Inv s) (hc : PtsCareful s op) : aux_pt_Inv (ptsStep s op) := by
  cases op with
  | fails =>
    simp only [ptsStep]
    split
    · exact h
    · exact h
  | collect =>
    simp only [ptsStep]
    split
    · rename_i c hs
      refine ⟨?_, h.2.1, fun k hk => by cases hk⟩
      intro k
      have := h.1 k
      rw [hs] at this
      simp only [Option.some.injEq] at this
      simp only [ptsAdd]
      by_cases e : k = c
      · subst e; simp at this ⊢; omega
      · rw [if_neg (Ne.symm e)] at this; simp [e, this]
    · exact h
  | start sync o =>
    simp only [ptsStep]
    split
    · rename_i hs
      refine ⟨h.1, aux_pt_log _ _ h.2.1 (fun e => by cases e), h.2.2⟩
    · rename_i c hs
      have hn := h.2.2 c hs
      cases sync with
      | false =>
        split
        · exact h
        · rename_i g d hd
          split
          · exact aux_pt_same s c g hs h
          · rename_i hne
            have : d = s.next := by
              unfold ptsLibrary at hd
              split at hd
              · simp at hd; exact absurd hd.2.symm hne
              · split at hd
                · simp at hd; exact absurd hd.2.symm hne
                · cases o <;> simp at hd
                  · exact absurd hd.2.symm hne
                  · exact hd.2.symm
                  · exact hd.2.symm
            subst this
            exact aux_pt_new s c g hs h
      | true =>
        obtain ⟨h1, h2, h3⟩ := hc c hs
        rcases h3 with rfl | rfl
        · have e : ptsLibrary s c .secured = some (true, s.next) := by simp [ptsLibrary, h1, h2]
          rw [e]
          simp only [show ¬ (s.next = c) by omega, if_false]
          exact aux_pt_new s c true hs h
        · have e : ptsLibrary s c .broken = some (false, s.next) := by simp [ptsLibrary, h1, h2]
          rw [e]
          simp only [show ¬ (s.next = c) by omega, if_false]
          exact aux_pt_new s c false hs h

theorem aux_pt_run (ops : List PtsOp) : ∀ s, aux_pt_Inv s →
    (∀ pre op post, ops = pre ++ op :: post → PtsCareful (ptsRun s pre) op) → aux_pt_Inv (ptsRun s ops) := by
  induction ops with
  | nil => intro s h _; exact h
  | cons op ops ih =>
    intro s h hc
    exact ih (ptsStep s op) (aux_pt_step s op h (hc [] op ops rfl)) (fun pre o post e => hc (op :: pre) o post (by rw [e]; rfl))

theorem aux_pt_init : aux_pt_Inv ptsInit := by
  refine ⟨?_, (by intro e he; cases he), fun c hc => ?_⟩
  · intro c
    simp only [ptsInit, Option.some.injEq]
    by_cases e : c = 0
    · simp [e]
    · simp [e, Ne.symm e]
  · simp only [ptsInit, Option.some.injEq] at hc ⊢; omega

/-- **C161, careful programs.** If every call without handler is made for a usable connection without TLS, and gets as far as a new
connection, no reference is lost or released too early, and success always comes with a connection. -/
theorem C161_careful_partial (ops : List PtsOp) (h : PtsCarefulRun ops) :
    PtsExact (ptsRun ptsInit ops) ∧ PtsHonest (ptsRun ptsInit ops) :=
  have := aux_pt_run ops ptsInit aux_pt_init h
  ⟨this.1, this.2.1⟩

/-- **C161, handlers.** Programs that always set a handler are careful, whatever happens. -/
theorem C161_handlers_partial (ops : List PtsOp) (h : ∀ o, PtsOp.start true o ∉ ops) :
    PtsExact (ptsRun ptsInit ops) ∧ PtsHonest (ptsRun ptsInit ops) := by
  apply C161_careful_partial
  intro pre op post e
  cases op with
  | fails => trivial
  | collect => trivial
  | start sync o =>
    cases sync with
    | false => trivial
    | true => exact absurd (by rw [e]; simp) (h o)

example : (ptsRun ptsInit [.start false .refused, .start true .secured, .start false .refused]).log =
      [(false, some 0), (true, some 1), (true, some 1)] ∧
    PtsCarefulRun [.start false .refused, .start true .secured] := by
  refine ⟨by decide +kernel, ?_⟩
  intro pre op post e
  match pre, e with
  | [], e => simp at e; rw [← e.1]; trivial
  | [x], e =>
    simp at e
    rw [← e.2.1, ← e.1]
    intro c hc
    have h0 : (ptsRun ptsInit [.start false .refused]).obj = some 0 := by decide +kernel
    rw [h0] at hc
    injection hc with hc
    subst hc
    exact ⟨by decide +kernel, by decide +kernel, Or.inl rfl⟩
  | x :: y :: pre, e => simp at e

theorem aux_pt_gone (ops : List PtsOp) : ∀ s : PtsState, s.obj = none → (ptsRun s ops).refs = s.refs ∧ (ptsRun s ops).obj = none := by
  induction ops with
  | nil => intro s h; exact ⟨rfl, h⟩
  | cons op ops ih =>
    intro s h
    have e : (ptsStep s op).refs = s.refs ∧ (ptsStep s op).obj = none := by
      cases op <;> simp [ptsStep, h]
    have := ih (ptsStep s op) e.2
    exact ⟨this.1.trans e.1, this.2⟩

/-- **C161 is violated**: for a connection that has TLS, a call without handler tells of success, gives an object without connection, and
the reference of the connection is never released, whatever the program does. -/
theorem C161_twice (s : PtsState) (c : Nat) (o : PtsOutcome) (hs : s.obj = some c) (hk : s.ok c = true) (ht : s.tls c = true)
    (ops : List PtsOp) :
    (ptsStep s (.start true o)).log = s.log ++ [(true, none)] ∧ (ptsRun s (.start true o :: ops)).refs c = s.refs c ∧
      (ptsRun s (.start true o :: ops)).obj = none := by
  have e : ptsStep s (.start true o) = { s with obj := none, log := s.log ++ [(true, none)] } := by
    simp [ptsStep, hs, ptsLibrary, hk, ht]
  have g := aux_pt_gone ops (ptsStep s (.start true o)) (by rw [e])
  refine ⟨by rw [e], ?_, g.2⟩
  show (ptsRun (ptsStep s (.start true o)) ops).refs c = _
  rw [g.1, e]

example : (ptsRun ptsInit [.start true .secured]).obj = some 1 ∧ (ptsRun ptsInit [.start true .secured]).ok 1 = true ∧
    (ptsRun ptsInit [.start true .secured]).tls 1 = true ∧ (ptsRun ptsInit [.start true .secured]).refs 1 = 1 := by decide +kernel

/-- **C161 is violated**: a call without handler that is refused, or not answered in time, takes the usable connection away from the
program, and its reference is never released. -/
theorem C161_refused (s : PtsState) (c : Nat) (o : PtsOutcome) (ho : o = .refused ∨ o = .silent) (hs : s.obj = some c)
    (hk : s.ok c = true) (ht : s.tls c = false) (ops : List PtsOp) :
    (ptsStep s (.start true o)).log = s.log ++ [(false, none)] ∧ (ptsStep s (.start true o)).ok c = true ∧
      (ptsRun s (.start true o :: ops)).refs c = s.refs c ∧ (ptsRun s (.start true o :: ops)).obj = none := by
  have e : ptsStep s (.start true o) = { s with obj := none, log := s.log ++ [(false, none)] } := by
    rcases ho with rfl | rfl <;> simp [ptsStep, hs, ptsLibrary, hk, ht]
  have g := aux_pt_gone ops (ptsStep s (.start true o)) (by rw [e])
  refine ⟨by rw [e], by rw [e]; exact hk, ?_, g.2⟩
  show (ptsRun (ptsStep s (.start true o)) ops).refs c = _
  rw [g.1, e]

/-- C161 does not hold as stated. -/
theorem C161_statement_false : ¬ C161_statement := by
  intro h
  have := (h [.start true .refused]).1 0
  revert this
  decide +kernel

end Verif.Props
