import Verif.Spec.MaskChecks
/-!
# C153 — profile masks installed while profiles are checked
-/
namespace Verif.Props
open Verif.Model Verif.Spec

theorem aux_pm_installed (a b : List PmkEvent) : PmkInstalled (a ++ b) = PmkInstalled a ++ PmkInstalled b := by
  induction a with
  | nil => rfl
  | cons e a ih => cases e <;> simp [PmkInstalled, ih]

theorem aux_pm_asked (t : Nat) (a b : List PmkEvent) : PmkAsked t (a ++ b) = PmkAsked t a ++ PmkAsked t b := by
  induction a with
  | nil => rfl
  | cons e a ih =>
    cases e with
    | asked u f c =>
      simp only [List.cons_append, PmkAsked]
      split <;> simp [ih]
    | _ => simpa [PmkAsked] using ih

theorem aux_pm_last (log pre post : List PmkEvent) (e x : PmkEvent) (h : log ++ [e] = pre ++ x :: post) :
    (pre = log ∧ x = e) ∨ ∃ p, log = pre ++ x :: p := by
  rcases List.eq_nil_or_concat post with hp | ⟨p, y, hp⟩
  · subst hp
    have := List.append_inj' h rfl
    exact Or.inl ⟨this.1.symm, by simpa using this.2.symm⟩
  · right
    refine ⟨p, ?_⟩
    rw [hp, List.concat_eq_append, ← List.cons_append, ← List.append_assoc] at h
    exact (List.append_inj' h rfl).1

/-- What holds of the log of a schedule. -/
def aux_pm_Good (log : List PmkEvent) : Prop := PmkIds log ∧ PmkPassed log ∧ PmkFiltered log

theorem aux_pm_snoc (log : List PmkEvent) (e : PmkEvent) (h : aux_pm_Good log)
    (h1 : ∀ f id, e = .installed f id → id = (PmkInstalled log).length)
    (h2 : ∀ t, e = .ended t false → PmkAsked t log = (PmkInstalled log).map (fun f => (f, false)))
    (h3 : ∀ t, e = .ended t true → ∃ before f after, PmkInstalled log = before ++ f :: after ∧
      PmkAsked t log = before.map (fun f => (f, false)) ++ [(f, true)]) : aux_pm_Good (log ++ [e]) := by
  refine ⟨?_, ?_, ?_⟩
  · intro pre f id post he
    rcases aux_pm_last _ _ _ _ _ he with ⟨hp, hx⟩ | ⟨p, hp⟩
    · rw [hp]; exact h1 f id hx.symm
    · exact h.1 pre f id p hp
  · intro pre t post he
    rcases aux_pm_last _ _ _ _ _ he with ⟨hp, hx⟩ | ⟨p, hp⟩
    · rw [hp]; exact h2 t hx.symm
    · exact h.2.1 pre t p hp
  · intro pre t post he
    rcases aux_pm_last _ _ _ _ _ he with ⟨hp, hx⟩ | ⟨p, hp⟩
    · rw [hp]; exact h3 t hx.symm
    · exact h.2.2 pre t p hp

/-- What a check asked so far. -/
def aux_pm_At (masks : List Nat) (asked : List (Nat × Bool)) : PmkPhase → Prop
  | .none => asked = []
  | .ready k => k ≤ masks.length ∧ asked = (masks.take k).map (fun f => (f, false))
  | .calling k f => masks[k]? = some f ∧ asked = (masks.take k).map (fun f => (f, false))
  | .over => True

def aux_pm_Inv (s : PmkState) : Prop :=
  s.masks = PmkInstalled s.log ∧ (∀ t, aux_pm_At s.masks (PmkAsked t s.log) (s.checks t)) ∧ aux_pm_Good s.log

theorem aux_pm_step (s : PmkState) (op : PmkOp) (m : PmkState) (h : aux_pm_Inv s) (hm : pmkStep s op = some m) : aux_pm_Inv m := by
  obtain ⟨h1, h2, h3⟩ := h
  cases op with
  | install f =>
    simp only [pmkStep, Option.some.injEq] at hm
    subst hm
    refine ⟨?_, ?_, ?_⟩
    · simp [aux_pm_installed, PmkInstalled, ← h1]
    · intro t
      have := h2 t
      dsimp only
      rw [aux_pm_asked]
      simp only [PmkAsked, List.append_nil]
      cases hp : s.checks t with
      | none => rw [hp] at this; exact this
      | ready k =>
        rw [hp] at this
        refine ⟨?_, ?_⟩
        · have := this.1; simp; omega
        · rw [List.take_append_of_le_length this.1]; exact this.2
      | calling k g =>
        rw [hp] at this
        have hk : k < s.masks.length := (List.getElem?_eq_some_iff.mp this.1).1
        refine ⟨?_, ?_⟩
        · rw [List.getElem?_append_left hk]; exact this.1
        · rw [List.take_append_of_le_length (Nat.le_of_lt hk)]; exact this.2
      | over => trivial
    · refine aux_pm_snoc _ _ h3 ?_ (by intro t h; cases h) (by intro t h; cases h)
      intro g id he
      cases he
      rw [h1]
  | check t =>
    simp only [pmkStep] at hm
    split at hm
    · rename_i hn
      cases hm
      refine ⟨h1, ?_, h3⟩
      intro k
      have := h2 k
      simp only [PmkState.move]
      split
      · rename_i hk
        subst hk
        rw [hn] at this
        exact ⟨Nat.zero_le _, this⟩
      · exact this
    · cases hm
  | next t =>
    simp only [pmkStep] at hm
    split at hm
    · rename_i k hr
      have ht := h2 t
      rw [hr] at ht
      split at hm
      · split at hm
        · rename_i f hf
          cases hm
          refine ⟨h1, ?_, h3⟩
          intro j
          simp only [PmkState.move]
          split
          · rename_i hj; subst hj; exact ⟨hf, ht.2⟩
          · exact h2 j
        · cases hm
      · rename_i hk
        cases hm
        refine ⟨?_, ?_, ?_⟩
        · simp [aux_pm_installed, PmkInstalled, PmkState.move, h1]
        · intro j
          dsimp only
          rw [aux_pm_asked]
          simp only [PmkAsked, List.append_nil, PmkState.move]
          split
          · trivial
          · exact h2 j
        · refine aux_pm_snoc _ _ h3 (by intro f id h; cases h) ?_ (by intro t h; cases h)
          intro u he
          cases he
          rw [ht.2, List.take_of_length_le (by omega), h1]
    · cases hm
  | answer t b =>
    simp only [pmkStep] at hm
    split at hm
    · rename_i k f hr
      have ht := h2 t
      rw [hr] at ht
      have hk : k < s.masks.length := (List.getElem?_eq_some_iff.mp ht.1).1
      have hg : s.masks[k] = f := (List.getElem?_eq_some_iff.mp ht.1).2
      have hgood : ∀ c, aux_pm_Good (s.log ++ [.asked t f c]) := fun c =>
        aux_pm_snoc _ _ h3 (by intro f id h; cases h) (by intro t h; cases h) (by intro t h; cases h)
      split at hm
      · cases hm
        refine ⟨?_, ?_, ?_⟩
        · simp [aux_pm_installed, PmkInstalled, PmkState.move, h1]
        · intro j
          dsimp only
          simp only [PmkState.move]
          split
          · trivial
          · rename_i hj
            rw [aux_pm_asked]
            have : t ≠ j := fun e => hj e.symm
            simp only [PmkAsked, this, if_false, List.append_nil]
            exact h2 j
        · dsimp only
          have e : s.log ++ [PmkEvent.asked t f true, .ended t true] = (s.log ++ [.asked t f true]) ++ [.ended t true] := by simp
          rw [e]
          refine aux_pm_snoc _ _ (hgood true) (by intro f id h; cases h) (by intro t h; cases h) ?_
          intro u he
          cases he
          refine ⟨s.masks.take k, f, s.masks.drop (k + 1), ?_, ?_⟩
          · rw [aux_pm_installed]
            simp only [PmkInstalled, List.append_nil, ← h1]
            rw [← hg, ← List.drop_eq_getElem_cons hk, List.take_append_drop]
          · rw [aux_pm_asked]
            simp only [PmkAsked, if_true, ht.2]
      · cases hm
        refine ⟨?_, ?_, hgood false⟩
        · simp [aux_pm_installed, PmkInstalled, PmkState.move, h1]
        · intro j
          dsimp only
          simp only [PmkState.move]
          split
          · rename_i hj
            subst hj
            refine ⟨hk, ?_⟩
            rw [aux_pm_asked]
            simp only [PmkAsked, if_true, ht.2]
            rw [List.take_add_one, ht.1]
            simp
          · rename_i hj
            rw [aux_pm_asked]
            have : t ≠ j := fun e => hj e.symm
            simp only [PmkAsked, this, if_false, List.append_nil]
            exact h2 j
    · cases hm

theorem aux_pm_run (ops : List PmkOp) : ∀ s t, aux_pm_Inv s → pmkRun s ops = some t → aux_pm_Inv t := by
  induction ops with
  | nil => intro s t h hr; simp only [pmkRun, Option.some.injEq] at hr; exact hr ▸ h
  | cons op ops ih =>
    intro s t h hr
    simp only [pmkRun] at hr
    cases hm : pmkStep s op with
    | none => rw [hm] at hr; cases hr
    | some m => rw [hm] at hr; exact ih m t (aux_pm_step s op m h hm) hr

theorem aux_pm_init : aux_pm_Inv pmkInit := by
  refine ⟨rfl, fun t => rfl, ?_, ?_, ?_⟩
  · intro pre f id post h; simp [pmkInit] at h
  · intro pre t post h; simp [pmkInit] at h
  · intro pre t post h; simp [pmkInit] at h

/-- In every schedule, also with masks installed while others are being called: identifiers are
the numbers of masks installed before; a profile let through was let through by every mask installed until the check returned; a
profile filtered was filtered by the first mask that does not let it through. -/
theorem C153_masks (ops : List PmkOp) (s : PmkState) (h : pmkRun pmkInit ops = some s) :
    PmkIds s.log ∧ PmkPassed s.log ∧ PmkFiltered s.log :=
  (aux_pm_run ops pmkInit s aux_pm_init h).2.2

/-- A mask installed by the first mask is asked too; a second check is filtered by it. -/
example : (pmkRun pmkInit [.install 5, .check 0, .next 0, .install 6, .answer 0 false, .next 0, .check 1, .answer 0 false, .next 1,
    .next 0, .answer 1 false, .next 1, .answer 1 true]).map (·.log) =
    some [.installed 5 0, .installed 6 1, .asked 0 5 false, .asked 0 6 false, .ended 0 false, .asked 1 5 false, .asked 1 6 true,
      .ended 1 true] := by decide +kernel

/-- No two masks have the same identifier. -/
theorem C153_distinct (ops : List PmkOp) (s : PmkState) (h : pmkRun pmkInit ops = some s) (a b c : List PmkEvent) (f g i j : Nat)
    (hl : s.log = a ++ .installed f i :: (b ++ .installed g j :: c)) : i < j := by
  have hi := (C153_masks ops s h).1
  have h1 := hi a f i _ hl
  have h2 := hi (a ++ .installed f i :: b) g j c (by rw [hl]; simp)
  rw [h1, h2, aux_pm_installed]
  simp [PmkInstalled]

/-- A check is never stuck: whatever the others do, it can go on until it has returned. -/
theorem C153_progress (ops : List PmkOp) (s : PmkState) (h : pmkRun pmkInit ops = some s) (t : Nat) :
    s.checks t = .none ∨ s.checks t = .over ∨ (pmkStep s (.next t)).isSome = true ∨ ∀ b, (pmkStep s (.answer t b)).isSome = true := by
  have hI := (aux_pm_run ops pmkInit s aux_pm_init h).2.1 t
  cases hp : s.checks t with
  | none => exact Or.inl rfl
  | over => exact Or.inr (Or.inl rfl)
  | ready k =>
    refine Or.inr (Or.inr (Or.inl ?_))
    simp only [pmkStep, hp]
    split
    · rename_i hk
      rw [List.getElem?_eq_getElem hk]
      rfl
    · rfl
  | calling k f =>
    refine Or.inr (Or.inr (Or.inr ?_))
    intro b
    simp only [pmkStep, hp]
    cases b <;> rfl

/-- A check during which no mask is installed returns after one call of every mask left at most. -/
theorem C153_ends (n : Nat) : ∀ (s : PmkState) (t k : Nat), s.checks t = .ready k → s.masks.length = k + n →
    ∃ m, pmkRun s ((List.replicate n [PmkOp.next t, .answer t false]).flatten ++ [.next t]) = some m ∧
      m.checks t = .over ∧ m.log.getLast? = some (.ended t false) := by
  induction n with
  | zero =>
    intro s t k hr hn
    refine ⟨{ s.move t .over with log := s.log ++ [.ended t false] }, ?_, ?_, ?_⟩
    · simp [pmkRun, pmkStep, hr, hn]
    · simp [PmkState.move]
    · simp
  | succ n ih =>
    intro s t k hr hn
    have hk : k < s.masks.length := by omega
    obtain ⟨m, hm, ho⟩ := ih { s.move t (.ready (k + 1)) with log := s.log ++ [.asked t s.masks[k] false] } t (k + 1)
      (by simp [PmkState.move]) (by simp only [PmkState.move]; omega)
    refine ⟨m, ?_, ho⟩
    rw [← hm]
    simp only [List.replicate_succ, List.flatten_cons, List.cons_append, List.nil_append]
    rw [pmkRun.eq_2]
    simp only [pmkStep, hr, hk, if_true, List.getElem?_eq_getElem hk, Option.bind_some]
    rw [pmkRun.eq_2]
    simp only [pmkStep, PmkState.move, if_true, Bool.false_eq_true, if_false, Option.bind_some]
    congr 1
    simp only [PmkState.mk.injEq, true_and, and_true]
    funext j
    split <;> rfl

example : ∃ s, pmkRun pmkInit [.install 5, .install 6, .check 0] = some s ∧ s.checks 0 = .ready 0 ∧ s.masks.length = 0 + 2 :=
  ⟨_, rfl, rfl, rfl⟩

end Verif.Props
