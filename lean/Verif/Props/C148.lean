import Verif.Spec.PyEvents
/-!
# C148 — timed events of the Python bindings
-/
namespace Verif.Props
open Verif.Model Verif.Spec

/-- The state agrees with the life of event `k`. -/
def aux_ye_Inv (k : Nat) (s : PyeState) (l : PyeLife) : Prop :=
  l.made = s.made ∧ l.over = s.over ∧ (k ∈ s.pool ↔ l.fate = .installed) ∧
  (k ∈ s.held ↔ l.fate = .installed ∨ l.fate = .removed ∨ l.fate = .dropped) ∧
  (l.fate = .unborn ↔ s.made ≤ k) ∧ (s.over = true → l.fate ≠ .installed) ∧
  (∀ j, s.orphan = some j → j < s.made) ∧ (s.orphan = some k → l.fate = .refused)

theorem aux_ye_act (k : Nat) (s : PyeState) (l : PyeLife) (h : aux_ye_Inv k s l) (a : PyeAct) :
    aux_ye_Inv k (pyeAct s a) (PyeSee k l a) := by
  obtain ⟨h1, h2, h3, h4, h5, h6, h7, h8⟩ := h
  cases a with
  | new =>
    by_cases ho : s.over = true
    · simp only [pyeAct, PyeSee, if_pos ho]
      by_cases hk : l.made = k
      · have hf : l.fate = .unborn := h5.2 (by omega)
        have hlo : l.over = true := by rw [h2]; exact ho
        refine ⟨by dsimp only; omega, h2, ?_, ?_, ?_, ?_, ?_, ?_⟩ <;> dsimp only
        · rw [h3, hf]; simp [hk, hlo]
        · rw [h4, hf]; simp [hk, hlo]
        · simp [hk, hlo]; omega
        · intro _; simp [hk, hlo]
        · intro j hj; cases hj; omega
        · intro _; simp [hk, hlo]
      · refine ⟨by dsimp only; omega, h2, ?_, ?_, ?_, ?_, ?_, ?_⟩ <;> dsimp only
        · simpa [hk] using h3
        · simpa [hk] using h4
        · simp only [hk, if_false]; rw [h5]; omega
        · intro h; simpa [hk] using h6 h
        · intro j hj; cases hj; omega
        · intro hj; cases hj; exact absurd h1 hk
    · simp only [pyeAct, PyeSee, if_neg ho]
      have hlo : l.over = false := by rw [h2]; simpa using ho
      by_cases hk : l.made = k
      · have hf : l.fate = .unborn := h5.2 (by omega)
        refine ⟨by dsimp only; omega, h2, ?_, ?_, ?_, ?_, ?_, ?_⟩ <;> dsimp only
        · simp [hk, hlo]; right; omega
        · simp [hk, hlo]; right; omega
        · simp [hk, hlo]; omega
        · intro h; exact absurd h ho
        · intro j hj; have := h7 j hj; omega
        · intro hj; have := h7 k hj; omega
      · refine ⟨by dsimp only; omega, h2, ?_, ?_, ?_, ?_, ?_, ?_⟩ <;> dsimp only
        · have : ¬ k = s.made := by omega
          simp [hk, this]; exact h3
        · have : ¬ k = s.made := by omega
          simp [hk, this]; exact h4
        · simp only [hk, if_false]; rw [h5]; omega
        · intro h; exact absurd h ho
        · intro j hj; have := h7 j hj; omega
        · intro hj; simpa [hk] using h8 hj
  | remove j =>
    simp only [pyeAct, PyeSee]
    by_cases hj : j = k
    · subst hj
      by_cases hi : l.fate = .installed
      · refine ⟨h1, h2, ?_, ?_, ?_, ?_, h7, ?_⟩ <;> dsimp only
        · simp [hi]
        · rw [h4]; simp [hi]
        · simp [hi]; rw [← Nat.not_le, ← h5, hi]; simp
        · intro _; simp [hi]
        · intro h; have := h8 h; rw [hi] at this; cases this
      · refine ⟨h1, h2, ?_, ?_, ?_, ?_, h7, ?_⟩ <;> dsimp only
        · simp [hi]
        · simpa [hi] using h4
        · simpa [hi] using h5
        · intro h; simpa [hi] using hi
        · intro h; simpa [hi] using h8 h
    · have hj' : ¬ k = j := fun e => hj e.symm
      refine ⟨h1, h2, ?_, ?_, ?_, ?_, h7, ?_⟩ <;> dsimp only
      · simpa [hj, hj'] using h3
      · simpa [hj] using h4
      · simpa [hj] using h5
      · intro h; simpa [hj] using h6 h
      · intro h; simpa [hj] using h8 h

theorem aux_ye_acts (k : Nat) (as : List PyeAct) : ∀ (s : PyeState) (l : PyeLife), aux_ye_Inv k s l →
    aux_ye_Inv k (as.foldl pyeAct s) (as.foldl (PyeSee k) l) := by
  induction as with
  | nil => intro s l h; exact h
  | cons a as ih => intro s l h; exact ih _ _ (aux_ye_act k s l h a)

/-- What an action leaves alone. -/
theorem aux_ye_actKeeps (as : List PyeAct) : ∀ (s : PyeState),
    (as.foldl pyeAct s).calls = s.calls ∧ (as.foldl pyeAct s).bad = s.bad ∧ (as.foldl pyeAct s).tuples = s.tuples ∧
    (∀ k, k ∈ s.held → k ∈ (as.foldl pyeAct s).held) := by
  induction as with
  | nil => intro s; exact ⟨rfl, rfl, rfl, fun k h => h⟩
  | cons a as ih =>
    intro s
    obtain ⟨i1, i2, i3, i4⟩ := ih (pyeAct s a)
    have hb : (pyeAct s a).calls = s.calls ∧ (pyeAct s a).bad = s.bad ∧ (pyeAct s a).tuples = s.tuples ∧
        (∀ k, k ∈ s.held → k ∈ (pyeAct s a).held) := by
      cases a with
      | new =>
        by_cases ho : s.over = true
        · simp [pyeAct, ho]
        · simp [pyeAct, ho]; intro k h; exact Or.inl h
      | remove j => simp [pyeAct]
    exact ⟨i1.trans hb.1, i2.trans hb.2.1, i3.trans hb.2.2.1, fun k h => i4 k (hb.2.2.2 k h)⟩

/-- An installed event keeps its fate but for `removed` during its handler. -/
theorem aux_ye_seeFate (k : Nat) (as : List PyeAct) : ∀ (l : PyeLife), l.fate ≠ .unborn → k < l.made →
    (as.foldl (PyeSee k) l).fate = l.fate ∨ (l.fate = .installed ∧ (as.foldl (PyeSee k) l).fate = .removed) := by
  induction as with
  | nil => intro l _ _; exact Or.inl rfl
  | cons a as ih =>
    intro l hl hm
    simp only [List.foldl_cons]
    cases a with
    | new =>
      have hk : ¬ l.made = k := by omega
      have := ih (PyeSee k l .new) (by simpa [PyeSee, hk] using hl) (by simp [PyeSee]; omega)
      simpa [PyeSee, hk] using this
    | remove j =>
      by_cases hj : j = k ∧ l.fate = .installed
      · have := ih (PyeSee k l (.remove j)) (by simp [PyeSee, hj]) (by simpa [PyeSee] using hm)
        simp only [PyeSee, if_pos hj] at this ⊢
        rcases this with h | ⟨h, _⟩
        · right; exact ⟨hj.2, h⟩
        · cases h
      · have := ih (PyeSee k l (.remove j)) (by simpa [PyeSee, hj] using hl) (by simpa [PyeSee] using hm)
        simpa only [PyeSee, if_neg hj] using this

theorem aux_ye_calls (k : Nat) (s : PyeState) (l : PyeLife) (c : List Nat) (b : Bool) (h : aux_ye_Inv k s l) :
    aux_ye_Inv k { s with calls := c, bad := b } l := h

/-- The end of the handler of event `j` seen from event `k`. -/
theorem aux_ye_end (k j : Nat) (out : PyeOut) (s : PyeState) (l : PyeLife) (h : aux_ye_Inv k s l)
    (hj : j = k → l.fate = .installed ∨ l.fate = .removed) :
    aux_ye_Inv k (pyeEnd s j out) (if j = k ∧ (out = .yes ∨ out = .raised) then { l with fate := .ended } else l) := by
  obtain ⟨h1, h2, h3, h4, h5, h6, h7, h8⟩ := h
  have hbase : aux_ye_Inv k s l := ⟨h1, h2, h3, h4, h5, h6, h7, h8⟩
  by_cases hk : j = k
  · subst hk
    have hf := hj rfl
    have hm : ¬ s.made ≤ j := by rw [← h5]; rcases hf with h | h <;> rw [h] <;> simp
    have hr : ¬ l.fate = .refused := by rcases hf with h | h <;> rw [h] <;> simp
    cases out with
    | no => rw [if_neg (by simp)]; exact hbase
    | unread => rw [if_neg (by simp)]; exact hbase
    | yes =>
      simp only [pyeEnd]
      refine ⟨h1, h2, ?_, ?_, ?_, ?_, h7, ?_⟩ <;> dsimp only
      · simp
      · simp
      · simp; omega
      · intro _; simp
      · intro h; exact absurd (h8 h) hr
    | raised =>
      simp only [pyeEnd]
      refine ⟨h1, h2, ?_, ?_, ?_, ?_, h7, ?_⟩ <;> dsimp only
      · simp
      · simp
      · simp; omega
      · intro _; simp
      · intro h; exact absurd (h8 h) hr
  · have hk' : ¬ k = j := fun e => hk e.symm
    simp only [hk, false_and, if_false]
    cases out with
    | no => exact hbase
    | unread => exact hbase
    | yes => exact ⟨h1, h2, by simpa [pyeEnd, hk'] using h3, by simpa [pyeEnd, hk'] using h4, h5, h6, h7, h8⟩
    | raised => exact ⟨h1, h2, by simpa [pyeEnd, hk'] using h3, by simpa [pyeEnd, hk'] using h4, h5, h6, h7, h8⟩

theorem aux_ye_step (k : Nat) (s : PyeState) (l : PyeLife) (h : aux_ye_Inv k s l) (op : PyeOp) :
    aux_ye_Inv k (pyeStep s op) (PyeFollow k l op) := by
  cases op with
  | act a => exact aux_ye_act k s l h a
  | exit =>
    obtain ⟨h1, h2, h3, h4, h5, h6, h7, h8⟩ := h
    simp only [pyeStep, PyeFollow]
    by_cases hi : l.fate = .installed
    · refine ⟨h1, rfl, ?_, ?_, ?_, ?_, h7, ?_⟩ <;> dsimp only
      · simp [hi]
      · rw [h4]; simp [hi]
      · simp [hi]; rw [← Nat.not_le, ← h5, hi]; simp
      · intro _; simp [hi]
      · intro h; have := h8 h; rw [hi] at this; cases this
    · refine ⟨h1, rfl, ?_, ?_, ?_, ?_, h7, ?_⟩ <;> dsimp only
      · simp [hi]
      · simpa [hi] using h4
      · simpa [hi] using h5
      · intro _; simpa [hi] using hi
      · intro h; simpa [hi] using h8 h
  | fire j inner out =>
    simp only [pyeStep, PyeFollow]
    by_cases hp : j ∈ s.pool
    · rw [if_pos (by simpa using hp)]
      have hi := aux_ye_acts k inner _ l (aux_ye_calls k s l (s.calls ++ [j]) (s.bad || !s.held.contains j) h)
      by_cases hk : j = k
      · subst hk
        have hin := h.2.2.1.1 hp
        have hm : j < l.made := by
          have := h.2.2.2.2.1; rw [h.1]; rw [hin] at this; simp at this; omega
        have hs := aux_ye_seeFate j inner l (by rw [hin]; simp) hm
        have he := aux_ye_end j j out _ _ hi (fun _ => by
          rcases hs with h | h
          · left; rw [h, hin]
          · right; exact h.2)
        simpa [hin] using he
      · have he := aux_ye_end k j out _ _ hi (fun e => absurd e hk)
        simpa [hk] using he
    · rw [if_neg (by simpa using hp)]
      have hi := aux_ye_acts k inner s l h
      have : ¬ (j = k ∧ l.fate = .installed ∧ (out = .yes ∨ out = .raised)) := by
        rintro ⟨rfl, hf, _⟩; exact hp (h.2.2.1.2 hf)
      rw [if_neg this]
      exact hi

theorem aux_ye_fold (k : Nat) (ops : List PyeOp) : ∀ s l, aux_ye_Inv k s l →
    aux_ye_Inv k (ops.foldl pyeStep s) (ops.foldl (PyeFollow k) l) := by
  induction ops with
  | nil => intro s l h; exact h
  | cons o ops ih => intro s l h; exact ih _ _ (aux_ye_step k s l h o)

theorem aux_ye_inv (k : Nat) (ops : List PyeOp) :
    aux_ye_Inv k (pyeRun ops) (ops.foldl (PyeFollow k) ⟨0, false, .unborn⟩) :=
  aux_ye_fold k ops _ _ ⟨rfl, rfl, by simp, by simp, by simp, by simp, by simp, by simp⟩

theorem aux_ye_run (ops : List PyeOp) (op : PyeOp) : pyeRun (ops ++ [op]) = pyeStep (pyeRun ops) op := by
  simp [pyeRun, List.foldl_append]

theorem aux_ye_pool (ops : List PyeOp) (k : Nat) : k ∈ (pyeRun ops).pool ↔ PyeFateOf k ops = .installed :=
  (aux_ye_inv k ops).2.2.1

theorem aux_ye_held (ops : List PyeOp) (k : Nat) :
    k ∈ (pyeRun ops).held ↔ PyeFateOf k ops = .installed ∨ PyeFateOf k ops = .removed ∨ PyeFateOf k ops = .dropped :=
  (aux_ye_inv k ops).2.2.2.1

/-- **C148** (partial): whatever happens while a handler runs, the handler of an
event is called, when its time comes, exactly while the event is installed. -/
theorem C148_calls_partial (ops : List PyeOp) (k : Nat) (inner : List PyeAct) (out : PyeOut) :
    (pyeRun (ops ++ [.fire k inner out])).calls = (pyeRun ops).calls ++ (if PyeFateOf k ops = .installed then [k] else []) := by
  rw [aux_ye_run]
  have hp := aux_ye_pool ops k
  by_cases hf : PyeFateOf k ops = .installed
  · have : (pyeRun ops).pool.contains k = true := by simpa using hp.2 hf
    simp only [pyeStep, this, if_true, if_pos hf]
    have hk := (aux_ye_actKeeps inner { pyeRun ops with calls := (pyeRun ops).calls ++ [k], bad := (pyeRun ops).bad || !(pyeRun ops).held.contains k }).1
    cases out <;> simpa [pyeEnd] using hk
  · have : ¬ (pyeRun ops).pool.contains k = true := by simpa using fun h => hf (hp.1 h)
    simp only [pyeStep, if_neg this, if_neg hf, List.append_nil]
    exact (aux_ye_actKeeps inner (pyeRun ops)).1

/-- An event called twice, removed by another thread while its handler runs, and not called any more. -/
example : (pyeRun [.act .new, .fire 0 [] .no, .fire 0 [.remove 0, .new] .no, .fire 0 [] .no, .fire 1 [] .unread]).calls = [0, 0, 1] := by
  decide +kernel

/-- **C148** (partial): no history uses what was kept for an event after it was released. -/
theorem C148_safe_partial (ops : List PyeOp) : (pyeRun ops).bad = false := by
  have key : ∀ pre : List PyeOp, (pyeRun pre).bad = false → ∀ op, (pyeRun (pre ++ [op])).bad = false := by
    intro pre hb op
    rw [aux_ye_run]
    cases op with
    | act a => exact ((aux_ye_actKeeps [a] (pyeRun pre)).2.1).trans hb
    | exit => exact hb
    | fire k inner out =>
      simp only [pyeStep]
      split
      · rename_i hp
        have hk : k ∈ (pyeRun pre).held := (aux_ye_held pre k).2 (Or.inl ((aux_ye_pool pre k).1 (by simpa using hp)))
        have hkeep := aux_ye_actKeeps inner { pyeRun pre with calls := (pyeRun pre).calls ++ [k], bad := (pyeRun pre).bad || !(pyeRun pre).held.contains k }
        have h1 := hkeep.2.1
        have h2 := hkeep.2.2.2 k hk
        generalize List.foldl pyeAct { pyeRun pre with calls := (pyeRun pre).calls ++ [k], bad := (pyeRun pre).bad || !(pyeRun pre).held.contains k } inner = t at h1 h2 ⊢
        have h3 : t.bad = false := by rw [h1]; simp [hb, hk]
        cases out <;> simp [pyeEnd, h3, h2]
      · exact ((aux_ye_actKeeps inner (pyeRun pre)).2.1).trans hb
  have all : ∀ r : List PyeOp, (pyeRun r.reverse).bad = false := by
    intro r
    induction r with
    | nil => rfl
    | cons o r ih => rw [List.reverse_cons]; exact key _ ih o
  simpa using all ops.reverse

example : (pyeRun [.act .new, .fire 0 [.remove 0] .yes, .exit, .act .new]).bad = false := C148_safe_partial _

/-- **C148** (partial): before `exit`, `remove_event` tells whether it removed the event. -/
theorem C148_answers_partial (ops : List PyeOp) (k : Nat) (he : .exit ∉ ops) :
    ∃ b, (pyeRun (ops ++ [.act (.remove k)])).answers = (pyeRun ops).answers ++ [b] ∧ (b = true ↔ PyeFateOf k ops = .installed) := by
  have ho : (pyeRun ops).over = false := by
    have key : ∀ (l : List PyeOp) (s : PyeState), .exit ∉ l → s.over = false → (l.foldl pyeStep s).over = false := by
      have hact : ∀ (as : List PyeAct) (s : PyeState), s.over = false → (as.foldl pyeAct s).over = false := by
        intro as
        induction as with
        | nil => intro s h; exact h
        | cons a as ih =>
          intro s h
          refine ih _ ?_
          cases a <;> simp [pyeAct, h]
      intro l
      induction l with
      | nil => intro s _ h; exact h
      | cons o l ih =>
        intro s hx h
        refine ih _ (fun hh => hx (by simp [hh])) ?_
        cases o with
        | act a => exact hact [a] s h
        | exit => exact absurd (by simp) hx
        | fire j inner out =>
          simp only [pyeStep]
          split
          · have := hact inner { s with calls := s.calls ++ [j], bad := s.bad || !s.held.contains j } h
            cases out <;> simpa [pyeEnd] using this
          · exact hact inner s h
    exact key ops _ he rfl
  refine ⟨(pyeRun ops).pool.contains k, ?_, ?_⟩
  · rw [aux_ye_run]; simp [pyeStep, pyeAct, ho]
  · rw [← aux_ye_pool ops k]; simp

example : (pyeRun [.act .new, .act .new, .fire 0 [] .yes, .act (.remove 0), .act (.remove 1), .act (.remove 1)]).answers = [false, true, false] := by
  decide +kernel

/-- **C148** (partial): what the bindings keep for events: it is kept while the event is installed, and let go when the
handler asks for the end; but it is kept too, for good, for an event removed and for one that was installed at `exit`. -/
theorem C148_kept_partial (ops : List PyeOp) (k : Nat) :
    k ∈ (pyeRun ops).held ↔ PyeFateOf k ops = .installed ∨ PyeFateOf k ops = .removed ∨ PyeFateOf k ops = .dropped :=
  aux_ye_held ops k

example : (pyeRun [.act .new, .act .new, .act .new, .fire 1 [] .yes, .act (.remove 0), .exit]).held = [0, 2] := by decide +kernel

/-- Data under the identifier -1 is that of a call of `new_event` made after `exit`. -/
theorem C148_orphan_partial (ops : List PyeOp) (k : Nat) (h : (pyeRun ops).orphan = some k) : PyeFateOf k ops = .refused :=
  (aux_ye_inv k ops).2.2.2.2.2.2.2 h

example : PyeFateOf 1 [.act .new, .exit, .act .new] = .refused := C148_orphan_partial _ 1 (by decide +kernel)

/-- A violation: the context is referred to for an event that was removed. -/
theorem C148_removedKept (ops : List PyeOp) (k : Nat) (h : PyeFateOf k ops = .removed) : PyeRefers (pyeRun ops) k :=
  Or.inl ((aux_ye_held ops k).2 (Or.inr (Or.inl h)))

example : PyeFateOf 0 [.act .new, .act (.remove 0)] = .removed := by decide +kernel

/-- A violation: and for one that was installed when the context was finished, so that such a context is never collected. -/
theorem C148_exitKept (ops : List PyeOp) (k : Nat) (h : PyeFateOf k ops = .dropped) : PyeRefers (pyeRun ops) k :=
  Or.inl ((aux_ye_held ops k).2 (Or.inr (Or.inr h)))

example : PyeFateOf 0 [.act .new, .exit] = .dropped := by decide +kernel

/-- A violation: every handler that raises leaves its arguments, the context among them, for good. -/
theorem C148_raisedKept (ops : List PyeOp) (k : Nat) (inner : List PyeAct) (h : PyeFateOf k ops = .installed) :
    PyeRefers (pyeRun (ops ++ [.fire k inner .raised])) k := by
  right; right
  rw [aux_ye_run]
  have : (pyeRun ops).pool.contains k = true := by simpa using (aux_ye_pool ops k).2 h
  simp only [pyeStep, if_pos this, pyeEnd, List.mem_append, List.mem_singleton, or_true]

example : PyeFateOf 0 [.act .new, .fire 0 [] .no] = .installed := by decide +kernel

/-- A violation: after `exit`, `remove_event` says that it removed any event, and `new_event` keeps what it was given. -/
theorem C148_afterExit (ops : List PyeOp) (k : Nat) :
    (pyeRun (ops ++ [.exit] ++ [.act (.remove k)])).answers = (pyeRun (ops ++ [.exit])).answers ++ [true] ∧
    PyeRefers (pyeRun (ops ++ [.exit] ++ [.act .new])) (pyeRun (ops ++ [.exit])).made := by
  constructor
  · rw [aux_ye_run, aux_ye_run]; simp [pyeStep, pyeAct]
  · right; left
    rw [aux_ye_run, aux_ye_run]; simp [pyeStep, pyeAct]

example : (pyeRun [.exit, .act (.remove 7)]).answers = [true] := (C148_afterExit [] 7).1

theorem C148_statement_false : ¬ C148_statement := by
  intro h
  have := ((h [.act .new, .act (.remove 0)]).2.2.2 0).1 (C148_removedKept _ _ (by decide +kernel))
  revert this
  decide +kernel

end Verif.Props
