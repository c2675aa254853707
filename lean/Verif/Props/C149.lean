import Verif.Spec.LuaLocks
/-!
# C149 — one thread at a time runs Lua code
-/
namespace Verif.Props
open Verif.Model Verif.Spec

/-- The thread is inside something that holds the lock of state 0. -/
def aux_ll_Has (s : LlkState) (t : Nat) : Prop :=
  if t = 0 then s.places 0 = .lua 0 ∨ s.places 0 = .wait .events 0 else s.places t ≠ .out

/-- What thread `t` has of the lock of its own state. -/
def aux_ll_Own (s : LlkState) (t : Nat) : Prop :=
  match s.places t with
  | .out => s.locks t = none ∨ s.locks t = some (some t)
  | .lua r => r = 0 ∧ (s.locks t = none ∨ s.locks t = some (some t))
  | .wait .events r => r = 0 ∧ (s.locks t = none ∨ s.locks t = some (some t))
  | .wait .listeners _ => False
  | .wait _ r => r = 0 ∧ (s.locks t = none ∨ s.locks t = some none)
  | .inner r => r = 0 ∧ (s.locks t = none ∨ s.locks t = some none)
  | .touch => False

/-- The invariant. -/
def aux_ll_Inv (s : LlkState) : Prop :=
  (∀ r ∈ s.regs, r = 0) ∧ s.bad = false ∧
  (s.places 0 = .lua 0 ∨ ∃ k, k ≠ .listeners ∧ s.places 0 = .wait k 0) ∧
  (∃ h, s.locks 0 = some h ∧ ∀ t, h = some t ↔ aux_ll_Has s t) ∧
  (∀ t, t ≠ 0 → aux_ll_Own s t)

theorem aux_ll_set_same {α : Type} (f : Nat → α) (i : Nat) (v : α) : llkSet f i v i = v := by simp [llkSet]

theorem aux_ll_set_ne {α : Type} (f : Nat → α) (i : Nat) (v : α) (j : Nat) (h : j ≠ i) : llkSet f i v j = f j := by simp [llkSet, h]

theorem aux_ll_init : aux_ll_Inv llkInit := by
  refine ⟨by simp [llkInit], rfl, Or.inl rfl, ⟨some 0, rfl, ?_⟩, ?_⟩
  · intro t
    by_cases ht : t = 0
    · subst ht; simp [aux_ll_Has, llkInit, llkSet]
    · simp only [aux_ll_Has, if_neg ht, llkInit, aux_ll_set_ne _ _ _ _ ht]
      constructor
      · intro h; exact absurd (Option.some.inj h).symm ht
      · intro h; exact absurd rfl h
  · intro t ht
    simp [aux_ll_Own, llkInit, aux_ll_set_ne _ _ _ _ ht]

/-- A thread other than 0 changes its place, not to or from `out`, and its own lock only. -/
theorem aux_ll_move (s s' : LlkState) (t : Nat) (ht : t ≠ 0) (h : aux_ll_Inv s)
    (hr : s'.regs = s.regs) (hb : s'.bad = false) (hp : ∀ u, u ≠ t → s'.places u = s.places u) (hl : ∀ u, u ≠ t → s'.locks u = s.locks u)
    (ho : s.places t ≠ .out) (ho' : s'.places t ≠ .out) (hown : aux_ll_Own s' t) : aux_ll_Inv s' := by
  obtain ⟨h1, h2, h3, ⟨hh, h4, h5⟩, h6⟩ := h
  have h0 : (0 : Nat) ≠ t := fun e => ht e.symm
  refine ⟨by rw [hr]; exact h1, hb, by rw [hp 0 h0]; exact h3, ⟨hh, by rw [hl 0 h0]; exact h4, ?_⟩, ?_⟩
  · intro u
    rw [h5 u]
    by_cases hu : u = t
    · subst hu; simp [aux_ll_Has, ht, ho, ho']
    · by_cases hu0 : u = 0
      · subst hu0; simp [aux_ll_Has, hp 0 h0]
      · simp [aux_ll_Has, hu0, hp u hu]
  · intro u hu
    by_cases hut : u = t
    · subst hut; exact hown
    · have := h6 u hu
      simp only [aux_ll_Own, hp u hut, hl u hut] at this ⊢
      exact this

/-- The same for thread 0, given who has the lock. -/
theorem aux_ll_move0 (s s' : LlkState) (h : aux_ll_Inv s) (hr : ∀ r ∈ s'.regs, r = 0) (hb : s'.bad = false)
    (hp : ∀ u, u ≠ 0 → s'.places u = s.places u) (hl : ∀ u, u ≠ 0 → s'.locks u = s.locks u)
    (h3 : s'.places 0 = .lua 0 ∨ ∃ k, k ≠ .listeners ∧ s'.places 0 = .wait k 0)
    (h4 : ∃ h, s'.locks 0 = some h ∧ ∀ t, h = some t ↔ aux_ll_Has s' t) : aux_ll_Inv s' := by
  refine ⟨hr, hb, h3, h4, ?_⟩
  intro u hu
  have := h.2.2.2.2 u hu
  simp only [aux_ll_Own, hp u hu, hl u hu] at this ⊢
  exact this

/-- Only the thread that has the lock. -/
theorem aux_ll_unique (s : LlkState) (h : aux_ll_Inv s) (t u : Nat) (ht : aux_ll_Has s t) (hu : aux_ll_Has s u) : t = u := by
  obtain ⟨hh, _, h5⟩ := h.2.2.2.1
  have a := (h5 t).2 ht
  have b := (h5 u).2 hu
  rw [a] at b; exact Option.some.inj b

theorem aux_ll_runs_has (s : LlkState) (h : aux_ll_Inv s) (t : Nat) (hr : LlkRuns s t) : aux_ll_Has s t := by
  by_cases ht : t = 0
  · subst ht
    rcases h.2.2.1 with h3 | ⟨k, _, h3⟩
    · simp [aux_ll_Has, h3]
    · rcases hr with ⟨r, e⟩ | ⟨r, e⟩ | e <;> rw [h3] at e <;> cases e
  · rw [aux_ll_Has, if_neg ht]
    rcases hr with ⟨r, e⟩ | ⟨r, e⟩ | e <;> rw [e] <;> simp

/-- Thread 0 takes or leaves the lock: nobody else has it. -/
theorem aux_ll_alone (s : LlkState) (h : aux_ll_Inv s) (h0 : aux_ll_Has s 0) (u : Nat) (hu : u ≠ 0) : s.places u = .out := by
  by_cases ho : s.places u = .out
  · exact ho
  · exact absurd (aux_ll_unique s h u 0 (by rw [aux_ll_Has, if_neg hu]; exact ho) h0) hu

theorem aux_ll_step (s s' : LlkState) (op : LlkOp) (hpl : LlkPlain op) (h : aux_ll_Inv s) (hs : llkStep s op = some s') : aux_ll_Inv s' := by
  have hall := h
  obtain ⟨h1, h2, h3, ⟨hh, h4, h5⟩, h6⟩ := h
  cases op with
  | register t =>
    cases hpl
    have : s'.places = s.places ∧ s'.locks = s.locks ∧ s'.bad = s.bad ∧ s'.regs = s.regs ++ [0] := by
      simp only [llkStep] at hs
      split at hs
      · cases hs; exact ⟨rfl, rfl, rfl, rfl⟩
      · cases hs; exact ⟨rfl, rfl, rfl, rfl⟩
      · cases hs
    obtain ⟨e1, e2, e3, e4⟩ := this
    refine aux_ll_move0 s s' hall ?_ (by rw [e3]; exact h2) (fun u _ => by rw [e1]) (fun u _ => by rw [e2]) (by rw [e1]; exact h3) ⟨hh, by rw [e2]; exact h4, ?_⟩
    · intro r hr; rw [e4] at hr; simp at hr; rcases hr with hr | hr
      · exact h1 r hr
      · exact hr
    · intro t; rw [h5 t]; simp [aux_ll_Has, e1]
  | start t r =>
    simp only [llkStep] at hs
    split at hs
    case isFalse => cases hs
    rename_i hc
    obtain ⟨ht, hr, ho⟩ := hc
    have hr0 := h1 r hr
    subst hr0
    simp only [llkLock, h4] at hs
    cases hh with
    | some x => simp at hs
    | none =>
      simp at hs
      subst hs
      have h0 : (0 : Nat) ≠ t := fun e => ht e.symm
      have hno : ∀ u, ¬ aux_ll_Has s u := fun u hu => by have := (h5 u).2 hu; cases this
      refine ⟨h1, h2, ?_, ⟨some t, by simp [llkGo, llkSet], ?_⟩, ?_⟩
      · simp only [llkGo, aux_ll_set_ne _ _ _ _ h0]; exact h3
      · intro u
        by_cases hu : u = t
        · subst hu; simp [aux_ll_Has, ht, llkGo, llkSet]
        · have hn := hno u
          have : ¬ some t = some u := fun e => hu (Option.some.inj e).symm
          simp only [this, false_iff]
          by_cases hu0 : u = 0
          · subst hu0; simpa [aux_ll_Has, llkGo, llkSet, h0] using hn
          · simpa [aux_ll_Has, llkGo, llkSet, hu, hu0] using hn
      · intro u hu
        have hu6 := h6 u hu
        by_cases hut : u = t
        · subst hut
          simp only [aux_ll_Own, ho] at hu6
          simp only [aux_ll_Own, llkGo, aux_ll_set_same, aux_ll_set_ne _ _ _ _ ht]
          exact ⟨trivial, hu6⟩
        · simp only [aux_ll_Own, llkGo, aux_ll_set_ne _ _ _ _ hut, aux_ll_set_ne _ _ _ _ hu] at hu6 ⊢
          exact hu6
  | finish t =>
    simp only [llkStep] at hs
    split at hs
    case h_2 => cases hs
    rename_i r hp
    split at hs
    case isTrue => cases hs
    rename_i ht
    have h0 : (0 : Nat) ≠ t := fun e => ht e.symm
    have ho := h6 t ht
    simp only [aux_ll_Own, hp] at ho
    obtain ⟨rfl, ho⟩ := ho
    have hhas : aux_ll_Has s t := by rw [aux_ll_Has, if_neg ht, hp]; simp
    have hht := (h5 t).2 hhas
    subst hht
    simp only [llkUnlock, h4] at hs
    cases hs
    refine ⟨h1, by simp [llkGo, h2], ?_, ⟨none, by simp [llkGo, llkSet], ?_⟩, ?_⟩
    · simp only [llkGo, aux_ll_set_ne _ _ _ _ h0]; exact h3
    · intro u
      simp only [reduceCtorEq, false_iff]
      by_cases hu : u = t
      · subst hu; simp [aux_ll_Has, ht, llkGo, llkSet]
      · have hn : ¬ aux_ll_Has s u := fun hx => hu (aux_ll_unique s hall u t hx hhas)
        by_cases hu0 : u = 0
        · subst hu0; simpa [aux_ll_Has, llkGo, llkSet, h0] using hn
        · simpa [aux_ll_Has, llkGo, llkSet, hu, hu0] using hn
    · intro u hu
      have hu6 := h6 u hu
      by_cases hut : u = t
      · subst hut
        simp only [aux_ll_Own, llkGo, aux_ll_set_same, aux_ll_set_ne _ _ _ _ ht]
        exact ho
      · simp only [aux_ll_Own, llkGo, aux_ll_set_ne _ _ _ _ hut, aux_ll_set_ne _ _ _ _ hu] at hu6 ⊢
        exact hu6
  | pause t k =>
    simp only [llkStep] at hs
    split at hs
    case h_2 => cases hs
    rename_i r hp
    by_cases ht : t = 0
    · subst ht
      have hr : r = 0 := by
        rcases h3 with h3 | ⟨k', _, h3⟩
        · rw [h3] at hp; cases hp; rfl
        · rw [h3] at hp; cases hp
      subst hr
      have hhas : aux_ll_Has s 0 := by simp [aux_ll_Has, hp]
      have hal := aux_ll_alone s hall hhas
      have hht := (h5 0).2 hhas
      subst hht
      have hu : llkUnlock s 0 0 = { s with locks := llkSet s.locks 0 (some none), bad := s.bad || decide ((some 0 : Option Nat) ≠ some 0) } := by
        simp only [llkUnlock, h4]
      have key : ∀ k', k' ≠ .events → k' ≠ .listeners → aux_ll_Inv (llkGo (llkUnlock s 0 0) 0 (.wait k' 0)) := by
        intro k' hk1 hk2
        rw [hu]
        refine aux_ll_move0 s _ hall h1 (by simp [llkGo, h2]) (fun u hu => by simp [llkGo, llkSet, hu]) (fun u hu => by simp [llkGo, llkSet, hu])
          (Or.inr ⟨k', hk2, by simp [llkGo, llkSet]⟩) ⟨none, by simp [llkGo, llkSet], ?_⟩
        intro u
        simp only [reduceCtorEq, false_iff]
        by_cases hu0 : u = 0
        · subst hu0; simp [aux_ll_Has, llkGo, llkSet, hk1]
        · simp [aux_ll_Has, llkGo, llkSet, hu0, hal u hu0]
      cases k with
      | pop => cases hs; exact key _ (by simp) (by simp)
      | pool => cases hs; exact key _ (by simp) (by simp)
      | listeners => exact absurd rfl hpl
      | yield =>
        simp only [h4, reduceCtorEq, if_false] at hs
        cases hs; exact key _ (by simp) (by simp)
      | events =>
        cases hs
        refine aux_ll_move0 s _ hall h1 h2 (fun u hu => by simp [llkGo, llkSet, hu]) (fun u hu => by simp [llkGo])
          (Or.inr ⟨.events, by simp, by simp [llkGo, llkSet]⟩) ⟨some 0, by simpa [llkGo] using h4, ?_⟩
        intro u
        by_cases hu0 : u = 0
        · subst hu0; simp [aux_ll_Has, llkGo, llkSet]
        · have : ¬ (0 = u) := fun e => hu0 e.symm
          simp [aux_ll_Has, llkGo, llkSet, hu0, hal u hu0, this]
    · have ho := h6 t ht
      simp only [aux_ll_Own, hp] at ho
      obtain ⟨rfl, ho⟩ := ho
      have hne : s.places t ≠ .out := by rw [hp]; simp
      have key : ∀ k', k' ≠ .events → k' ≠ .listeners → aux_ll_Inv (llkGo (llkUnlock s t t) t (.wait k' 0)) := by
        intro k' hk1 hk2
        rcases ho with ho | ho
        · have hu : llkUnlock s t t = s := by simp only [llkUnlock, ho]
          rw [hu]
          refine aux_ll_move s _ t ht hall rfl h2 (fun u hu => by simp [llkGo, llkSet, hu]) (fun u hu => rfl) hne (by simp [llkGo, llkSet]) ?_
          cases k' <;> simp [aux_ll_Own, llkGo, llkSet, ho] at hk1 hk2 ⊢
        · have hu : llkUnlock s t t = { s with locks := llkSet s.locks t (some none), bad := s.bad || decide ((some t : Option Nat) ≠ some t) } := by
            simp only [llkUnlock, ho]
          rw [hu]
          refine aux_ll_move s _ t ht hall rfl (by simp [llkGo, h2]) (fun u hu => by simp [llkGo, llkSet, hu]) (fun u hu => by simp [llkGo, llkSet, hu]) hne (by simp [llkGo, llkSet]) ?_
          cases k' <;> simp [aux_ll_Own, llkGo, llkSet] at hk1 hk2 ⊢
      cases k with
      | pop => cases hs; exact key _ (by simp) (by simp)
      | pool => cases hs; exact key _ (by simp) (by simp)
      | listeners => exact absurd rfl hpl
      | yield =>
        dsimp only at hs
        split at hs
        · cases hs; exact hall
        · cases hs; exact key _ (by simp) (by simp)
      | events =>
        cases hs
        refine aux_ll_move s _ t ht hall rfl h2 (fun u hu => by simp [llkGo, llkSet, hu]) (fun u hu => rfl) hne (by simp [llkGo, llkSet]) ?_
        simpa [aux_ll_Own, llkGo, llkSet] using ho
  | back t =>
    by_cases ht : t = 0
    · subst ht
      rcases h3 with h3 | ⟨k, hk, h3⟩
      · simp only [llkStep, h3] at hs; cases hs
      · have key : k ≠ .events → (llkLock s 0 0).map (fun s => llkGo s 0 (.lua 0)) = some s' → aux_ll_Inv s' := by
          intro hke hs
          simp only [llkLock, h4] at hs
          cases hh with
          | some x => simp at hs
          | none =>
            simp at hs
            subst hs
            have hno : ∀ u, ¬ aux_ll_Has s u := fun u hu => by have := (h5 u).2 hu; cases this
            refine aux_ll_move0 s _ hall h1 h2 (fun u hu => by simp [llkGo, llkSet, hu]) (fun u hu => by simp [llkGo, llkSet, hu])
              (Or.inl (by simp [llkGo, llkSet])) ⟨some 0, by simp [llkGo, llkSet], ?_⟩
            intro u
            by_cases hu0 : u = 0
            · subst hu0; simp [aux_ll_Has, llkGo, llkSet]
            · have hn := hno u
              have h0u : ¬ (0 = u) := fun e => hu0 e.symm
              simpa [aux_ll_Has, llkGo, llkSet, hu0, h0u] using hn
        cases k with
        | listeners => exact absurd rfl hk
        | pop => simp only [llkStep, h3] at hs; exact key (by simp) hs
        | pool => simp only [llkStep, h3] at hs; exact key (by simp) hs
        | yield => simp only [llkStep, h3] at hs; exact key (by simp) hs
        | events =>
          simp only [llkStep, h3] at hs
          cases hs
          have hhas : aux_ll_Has s 0 := by simp [aux_ll_Has, h3]
          refine aux_ll_move0 s _ hall h1 h2 (fun u hu => by simp [llkGo, llkSet, hu]) (fun u hu => rfl)
            (Or.inl (by simp [llkGo, llkSet])) ⟨hh, by simpa [llkGo] using h4, ?_⟩
          intro u
          rw [h5 u]
          by_cases hu0 : u = 0
          · subst hu0; simp [aux_ll_Has, llkGo, llkSet, h3]
          · simp [aux_ll_Has, llkGo, llkSet, hu0]
    · have ho := h6 t ht
      cases hp : s.places t with
      | out => simp only [llkStep, hp] at hs; cases hs
      | lua r => simp only [llkStep, hp] at hs; cases hs
      | inner r => simp only [llkStep, hp] at hs; cases hs
      | touch => simp only [llkStep, hp] at hs; cases hs
      | wait k r =>
        have hne : s.places t ≠ .out := by rw [hp]; simp
        have key : r = 0 ∧ (s.locks t = none ∨ s.locks t = some none) → (llkLock s t t).map (fun s => llkGo s t (.lua r)) = some s' → aux_ll_Inv s' := by
          rintro ⟨rfl, ho⟩ hs
          have : s' = llkGo { s with locks := llkSet s.locks t (some (some t)) } t (.lua 0) := by
            rcases ho with ho | ho <;> simp only [llkLock, ho] at hs <;> simp at hs <;> exact hs.symm
          subst this
          refine aux_ll_move s _ t ht hall rfl h2 (fun u hu => by simp [llkGo, llkSet, hu]) (fun u hu => by simp [llkGo, llkSet, hu]) hne (by simp [llkGo, llkSet]) ?_
          simp [aux_ll_Own, llkGo, llkSet]
        cases k with
        | listeners => simp only [aux_ll_Own, hp] at ho
        | pop => simp only [aux_ll_Own, hp] at ho; simp only [llkStep, hp] at hs; exact key ho hs
        | pool => simp only [aux_ll_Own, hp] at ho; simp only [llkStep, hp] at hs; exact key ho hs
        | yield => simp only [aux_ll_Own, hp] at ho; simp only [llkStep, hp] at hs; exact key ho hs
        | events =>
          simp only [aux_ll_Own, hp] at ho
          simp only [llkStep, hp] at hs
          cases hs
          refine aux_ll_move s _ t ht hall rfl h2 (fun u hu => by simp [llkGo, llkSet, hu]) (fun u hu => rfl) hne (by simp [llkGo, llkSet]) ?_
          simpa [aux_ll_Own, llkGo, llkSet] using ho
  | callback t =>
    have ht : t ≠ 0 := hpl
    have ho := h6 t ht
    simp only [llkStep] at hs
    split at hs
    case h_2 => cases hs
    rename_i r hp
    cases hs
    simp only [aux_ll_Own, hp] at ho
    refine aux_ll_move s _ t ht hall rfl h2 (fun u hu => by simp [llkGo, llkSet, hu]) (fun u hu => rfl) (by rw [hp]; simp) (by simp [llkGo, llkSet]) ?_
    simpa [aux_ll_Own, llkGo, llkSet] using ho
  | callbackEnd t =>
    simp only [llkStep] at hs
    split at hs
    case h_2 => cases hs
    rename_i r hp
    cases hs
    by_cases ht : t = 0
    · subst ht
      rcases h3 with h3 | ⟨k, _, h3⟩ <;> rw [h3] at hp <;> cases hp
    · have ho := h6 t ht
      simp only [aux_ll_Own, hp] at ho
      refine aux_ll_move s _ t ht hall rfl h2 (fun u hu => by simp [llkGo, llkSet, hu]) (fun u hu => rfl) (by rw [hp]; simp) (by simp [llkGo, llkSet]) ?_
      simpa [aux_ll_Own, llkGo, llkSet] using ho

  | release t => exact absurd hpl id
  | releaseEnd t =>
    simp only [llkStep] at hs
    split at hs
    · rename_i hp
      by_cases ht : t = 0
      · subst ht
        rcases h3 with h3 | ⟨k, _, h3⟩ <;> rw [h3] at hp <;> cases hp
      · have ho := h6 t ht
        simp only [aux_ll_Own, hp] at ho
    · cases hs

theorem aux_ll_run (ops : List LlkOp) : ∀ s s', (∀ op ∈ ops, LlkPlain op) → aux_ll_Inv s → llkRun s ops = some s' → aux_ll_Inv s' := by
  induction ops with
  | nil => intro s s' _ h hs; cases hs; exact h
  | cons op ops ih =>
    intro s s' hp h hs
    simp only [llkRun] at hs
    cases hst : llkStep s op with
    | none => rw [hst] at hs; cases hs
    | some m =>
      rw [hst] at hs
      exact ih m s' (fun o ho => hp o (by simp [ho])) (aux_ll_step s m op (hp op (by simp)) h hst) hs

theorem aux_ll_append (a : List LlkOp) : ∀ s b, llkRun s (a ++ b) = (llkRun s a).bind (fun m => llkRun m b) := by
  induction a with
  | nil => intro s b; rfl
  | cons op a ih =>
    intro s b
    simp only [List.cons_append, llkRun]
    cases llkStep s op with
    | none => rfl
    | some m => simp only [Option.bind_some]; exact ih m b

/-- A step of another thread leaves a thread where it is. -/
theorem aux_ll_other (s s' : LlkState) (op : LlkOp) (t : Nat) (hw : LlkWho op ≠ t) (hs : llkStep s op = some s') : s'.places t = s.places t := by
  have hset : ∀ (q : LlkState) (a : LlkAt), (llkGo q (LlkWho op) a).places t = q.places t := by
    intro q a
    have hn : ¬ t = LlkWho op := fun e => hw e.symm
    simp only [llkGo, llkSet, if_neg hn]
  have hunl : ∀ u r, (llkUnlock s u r).places = s.places := by
    intro u r; simp only [llkUnlock]; split <;> rfl
  have hlk : ∀ u r a, (llkLock s u r).map (fun q => llkGo q (LlkWho op) a) = some s' → s'.places t = s.places t := by
    intro u r a hx
    simp only [llkLock] at hx
    split at hx
    · cases hx
    · simp at hx; subst hx; rw [hset]
  cases op with
  | register u =>
    simp only [llkStep] at hs
    split at hs
    · cases hs; rfl
    · cases hs; rfl
    · cases hs
  | start u r =>
    simp only [llkStep] at hs
    split at hs
    · exact hlk u r _ hs
    · cases hs
  | finish u =>
    simp only [llkStep] at hs
    split at hs
    · split at hs
      · cases hs
      · cases hs; rw [← hunl u]; exact hset _ _
    · cases hs
  | pause u k =>
    simp only [llkStep] at hs
    split at hs
    · rename_i r _
      cases k with
      | events => cases hs; exact hset _ _
      | yield =>
        dsimp only at hs
        split at hs
        · cases hs; rfl
        · cases hs; rw [← hunl u u]; exact hset _ _
      | pop => cases hs; rw [← hunl u u]; exact hset _ _
      | pool => cases hs; rw [← hunl u u]; exact hset _ _
      | listeners => cases hs; rw [← hunl u u]; exact hset _ _
    · cases hs
  | back u =>
    simp only [llkStep] at hs
    split at hs
    · cases hs; exact hset _ _
    · cases hs; exact hset _ _
    · exact hlk u u _ hs
    · cases hs
  | callback u =>
    simp only [llkStep] at hs
    split at hs
    · cases hs; exact hset _ _
    · cases hs
  | callbackEnd u =>
    simp only [llkStep] at hs
    split at hs
    · cases hs; exact hset _ _
    · cases hs

  | release u =>
    simp only [llkStep] at hs
    split at hs
    · cases hs; exact hset _ _
    · cases hs
  | releaseEnd u =>
    simp only [llkStep] at hs
    split at hs
    · cases hs; exact hset _ _
    · cases hs

theorem aux_ll_others (ops : List LlkOp) (t : Nat) : ∀ s s', (∀ op ∈ ops, LlkWho op ≠ t) → llkRun s ops = some s' → s'.places t = s.places t := by
  induction ops with
  | nil => intro s s' _ hs; cases hs; rfl
  | cons op ops ih =>
    intro s s' hp hs
    simp only [llkRun] at hs
    cases hst : llkStep s op with
    | none => rw [hst] at hs; cases hs
    | some m =>
      rw [hst] at hs
      rw [ih m s' (fun o ho => hp o (by simp [ho])) hs]
      exact aux_ll_other s m op t (hp op (by simp)) hst

/-- **C149** (partial): with handlers given by the program's own thread, and without `wait_listeners` and create
handlers of pools in it, at most one thread runs Lua code in every schedule, and every lock is released by its owner. -/
theorem C149_one_partial (ops : List LlkOp) (s : LlkState) (hp : ∀ op ∈ ops, LlkPlain op) (hs : llkRun llkInit ops = some s) :
    (∀ t u, LlkRuns s t → LlkRuns s u → t = u) ∧ s.bad = false := by
  have h := aux_ll_run ops _ _ hp aux_ll_init hs
  exact ⟨fun t u ht hu => aux_ll_unique s h t u (aux_ll_runs_has s h t ht) (aux_ll_runs_has s h u hu), h.2.1⟩

/-- The program waits in a queue, two threads call handlers in turn, one of them waits too, and the program goes on. -/
example : ((llkRun llkInit [.register 0, .pause 0 .pop, .start 1 0, .pause 1 .pop, .back 1, .finish 1, .start 2 0, .finish 2, .back 0]).map
    (fun s => (s.places 0, s.places 1, s.places 2))) = some (.lua 0, .out, .out) := by decide +kernel

/-- **C149** (partial): when the program waits (not in `wait_events`) and no handler is being run, a handler that is due can be called. -/
theorem C149_progress_partial (ops : List LlkOp) (s : LlkState) (hp : ∀ op ∈ ops, LlkPlain op) (hs : llkRun llkInit ops = some s)
    (h0 : LlkRests s 0) (ho : ∀ t, t ≠ 0 → s.places t = .out) (t r : Nat) (ht : t ≠ 0) (hr : r ∈ s.regs) :
    ∃ s', llkRun llkInit (ops ++ [.start t r]) = some s' ∧ LlkRuns s' t := by
  have h := aux_ll_run ops _ _ hp aux_ll_init hs
  obtain ⟨hh, h4, h5⟩ := h.2.2.2.1
  have hnone : hh = none := by
    cases hh with
    | none => rfl
    | some x =>
      have hx := (h5 x).1 rfl
      by_cases hx0 : x = 0
      · subst hx0
        simp only [aux_ll_Has, if_true] at hx
        rcases h0 with h0 | ⟨k, r, hk, h0⟩ <;> rw [h0] at hx <;> rcases hx with hx | hx <;> cases hx
        exact absurd rfl hk
      · rw [aux_ll_Has, if_neg hx0] at hx; exact absurd (ho x hx0) hx
  subst hnone
  have hr0 := h.1 r hr
  subst hr0
  refine ⟨llkGo { s with locks := llkSet s.locks 0 (some (some t)) } t (.lua 0), ?_, Or.inl ⟨0, by simp [llkGo, llkSet]⟩⟩
  rw [aux_ll_append, hs]
  simp [llkRun, llkStep, llkLock, ht, hr, ho t ht, h4]

example : ((llkRun llkInit [.register 0, .pause 0 .yield]).map (fun s => (s.places 0, s.regs))) = some (.wait .yield 0, [0]) := by decide +kernel

/-- A violation: a handler that waits, in whatever function, stops all Lua code: until it goes on, no other thread runs any,
not even to do what it waits for. -/
theorem C149_handlerWaits (ops more : List LlkOp) (s s' : LlkState) (t : Nat) (k : LlkWait) (r : Nat)
    (hp : ∀ op ∈ ops ++ more, LlkPlain op) (hs : llkRun llkInit ops = some s) (ht : t ≠ 0) (hw : s.places t = .wait k r)
    (hm : ∀ op ∈ more, LlkWho op ≠ t) (hs' : llkRun llkInit (ops ++ more) = some s') : ∀ u, ¬ LlkRuns s' u := by
  have h := aux_ll_run _ _ _ hp aux_ll_init hs'
  have hpl : s'.places t = .wait k r := by
    rw [aux_ll_append, hs] at hs'
    rw [← hw]
    exact aux_ll_others more t s s' hm hs'
  intro u hu
  have : u = t := aux_ll_unique s' h u t (aux_ll_runs_has s' h u hu) (by rw [aux_ll_Has, if_neg ht, hpl]; simp)
  subst this
  rcases hu with ⟨q, e⟩ | ⟨q, e⟩ | e <;> rw [hpl] at e <;> cases e

/-- A handler waits for an item that the program would push after its own wait: the program does not get the lock. -/
example : ((llkRun llkInit [.register 0, .pause 0 .pop, .start 1 0, .pause 1 .pop]).map (fun s => s.places 1)) = some (.wait .pop 0) ∧
    (llkRun llkInit [.register 0, .pause 0 .pop, .start 1 0, .pause 1 .pop, .back 0]).isNone = true := by decide +kernel

/-- A violation: after `wait_listeners` the program runs together with handlers, and its next wait releases the lock of one of them. -/
theorem C149_listeners : ∃ s, llkRun llkInit [.register 0, .pause 0 .listeners, .start 1 0, .back 0] = some s ∧ LlkRuns s 0 ∧ LlkRuns s 1 ∧
    ∃ s', llkRun llkInit [.register 0, .pause 0 .listeners, .start 1 0, .back 0, .pause 0 .pop, .start 2 0] = some s' ∧
      LlkRuns s' 1 ∧ LlkRuns s' 2 ∧ s'.bad = true :=
  ⟨_, rfl, Or.inl ⟨0, rfl⟩, Or.inl ⟨0, rfl⟩, _, rfl, Or.inl ⟨0, rfl⟩, Or.inl ⟨0, rfl⟩, rfl⟩

/-- A violation: a handler that was given to the library by a handler is called with another lock, while the program runs. -/
theorem C149_nested : ∃ s, llkRun llkInit [.register 0, .pause 0 .pop, .start 1 0, .register 1, .finish 1, .back 0, .start 1 1] = some s ∧
    LlkRuns s 0 ∧ LlkRuns s 1 :=
  ⟨_, rfl, Or.inl ⟨0, rfl⟩, Or.inl ⟨1, rfl⟩⟩

/-- A violation: the create handler of a pool made by the program runs without the lock. -/
theorem C149_create : ∃ s, llkRun llkInit [.register 0, .pause 0 .pool, .start 1 0, .callback 0] = some s ∧ LlkRuns s 0 ∧ LlkRuns s 1 :=
  ⟨_, rfl, Or.inr (Or.inl ⟨0, rfl⟩), Or.inl ⟨0, rfl⟩⟩

/-- A violation: in every state where some thread runs Lua, any thread of the library that releases a connection or a channel
changes the Lua state at the same time. -/
theorem C149_released (ops : List LlkOp) (s : LlkState) (hs : llkRun llkInit ops = some s) (t u : Nat) (ht : t ≠ 0) (ho : s.places t = .out)
    (hu : LlkRuns s u) : ∃ s', llkRun llkInit (ops ++ [.release t]) = some s' ∧ LlkRuns s' t ∧ LlkRuns s' u ∧ t ≠ u := by
  have hne : t ≠ u := by
    intro e; subst e; rcases hu with ⟨q, e⟩ | ⟨q, e⟩ | e <;> rw [ho] at e <;> cases e
  refine ⟨llkGo s t .touch, ?_, Or.inr (Or.inr (by simp [llkGo, llkSet])), ?_, hne⟩
  · rw [aux_ll_append, hs]; simp [llkRun, llkStep, ht, ho]
  · have : (llkGo s t .touch).places u = s.places u := by simp only [llkGo]; exact aux_ll_set_ne _ _ _ _ (fun e => hne e.symm)
    simpa only [LlkRuns, this] using hu

example : LlkRuns llkInit 0 ∧ llkInit.places 1 = .out := ⟨Or.inl ⟨0, rfl⟩, rfl⟩

/-- A violation: once a handler waited in a queue the lock of its thread's state stays taken; handlers given by it are not
called by other threads, nor by that one. -/
theorem C149_leftTaken : (llkRun llkInit [.register 0, .pause 0 .pop, .start 1 0, .register 1, .pause 1 .pop, .back 1, .finish 1]).isSome = true ∧
    ∀ t, llkRun llkInit [.register 0, .pause 0 .pop, .start 1 0, .register 1, .pause 1 .pop, .back 1, .finish 1, .start t 1] = none := by
  refine ⟨rfl, fun t => ?_⟩
  rw [show [LlkOp.register 0, .pause 0 .pop, .start 1 0, .register 1, .pause 1 .pop, .back 1, .finish 1, .start t 1] =
    [LlkOp.register 0, .pause 0 .pop, .start 1 0, .register 1, .pause 1 .pop, .back 1, .finish 1] ++ [.start t 1] from rfl, aux_ll_append]
  cases hs : llkRun llkInit [.register 0, .pause 0 .pop, .start 1 0, .register 1, .pause 1 .pop, .back 1, .finish 1] with
  | none => rfl
  | some s =>
    have hl : s.locks 1 = some (some 1) := by
      have e : ((llkRun llkInit [.register 0, .pause 0 .pop, .start 1 0, .register 1, .pause 1 .pop, .back 1, .finish 1]).map (fun s => s.locks 1)) = some (some (some 1)) := rfl
      rw [hs] at e; exact Option.some.inj e
    simp only [Option.bind_some, llkRun, llkStep, llkLock, hl]
    split <;> rfl

theorem C149_statement_false : ¬ C149_statement := by
  intro h
  obtain ⟨s, hs, h0, h1⟩ := C149_nested
  have := (h _ s hs).1 0 1 h0 h1
  cases this

end Verif.Props
