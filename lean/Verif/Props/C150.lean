import Verif.Spec.PyProfiles
/-!
# C150 — profiles that Python programs register again
-/
namespace Verif.Props
open Verif.Model Verif.Spec

theorem aux_yg_append (kh kd : Nat → Bool) (a : List PgrOp) : ∀ s b, pgrRun kh kd s (a ++ b) = (pgrRun kh kd s a).bind (fun m => pgrRun kh kd m b) := by
  induction a with
  | nil => intro s b; rfl
  | cons op a ih =>
    intro s b
    simp only [List.cons_append, pgrRun]
    cases pgrStep kh kd s op with
    | none => rfl
    | some m => simp only [Option.bind_some]; exact ih m b

theorem aux_yg_given (a b : List PgrOp) : PgrGiven (a ++ b) = PgrGiven a ++ PgrGiven b := by
  induction a with
  | nil => rfl
  | cons op a ih => cases op <;> simp [PgrGiven, ih]

theorem aux_yg_mem (ops : List PgrOp) (h d : Option Nat) : (h, d) ∈ PgrGiven ops ↔ PgrOp.register h d ∈ ops := by
  induction ops with
  | nil => simp [PgrGiven]
  | cons op ops ih => cases op <;> simp [PgrGiven, ih]

/-- In use by a thread. -/
def aux_yg_UsesH (a : PgrAt) (h : Option Nat) : Prop := a = .got h ∨ ∃ d, a = .both h d

/-- With everything kept, what is read stays. -/
def aux_yg_Inv (G : List (Option Nat × Option Nat)) (s : PgrState) : Prop :=
  s.bad = false ∧ s.goneH = [] ∧ s.goneD = [] ∧
  (s.recv = none → s.bridge = false ∧ s.phase = none ∧ (∀ t, s.places t = .idle) ∧ s.data = none) ∧
  (∀ x, s.recv = some x → ∃ d, (some x, d) ∈ G) ∧
  (∀ y, s.data = some y → ∃ h, (h, some y) ∈ G) ∧
  (∀ b h d, s.phase = some (b, h, d) → h ≠ none ∧ (h, d) ∈ G) ∧
  (∀ t h, aux_yg_UsesH (s.places t) h → ∃ x d, h = some x ∧ (some x, d) ∈ G) ∧
  (∀ t h y, s.places t = .both h (some y) → ∃ h', (h', some y) ∈ G) ∧
  (∀ x d, (x, d) ∈ s.calls → (∃ d', (some x, d') ∈ G) ∧ ∀ y, d = some y → ∃ h', (h', some y) ∈ G)

theorem aux_yg_dropAll (old new : Option Nat) (gone : List Nat) : pgrDrop (fun _ => true) old new gone = gone := by
  cases old <;> simp [pgrDrop]

theorem aux_yg_step (G : List (Option Nat × Option Nat)) (s m : PgrState) (op : PgrOp)
    (hop : ∀ h d, op = .register h d → h ≠ none ∧ (h, d) ∈ G) (h : aux_yg_Inv G s)
    (hs : pgrStep (fun _ => true) (fun _ => true) s op = some m) : aux_yg_Inv G m := by
  obtain ⟨h1, h2, h3, h4, h5, h6, h7, h8, h9, h10⟩ := h
  have hgo : ∀ t a, (∀ x, aux_yg_UsesH a x → ∃ y d, x = some y ∧ (some y, d) ∈ G) → (∀ x y, a = .both x (some y) → ∃ h', (h', some y) ∈ G) →
      s.recv ≠ none → aux_yg_Inv G (pgrGo s t a) := by
    intro t a ha hb hr
    refine ⟨h1, h2, h3, fun e => absurd e hr, h5, h6, h7, ?_, ?_, h10⟩
    · intro u x hx
      simp only [pgrGo] at hx
      split at hx
      · exact ha x hx
      · exact h8 u x hx
    · intro u x y hx
      simp only [pgrGo] at hx
      split at hx
      · exact hb x y hx
      · exact h9 u x y hx
  have hrn : ∀ t, s.places t ≠ .idle → s.recv ≠ none := fun t ht e => ht ((h4 e).2.2.1 t)
  cases op with
  | register hh d =>
    obtain ⟨hn, hg⟩ := hop hh d rfl
    simp only [pgrStep] at hs
    split at hs
    · cases hs
      refine ⟨h1, by simp [aux_yg_dropAll, h2], h3, fun e => absurd e hn, ?_, h6, ?_, h8, h9, h10⟩
      · intro x e; dsimp only at e; subst e; exact ⟨d, hg⟩
      · intro b h' d' e; cases e; exact ⟨hn, hg⟩
    · cases hs
  | regData =>
    simp only [pgrStep] at hs
    split at hs
    · rename_i hh d hp
      cases hs
      obtain ⟨hn, hg⟩ := h7 _ _ _ hp
      refine ⟨h1, h2, by simp [aux_yg_dropAll, h3], ?_, h5, ?_, ?_, h8, h9, h10⟩
      · intro e; have := (h4 e).2.1; rw [hp] at this; cases this
      · intro y e; dsimp only at e; subst e; exact ⟨hh, hg⟩
      · intro b h' d' e; cases e; exact ⟨hn, hg⟩
    · cases hs
  | regEnd =>
    simp only [pgrStep] at hs
    split at hs
    · rename_i hh d hp
      cases hs
      refine ⟨h1, h2, h3, ?_, h5, h6, (fun b h' d' e => by cases e), h8, h9, h10⟩
      intro e; have := (h4 e).2.1; rw [hp] at this; cases this
    · cases hs
  | dispatch t =>
    simp only [pgrStep] at hs
    split at hs
    · split at hs
      · rename_i hb
        cases hs
        refine hgo t .ready (fun x hx => ?_) (fun x y hx => by cases hx) (fun e => ?_)
        · rcases hx with hx | ⟨d, hx⟩ <;> cases hx
        · rw [(h4 e).1] at hb; cases hb
      · cases hs; exact ⟨h1, h2, h3, h4, h5, h6, h7, h8, h9, h10⟩
    · cases hs
  | get t =>
    simp only [pgrStep] at hs
    split at hs
    · rename_i hp
      cases hs
      have hr := hrn t (by rw [hp]; simp)
      refine hgo t _ (fun x hx => ?_) (fun x y hx => by cases hx) hr
      rcases hx with hx | ⟨d, hx⟩
      · cases hx
        cases hrv : s.recv with
        | none => exact absurd hrv hr
        | some z => obtain ⟨d, hd⟩ := h5 z hrv; exact ⟨z, d, rfl, hd⟩
      · cases hx
    · cases hs
  | getData t =>
    simp only [pgrStep] at hs
    split at hs
    · rename_i hh hp
      cases hs
      have hr := hrn t (by rw [hp]; simp)
      refine hgo t _ (fun x hx => ?_) (fun x y hx => ?_) hr
      · rcases hx with hx | ⟨d, hx⟩
        · cases hx
        · cases hx; exact h8 t hh (Or.inl hp)
      · cases hd : s.data with
        | none => rw [hd] at hx; cases hx
        | some z => rw [hd] at hx; cases hx; exact h6 _ hd
    · cases hs
  | call t =>
    simp only [pgrStep] at hs
    split at hs
    case h_2 => cases hs
    rename_i hh d hp
    split at hs
    · cases hs
    obtain ⟨x, d', hx, hg⟩ := h8 t hh (Or.inr ⟨d, hp⟩)
    subst hx
    have hal : (pgrAlive s.goneH (some x) && pgrAlive s.goneD d) = true := by
      rw [h2, h3]; cases d <;> simp [pgrAlive]
    simp only [hal, if_true] at hs
    cases hs
    have hr := hrn t (by rw [hp]; simp)
    obtain ⟨i1, i2, i3, i4, i5, i6, i7, i8, i9, _⟩ := hgo t .idle (fun x hx => by rcases hx with hx | ⟨d, hx⟩ <;> cases hx) (fun x y hx => by cases hx) hr
    refine ⟨i1, i2, i3, i4, i5, i6, i7, i8, i9, ?_⟩
    intro a b hab
    simp only [pgrGo, List.mem_append, List.mem_singleton, Prod.mk.injEq] at hab
    rcases hab with hab | ⟨rfl, rfl⟩
    · exact h10 a b hab
    · exact ⟨⟨d', hg⟩, fun y e => by subst e; exact h9 t _ y hp⟩

theorem aux_yg_run (G : List (Option Nat × Option Nat)) (ops : List PgrOp) : ∀ s m, (∀ h d, PgrOp.register h d ∈ ops → h ≠ none ∧ (h, d) ∈ G) →
    aux_yg_Inv G s → pgrRun (fun _ => true) (fun _ => true) s ops = some m → aux_yg_Inv G m := by
  induction ops with
  | nil => intro s m _ h hs; cases hs; exact h
  | cons op ops ih =>
    intro s m hop h hs
    simp only [pgrRun] at hs
    cases hst : pgrStep (fun _ => true) (fun _ => true) s op with
    | none => rw [hst] at hs; cases hs
    | some q =>
      rw [hst] at hs
      exact ih q m (fun h d hh => hop h d (by simp [hh])) (aux_yg_step G s q op (fun h d e => hop h d (by simp [e])) h hst) hs

/-- **C150** (partial): a program that keeps all its handlers and data, and gives a handler at every registration, may register
again whenever it wants, whatever is being delivered: every call is one of a registered handler with registered data. -/
theorem C150_kept_partial (ops : List PgrOp) (s : PgrState) (ha : PgrAlways ops)
    (hs : pgrRun (fun _ => true) (fun _ => true) pgrInit ops = some s) :
    s.bad = false ∧ ∀ x d, (x, d) ∈ s.calls → (∃ d', (some x, d') ∈ PgrGiven ops) ∧ ∀ y, d = some y → ∃ h', (h', some y) ∈ PgrGiven ops := by
  have hi : aux_yg_Inv (PgrGiven ops) pgrInit := by
    refine ⟨rfl, rfl, rfl, fun _ => ⟨rfl, rfl, fun _ => rfl, rfl⟩, ?_, ?_, ?_, ?_, ?_, ?_⟩
    · intro x e; cases e
    · intro x e; cases e
    · intro b h d e; cases e
    · intro t h e; rcases e with e | ⟨d, e⟩ <;> cases e
    · intro t h y e; cases e
    · intro x d e; cases e
  have := aux_yg_run (PgrGiven ops) ops _ _ (fun h d hh => ⟨ha h d hh, (aux_yg_mem ops h d).2 hh⟩) hi hs
  exact ⟨this.1, this.2.2.2.2.2.2.2.2.2⟩

/-- Registered again between two readings. -/
example : ((pgrRun (fun _ => true) (fun _ => true) pgrInit [.register (some 1) (some 5), .regData, .regEnd, .dispatch 3, .get 3,
    .register (some 2) (some 6), .dispatch 4, .regData, .getData 3, .get 4, .regEnd, .getData 4, .call 4, .call 3]).map
    (fun s => (s.bad, s.calls))) = some (false, [(2, some 6), (1, some 6)]) := by decide +kernel

/-- The last registration, from a list. -/
def aux_yg_last (g : List (Option Nat × Option Nat)) : Option Nat × Option Nat := g.getLast?.getD (none, none)

/-- Calm schedules. -/
def aux_yg_Calm (g : List (Option Nat × Option Nat)) (s : PgrState) : Prop :=
  s.bad = false ∧ s.recv = (aux_yg_last g).1 ∧
  (s.phase = none → s.data = (aux_yg_last g).2 ∧ s.bridge = s.recv.isSome) ∧
  (∀ b h d, s.phase = some (b, h, d) → (h, d) = aux_yg_last g ∧ (∀ t, s.places t = .idle) ∧ (b = true → s.data = d)) ∧
  pgrAlive s.goneH s.recv = true ∧ pgrAlive s.goneD s.data = true ∧
  (∀ b h d, s.phase = some (b, h, d) → pgrAlive s.goneD d = true) ∧
  (∀ t, s.places t ≠ .idle → s.recv ≠ none) ∧
  (∀ t h, s.places t = .got h → h = s.recv) ∧ (∀ t h d, s.places t = .both h d → h = s.recv ∧ d = s.data)

theorem aux_yg_dropAlive (kept : Nat → Bool) (old new : Option Nat) (gone : List Nat) (h : pgrAlive gone new = true) :
    pgrAlive (pgrDrop kept old new gone) new = true := by
  cases old with
  | none => exact h
  | some o =>
    simp only [pgrDrop]
    split
    · exact h
    · rename_i hc
      cases new with
      | none => rfl
      | some n =>
        simp only [pgrAlive, List.contains_eq_mem, Bool.not_eq_true', decide_eq_false_iff_not] at h ⊢
        intro hm
        simp only [List.mem_append, List.mem_singleton] at hm
        rcases hm with hm | hm
        · exact h hm
        · subst hm; exact hc (Or.inl rfl)

theorem aux_yg_calmStep (kh kd : Nat → Bool) (g : List (Option Nat × Option Nat)) (s m : PgrState) (op : PgrOp)
    (hc : PgrCalm s op) (h : aux_yg_Calm g s) (hs : pgrStep kh kd s op = some m) : aux_yg_Calm (g ++ PgrGiven [op]) m := by
  obtain ⟨h1, h2, h3, h4, h5, h6, h7, h8, h9, h10⟩ := h
  have hgo : ∀ t a, (s.phase = none) → (a ≠ .idle → s.recv ≠ none) → (∀ x, a = .got x → x = s.recv) → (∀ x d, a = .both x d → x = s.recv ∧ d = s.data) →
      aux_yg_Calm g (pgrGo s t a) := by
    intro t a hp ha hb hd
    refine ⟨h1, h2, h3, (fun b x d e => by simp only [pgrGo] at e; rw [hp] at e; cases e), h5, h6, (fun b x d e => by simp only [pgrGo] at e; rw [hp] at e; cases e), ?_, ?_, ?_⟩
    · intro u hu; simp only [pgrGo] at hu ⊢; split at hu
      · exact ha hu
      · exact h8 u hu
    · intro u x hu; simp only [pgrGo] at hu ⊢; split at hu
      · exact hb x hu
      · exact h9 u x hu
    · intro u x d hu; simp only [pgrGo] at hu ⊢; split at hu
      · exact hd x d hu
      · exact h10 u x d hu
  have hph : ∀ t, s.places t ≠ .idle → s.phase = none := by
    intro t ht
    cases hp : s.phase with
    | none => rfl
    | some q => obtain ⟨b, x, d⟩ := q; exact absurd ((h4 b x d hp).2.1 t) ht
  cases op with
  | register hh d =>
    simp only [pgrStep] at hs
    split at hs
    · rename_i hcond
      cases hs
      have hl : aux_yg_last (g ++ PgrGiven [.register hh d]) = (hh, d) := by simp [aux_yg_last, PgrGiven]
      have hidle : ∀ t, s.places t = .idle := hc
      refine ⟨h1, by rw [hl], (fun e => by cases e), ?_, aux_yg_dropAlive _ _ _ _ hcond.2.1, h6, ?_, ?_, ?_, ?_⟩
      · intro b x y e; cases e; exact ⟨hl.symm, hidle, (fun e => by cases e)⟩
      · intro b x y e; cases e; exact hcond.2.2
      · intro t ht; exact absurd (hidle t) ht
      · intro t x e; dsimp only at e; rw [hidle t] at e; cases e
      · intro t x y e; dsimp only at e; rw [hidle t] at e; cases e
    · cases hs
  | regData =>
    simp only [PgrGiven, List.append_nil]
    simp only [pgrStep] at hs
    split at hs
    · rename_i hh d hp
      cases hs
      obtain ⟨hl, hidle, _⟩ := h4 _ _ _ hp
      refine ⟨h1, h2, (fun e => by cases e), ?_, h5, aux_yg_dropAlive _ _ _ _ (h7 _ _ _ hp), ?_, ?_, ?_, ?_⟩
      · intro b x y e; cases e; exact ⟨hl, hidle, fun _ => rfl⟩
      · intro b x y e; cases e; exact aux_yg_dropAlive _ _ _ _ (h7 _ _ _ hp)
      · intro t ht; exact absurd (hidle t) ht
      · intro t x e; dsimp only at e; rw [hidle t] at e; cases e
      · intro t x y e; dsimp only at e; rw [hidle t] at e; cases e
    · cases hs
  | regEnd =>
    simp only [PgrGiven, List.append_nil]
    simp only [pgrStep] at hs
    split at hs
    · rename_i hh d hp
      cases hs
      obtain ⟨hl, hidle, hd⟩ := h4 _ _ _ hp
      refine ⟨h1, h2, ?_, (fun b x y e => by cases e), h5, h6, (fun b x y e => by cases e), h8, h9, h10⟩
      intro _
      refine ⟨?_, ?_⟩
      · rw [← hl]; exact hd rfl
      · dsimp only; rw [h2, ← hl]
    · cases hs
  | dispatch t =>
    simp only [PgrGiven, List.append_nil]
    have hp : s.phase = none := hc
    simp only [pgrStep] at hs
    split at hs
    · split at hs
      · rename_i hb
        cases hs
        refine hgo t .ready hp (fun _ e => ?_) (fun x e => by cases e) (fun x d e => by cases e)
        rw [(h3 hp).2, e] at hb; cases hb
      · cases hs; exact ⟨h1, h2, h3, h4, h5, h6, h7, h8, h9, h10⟩
    · cases hs
  | get t =>
    simp only [PgrGiven, List.append_nil]
    simp only [pgrStep] at hs
    split at hs
    · rename_i hp
      cases hs
      have hne : s.places t ≠ .idle := by rw [hp]; simp
      exact hgo t _ (hph t hne) (fun _ => h8 t hne) (fun x e => by cases e; rfl) (fun x d e => by cases e)
    · cases hs
  | getData t =>
    simp only [PgrGiven, List.append_nil]
    simp only [pgrStep] at hs
    split at hs
    · rename_i hh hp
      cases hs
      have hne : s.places t ≠ .idle := by rw [hp]; simp
      exact hgo t _ (hph t hne) (fun _ => h8 t hne) (fun x e => by cases e) (fun x d e => by cases e; exact ⟨h9 t hh hp, rfl⟩)
    · cases hs
  | call t =>
    simp only [PgrGiven, List.append_nil]
    simp only [pgrStep] at hs
    split at hs
    case h_2 => cases hs
    rename_i hh d hp
    split at hs
    · cases hs
    have hne : s.places t ≠ .idle := by rw [hp]; simp
    obtain ⟨e1, e2⟩ := h10 t hh d hp
    subst e1; subst e2
    have i := hgo t .idle (hph t hne) (fun e => absurd rfl e) (fun x e => by cases e) (fun x d e => by cases e)
    cases hr : s.recv with
    | none => exact absurd hr (h8 t hne)
    | some x =>
      rw [hr] at hs h5
      simp only [h5, h6, Bool.and_self, if_true] at hs
      cases hs
      exact i

theorem aux_yg_calmRun (kh kd : Nat → Bool) (ops : List PgrOp) : ∀ g s m, PgrCalmRun kh kd s ops → aux_yg_Calm g s →
    pgrRun kh kd s ops = some m → aux_yg_Calm (g ++ PgrGiven ops) m := by
  induction ops with
  | nil => intro g s m _ h hs; cases hs; simpa [PgrGiven] using h
  | cons op ops ih =>
    intro g s m hc h hs
    simp only [pgrRun] at hs
    cases hst : pgrStep kh kd s op with
    | none => rw [hst] at hs; cases hs
    | some q =>
      rw [hst] at hs
      have := ih (g ++ PgrGiven [op]) q m (hc.2 q hst) (aux_yg_calmStep kh kd g s q op hc.1 h hst) hs
      rwa [List.append_assoc, ← aux_yg_given] at this

theorem aux_yg_calm0 : aux_yg_Calm [] pgrInit := by
  refine ⟨rfl, rfl, fun _ => ⟨rfl, rfl⟩, (fun b h d e => by cases e), rfl, rfl, (fun b h d e => by cases e), ?_, ?_, ?_⟩
  · intro t e; exact absurd rfl e
  · intro t h e; cases e
  · intro t h d e; cases e

/-- **C150** (partial): if the program registers only while no frame is being delivered, nothing released is used whatever the
program keeps, and a frame is delivered to the handler of the last registration with its data. -/
theorem C150_calm_partial (kh kd : Nat → Bool) (ops : List PgrOp) (s : PgrState) (hc : PgrCalmRun kh kd pgrInit ops)
    (hs : pgrRun kh kd pgrInit ops = some s) : s.bad = false ∧
    ∀ t h d s', s.places t = .both h d → pgrRun kh kd pgrInit (ops ++ [.call t]) = some s' →
      ∃ x, (PgrGiven ops).getLast? = some (some x, d) ∧ s'.calls = s.calls ++ [(x, d)] ∧ s'.bad = false := by
  have hi := aux_yg_calmRun kh kd ops [] _ _ hc aux_yg_calm0 hs
  rw [List.nil_append] at hi
  refine ⟨hi.1, ?_⟩
  intro t h d s' hp hs'
  obtain ⟨h1, h2, h3, h4, h5, h6, h7, h8, h9, h10⟩ := hi
  have hne : s.places t ≠ .idle := by rw [hp]; simp
  obtain ⟨e1, e2⟩ := h10 t h d hp
  rw [aux_yg_append, hs] at hs'
  simp only [Option.bind_some, pgrRun, pgrStep, hp] at hs'
  cases hph : s.phase with
  | some q => obtain ⟨b, x, y⟩ := q; exact absurd ((h4 b x y hph).2.1 t) hne
  | none =>
    have hd := (h3 hph).1
    cases hr : s.recv with
    | none => exact absurd hr (h8 t hne)
    | some x =>
      rw [hr] at e1 h5 h2
      subst e1; subst e2
      simp only [hph, ne_eq, not_true, if_false, h5, h6, Bool.and_self, if_true, Option.bind_some] at hs'
      cases hs'
      refine ⟨x, ?_, rfl, h1⟩
      cases hl : (PgrGiven ops).getLast? with
      | none => simp [aux_yg_last, hl] at h2
      | some q =>
        simp only [aux_yg_last, hl, Option.getD_some] at h2 hd
        rw [h2, hd]

/-- Registered again after a delivery; the old handler is released and not used. -/
example : ((pgrRun (fun _ => false) (fun _ => false) pgrInit [.register (some 1) (some 5), .regData, .regEnd, .dispatch 3, .get 3, .getData 3, .call 3,
    .register (some 2) none, .regData, .regEnd, .dispatch 3, .get 3, .getData 3, .call 3]).map
    (fun s => (s.bad, s.calls, s.goneH))) = some (false, [(1, some 5), (2, none)], [1]) := by decide +kernel

/-- A violation: a frame is being delivered when the program registers the profile without a frame handler; the process ends. -/
theorem C150_removed (kh kd : Nat → Bool) (h t : Nat) : ∃ s,
    pgrRun kh kd pgrInit [.register (some h) none, .regData, .regEnd, .dispatch t, .register none none, .regData, .regEnd, .get t, .getData t, .call t] = some s ∧
    s.bad = true := by
  simp [pgrRun, pgrStep, pgrInit, pgrGo, pgrAlive, pgrDrop]

/-- A violation: a handler that only the registry kept is called after its release. -/
theorem C150_freed (kh kd : Nat → Bool) (h h' t : Nat) (hk : kh h = false) (hne : h ≠ h') : ∃ s,
    pgrRun kh kd pgrInit [.register (some h) none, .regData, .regEnd, .dispatch t, .get t, .register (some h') none, .regData, .regEnd, .getData t, .call t] = some s ∧
    s.bad = true := by
  simp [pgrRun, pgrStep, pgrInit, pgrGo, pgrAlive, pgrDrop, hk, hne]

/-- A violation: a handler is called with the data of another registration. -/
theorem C150_mixed (kh kd : Nat → Bool) (h h' d d' t : Nat) (hk : kh h = true) : ∃ s,
    pgrRun kh kd pgrInit [.register (some h) (some d), .regData, .regEnd, .dispatch t, .get t, .register (some h') (some d'), .regData, .regEnd, .getData t, .call t] = some s ∧
    s.calls = [(h, some d')] := by
  by_cases hd : d = d'
  · subst hd; simp [pgrRun, pgrStep, pgrInit, pgrGo, pgrAlive, pgrDrop, hk]
  · by_cases hkd : kd d = true
    · simp [pgrRun, pgrStep, pgrInit, pgrGo, pgrAlive, pgrDrop, hk, hkd]
    · have hd' : ¬ d' = d := fun e => hd e.symm
      simp [pgrRun, pgrStep, pgrInit, pgrGo, pgrAlive, pgrDrop, hk, hkd, hd, hd']

theorem C150_statement_false : ¬ C150_statement := by
  intro h
  obtain ⟨s, hs, hb⟩ := C150_removed (fun _ => true) (fun _ => true) 0 0
  have := (h _ _ _ s hs).1
  rw [hb] at this; cases this

end Verif.Props
