import Verif.Spec.QueueRefs
/-!
# C152 — references of an asynchronous queue
-/
namespace Verif.Props
open Verif.Model Verif.Spec

/-- Counter and variables match the holders. -/
def aux_qr_Inv (l : List Nat) (s : QrfState) : Prop :=
  l.Nodup ∧ s.refs = l.length ∧ s.gone = l.isEmpty ∧ s.bad = [] ∧ ∀ v, v ∈ l → s.ptr v = true

theorem aux_qr_erase (l : List Nat) (v : Nat) (hv : v ∈ l) : (l.erase v).length = l.length - 1 ∧ (l.length - 1 = 0 → (l.erase v) = []) ∧
    (l.length - 1 ≠ 0 → (l.erase v) ≠ []) := by
  have h := List.length_erase_of_mem hv
  refine ⟨h, fun h0 => ?_, fun h0 hn => ?_⟩
  · exact List.eq_nil_of_length_eq_zero (by omega)
  · rw [hn] at h; simp at h; omega

theorem aux_qr_live (l : List Nat) (s : QrfState) (h : aux_qr_Inv l s) (v : Nat) (hv : v ∈ l) : s.ptr v = true ∧ s.gone = false := by
  refine ⟨h.2.2.2.2 v hv, ?_⟩
  rw [h.2.2.1]
  cases l with
  | nil => cases hv
  | cons a l => rfl

theorem aux_qr_step (l : List Nat) (s : QrfState) (op : QrfOp) (h : aux_qr_Inv l s) (hp : QrfProper l [op]) :
    aux_qr_Inv (QrfHolders l [op]) (qrfStep s op) := by
  obtain ⟨h1, h2, h3, h4, h5⟩ := id h
  cases op with
  | share v w =>
    obtain ⟨hv, hw, _⟩ := hp
    obtain ⟨hpv, hg⟩ := aux_qr_live l s h v hv
    simp only [qrfStep, hpv, hg, QrfHolders]
    refine ⟨List.nodup_cons.mpr ⟨hw, h1⟩, ?_, ?_, h4, ?_⟩
    · simp [QrfState.put, h2]
    · simp [QrfState.put]
    · intro k hk
      simp only [QrfState.put]
      by_cases hkw : k = w
      · simp [hkw]
      · rcases List.mem_cons.mp hk with e | hk
        · exact absurd e hkw
        · simp [hkw, h5 k hk]
  | unref v =>
    obtain ⟨hv, _⟩ := hp
    obtain ⟨hpv, hg⟩ := aux_qr_live l s h v hv
    obtain ⟨e1, e2, e3⟩ := aux_qr_erase l v hv
    simp only [qrfStep, hpv, hg, QrfHolders]
    refine ⟨h1.erase v, ?_, ?_, h4, fun k hk => h5 k (List.mem_of_mem_erase hk)⟩
    · simp [h2, e1]
    · by_cases h0 : l.length - 1 = 0
      · simp [h2, h0, e2 h0]
      · have := e3 h0
        cases hx : l.erase v with
        | nil => exact absurd hx this
        | cons a b => simp [h2, h0]
  | safeUnref v =>
    obtain ⟨hv, _⟩ := hp
    obtain ⟨hpv, hg⟩ := aux_qr_live l s h v hv
    obtain ⟨e1, e2, e3⟩ := aux_qr_erase l v hv
    simp only [qrfStep, hpv, hg, QrfHolders]
    by_cases h0 : l.length - 1 = 0
    · rw [e2 h0]
      simp only [Bool.true_eq_false, Bool.false_eq_true, if_false, h2, h0, if_true]
      exact ⟨List.nodup_nil, rfl, rfl, h4, (by intro k hk; cases hk)⟩
    · simp only [Bool.true_eq_false, Bool.false_eq_true, if_false, h2, h0]
      refine ⟨h1.erase v, e1.symm, ?_, h4, fun k hk => h5 k (List.mem_of_mem_erase hk)⟩
      cases hx : l.erase v with
      | nil => exact absurd hx (e3 h0)
      | cons a b => rfl
  | use v =>
    obtain ⟨hv, _⟩ := hp
    obtain ⟨hpv, hg⟩ := aux_qr_live l s h v hv
    simp only [qrfStep, hpv, hg, QrfHolders]
    exact h

theorem aux_qr_run (ops : List QrfOp) : ∀ l s, aux_qr_Inv l s → QrfProper l ops → aux_qr_Inv (QrfHolders l ops) (qrfRun s ops) := by
  induction ops with
  | nil => intro l s h _; exact h
  | cons op ops ih =>
    intro l s h hp
    have hs : QrfProper l [op] := by
      cases op with
      | share v w => exact ⟨hp.1, hp.2.1, trivial⟩
      | _ => exact ⟨hp.1, trivial⟩
    have hr : QrfProper (QrfHolders l [op]) ops := by
      cases op with
      | share v w => exact hp.2.2
      | _ => exact hp.2
    have := ih _ _ (aux_qr_step l s op h hs) hr
    have e : QrfHolders l (op :: ops) = QrfHolders (QrfHolders l [op]) ops := by cases op <;> rfl
    rw [e]
    exact this

theorem aux_qr_init : aux_qr_Inv [0] qrfInit :=
  ⟨by simp, rfl, rfl, rfl, (by intro v hv; rw [List.mem_singleton.mp hv]; rfl)⟩

/-- Calls made through variables that have a reference use no released memory; the counter is the
number of those variables, and the queue is released exactly when none is left. -/
theorem C152_proper_partial (ops : List QrfOp) (hp : QrfProper [0] ops) :
    (qrfRun qrfInit ops).bad = [] ∧ (qrfRun qrfInit ops).refs = (QrfHolders [0] ops).length ∧
      ((qrfRun qrfInit ops).gone = true ↔ QrfHolders [0] ops = []) := by
  obtain ⟨_, h2, h3, h4, _⟩ := aux_qr_run ops [0] qrfInit aux_qr_init hp
  refine ⟨h4, h2, ?_⟩
  rw [h3]
  exact List.isEmpty_iff

example : QrfProper [0] [.share 0 1, .unref 0, .use 1, .share 1 0, .safeUnref 1, .safeUnref 0] := by
  simp [QrfProper]

theorem aux_qr_append (a : List QrfOp) : ∀ s b, qrfRun s (a ++ b) = qrfRun (qrfRun s a) b := by
  induction a with
  | nil => intro s b; rfl
  | cons op a ih => intro s b; exact ih _ b

theorem aux_qr_proper (a : List QrfOp) : ∀ l b, QrfProper l (a ++ b) → QrfProper l a ∧ QrfProper (QrfHolders l a) b := by
  induction a with
  | nil => intro l b h; exact ⟨trivial, h⟩
  | cons op a ih =>
    intro l b h
    cases op with
    | share v w => obtain ⟨x, y, z⟩ := h; exact ⟨⟨x, y, (ih _ _ z).1⟩, (ih _ _ z).2⟩
    | unref v => obtain ⟨x, z⟩ := h; exact ⟨⟨x, (ih _ _ z).1⟩, (ih _ _ z).2⟩
    | safeUnref v => obtain ⟨x, z⟩ := h; exact ⟨⟨x, (ih _ _ z).1⟩, (ih _ _ z).2⟩
    | use v => obtain ⟨x, z⟩ := h; exact ⟨⟨x, (ih _ _ z).1⟩, (ih _ _ z).2⟩

/-- The safe release sets the variable to NULL exactly if no other variable has a reference. -/
theorem C152_null (ops : List QrfOp) (v : Nat) (hp : QrfProper [0] (ops ++ [.safeUnref v])) :
    (qrfRun qrfInit (ops ++ [.safeUnref v])).ptr v = false ↔ (QrfHolders [0] ops).erase v = [] := by
  obtain ⟨ha, hv, _⟩ := aux_qr_proper ops [0] _ hp
  have hI := aux_qr_run ops [0] qrfInit aux_qr_init ha
  obtain ⟨hpv, hg⟩ := aux_qr_live _ _ hI v hv
  obtain ⟨e1, e2, e3⟩ := aux_qr_erase _ v hv
  rw [aux_qr_append]
  simp only [qrfRun, qrfStep, hpv, hg, hI.2.1]
  by_cases h0 : (QrfHolders [0] ops).length - 1 = 0
  · simp [h0, QrfState.put, e2 h0]
  · simp only [Bool.true_eq_false, Bool.false_eq_true, if_false, h0, hpv]
    exact ⟨(by intro h; cases h), fun h => absurd h (e3 h0)⟩

/-- A safe release made twice through the same variable, while one other variable has a
reference, releases the queue that one is still using. -/
theorem C152_twice (ops : List QrfOp) (v w : Nat) (hp : QrfProper [0] ops) (hh : QrfHolders [0] ops = [w, v]) :
    (qrfRun qrfInit (ops ++ [.safeUnref v, .safeUnref v, .use w])).bad = [w] := by
  have hI := aux_qr_run ops [0] qrfInit aux_qr_init hp
  rw [hh] at hI
  obtain ⟨h1, h2, h3, h4, h5⟩ := hI
  have hne : w ≠ v := by
    intro e; subst e; simp at h1
  rw [aux_qr_append]
  generalize qrfRun qrfInit ops = s at h2 h3 h4 h5
  have hv := h5 v (by simp)
  have hw := h5 w (by simp)
  simp only [List.isEmpty_cons] at h3
  simp only [List.length_cons, List.length_nil] at h2
  simp [qrfRun, qrfStep, hv, hw, h3, h2, h4, QrfState.put, hne]

example : QrfProper [0] [.share 0 1] ∧ QrfHolders [0] [.share 0 1] = [1, 0] := by simp [QrfProper, QrfHolders]

theorem C152_statement_false : ¬ C152_statement := by
  intro h
  have hp : QrfProper [0] ([.share 0 1] ++ [.safeUnref 0]) := by simp [QrfProper]
  have := (C152_null [.share 0 1] 0 hp).mp (h _ _ hp)
  simp [QrfHolders] at this

end Verif.Props
