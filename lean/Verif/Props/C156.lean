import Verif.Spec.ListenConf
/-!
# C156 Listeners of the configuration file
-/
namespace Verif.Props
open Verif.Model Verif.Spec

theorem aux_lc_item (i : LcfItem) : lcfItemValid i = true ↔ ∃ l : String × String, i = ⟨"listener", [("hostname", l.1), ("port", l.2)]⟩ := by
  constructor
  · intro h
    obtain ⟨n, cs⟩ := i
    simp only [lcfItemValid, Bool.and_eq_true, beq_iff_eq] at h
    obtain ⟨hn, h⟩ := h
    subst hn
    match cs, h with
    | [(a1, a2), (b1, b2)], h =>
      simp only [Bool.and_eq_true, beq_iff_eq] at h
      exact ⟨(a2, b2), by rw [h.1, h.2]⟩
    | [], h => cases h
    | [_], h => cases h
    | _ :: _ :: _ :: _, h => cases h
  · rintro ⟨l, rfl⟩
    simp [lcfItemValid]

theorem aux_lc_items (is : List LcfItem) : is.all lcfItemValid = true →
    ∃ ls : List (String × String), is = ls.map fun l => ⟨"listener", [("hostname", l.1), ("port", l.2)]⟩ := by
  induction is with
  | nil => intro _; exact ⟨[], rfl⟩
  | cons i is ih =>
    intro h
    simp only [List.all_cons, Bool.and_eq_true] at h
    obtain ⟨l, hl⟩ := (aux_lc_item i).1 h.1
    obtain ⟨ls, hls⟩ := ih h.2
    exact ⟨l :: ls, by rw [hl, hls]; rfl⟩

theorem aux_lc_valid (d : LcfDoc) : lcfValid d = true ↔ ∃ ls, LcfAsks (some d) ls := by
  constructor
  · intro h
    simp only [lcfValid, Bool.and_eq_true, beq_iff_eq] at h
    obtain ⟨⟨hr, hne⟩, hall⟩ := h
    obtain ⟨ls, hls⟩ := aux_lc_items d.items hall
    refine ⟨ls, ?_, ?_⟩
    · rintro rfl
      rw [hls] at hne
      simp at hne
    · obtain ⟨r, is⟩ := d
      simp only at hr hls
      rw [hr, hls]; rfl
  · rintro ⟨ls, hne, h⟩
    injection h with h
    subst h
    cases ls with
    | nil => exact absurd rfl hne
    | cons l ls => simp [lcfValid, LcfWritten, lcfItemValid]

theorem aux_lc_tried (up : List (String × String) → String × String → Bool) (ls : List (String × String)) :
    ∀ r, (lcfLoop up r (LcfWritten ls).items).1 = ls := by
  induction ls with
  | nil => intro r; rfl
  | cons l ls ih =>
    intro r
    have := ih (if up r l then r ++ [l] else r)
    simp only [LcfWritten] at this
    simp [LcfWritten, lcfLoop, lcfNth, this]

theorem aux_lc_all (up : List (String × String) → String × String → Bool) (ls : List (String × String)) :
    ∀ r, (∀ a l b, ls = a ++ l :: b → up (r ++ a) l = true) → (lcfLoop up r (LcfWritten ls).items).2 = r ++ ls := by
  induction ls with
  | nil => intro r _; simp [LcfWritten, lcfLoop]
  | cons l ls ih =>
    intro r h
    have hl : up r l = true := by simpa using h [] l ls rfl
    have := ih (r ++ [l]) (fun a m b e => by simpa using h (l :: a) m b (by rw [e]; rfl))
    simp only [LcfWritten] at this
    simp [LcfWritten, lcfLoop, lcfNth, this, hl]

theorem aux_lc_sub (up : List (String × String) → String × String → Bool) (ls : List (String × String)) :
    ∀ r, ∃ s, s.Sublist ls ∧ (lcfLoop up r (LcfWritten ls).items).2 = r ++ s := by
  induction ls with
  | nil => intro r; exact ⟨[], List.Sublist.refl _, by simp [LcfWritten, lcfLoop]⟩
  | cons l ls ih =>
    intro r
    obtain ⟨s, hs, e⟩ := ih (if up r l then r ++ [l] else r)
    simp only [LcfWritten] at e
    cases hu : up r l with
    | true =>
      refine ⟨l :: s, hs.cons_cons l, ?_⟩
      simp only [hu, if_true] at e
      simp [LcfWritten, lcfLoop, lcfNth, hu, e]
    | false =>
      refine ⟨s, hs.cons l, ?_⟩
      simp [hu] at e
      simp [LcfWritten, lcfLoop, lcfNth, hu, e]

/-- **C156, listeners.** The listeners tried are those the file asks for, all of them, in order, whatever becomes of each; those that run
are some of them, in order; and the call says yes. -/
theorem C156_tried_partial (w : LcfWorld) (ls : List (String × String)) (h : LcfAsks w.file ls) (hd : w.dtd = true) :
    (lcfStart w).1 = 1 ∧ (lcfStart w).2.1 = ls ∧ (lcfStart w).2.2.Sublist ls := by
  have hv : lcfValid (LcfWritten ls) = true := (aux_lc_valid _).2 ⟨ls, h.1, rfl⟩
  have e : lcfStart w = (1, lcfLoop w.up [] (LcfWritten ls).items) := by simp [lcfStart, h.2, hd, hv]
  obtain ⟨s, hs, hr⟩ := aux_lc_sub w.up ls []
  rw [e]
  refine ⟨rfl, aux_lc_tried w.up ls [], ?_⟩
  show (lcfLoop w.up [] (LcfWritten ls).items).2.Sublist ls
  rw [hr]; simpa using hs

example : LcfAsks (some ⟨"vortex-listener", [⟨"listener", [("hostname", "0.0.0.0"), ("port", "44000")]⟩]⟩) [("0.0.0.0", "44000")] :=
  ⟨by simp, rfl⟩

/-- **C156, all.** If each listener starts, all run. -/
theorem C156_all_partial (w : LcfWorld) (ls : List (String × String)) (h : LcfAsks w.file ls) (hd : w.dtd = true) (hu : LcfAllStart w.up ls) :
    (lcfStart w).1 = 1 ∧ (lcfStart w).2.2 = ls := by
  have hv : lcfValid (LcfWritten ls) = true := (aux_lc_valid _).2 ⟨ls, h.1, rfl⟩
  have e : lcfStart w = (1, lcfLoop w.up [] (LcfWritten ls).items) := by simp [lcfStart, h.2, hd, hv]
  rw [e]
  exact ⟨rfl, by simpa using aux_lc_all w.up ls [] (fun a l b e => by simpa using hu a l b e)⟩

example : LcfAllStart (fun r l => !r.contains l) [("0.0.0.0", "44000"), ("0.0.0.0", "44001")] := by
  intro a l b h
  match a, h with
  | [], h => simp at h; rw [← h.1]; decide +kernel
  | [x], h => simp at h; rw [← h.1, ← h.2.1]; decide +kernel
  | x :: y :: a, h => simp at h

/-- **C156, other files.** If the file asks for no listeners, nothing is tried and nothing runs. -/
theorem C156_nothing_partial (w : LcfWorld) (h : ¬ ∃ ls, LcfAsks w.file ls) : (lcfStart w).2 = ([], []) := by
  unfold lcfStart
  split
  · rfl
  · rename_i d hf
    rw [hf] at h
    have hv : lcfValid d = false := by
      cases hv : lcfValid d
      · rfl
      · exact absurd ((aux_lc_valid d).1 hv) h
    simp only [hv]
    split <;> rfl

/-- **C156, no file.** The call says no exactly if there is no document. -/
theorem C156_refused_partial (w : LcfWorld) : (lcfStart w).1 = 0 ↔ w.file = none := by
  unfold lcfStart
  split
  · rename_i hf; simp [hf]
  · rename_i d hf
    rw [hf]
    split
    · simp
    · split <;> simp

example : ¬ ∃ ls, LcfAsks (some ⟨"vortex-listener", []⟩) ls := by
  rintro ⟨ls, hne, h⟩
  cases ls with
  | nil => exact hne rfl
  | cons l ls => simp [LcfWritten] at h

/-- **C156 is violated**: for every document that is not a configuration, the call says yes (-1), and nothing runs. -/
theorem C156_invalid (w : LcfWorld) (d : LcfDoc) (hf : w.file = some d) (h : ¬ ∃ ls, LcfAsks w.file ls) :
    (lcfStart w).1 = -1 ∧ (lcfStart w).2.2 = [] := by
  refine ⟨?_, by rw [C156_nothing_partial w h]⟩
  rw [hf] at h
  have hv : lcfValid d = false := by
    cases hv : lcfValid d
    · rfl
    · exact absurd ((aux_lc_valid d).1 hv) h
  simp only [lcfStart, hf, hv]
  split <;> rfl

/-- **C156 is violated**: with listeners none of which starts, the call says yes. -/
theorem C156_deaf (ls : List (String × String)) (hne : ls ≠ []) :
    (lcfStart ⟨some (LcfWritten ls), true, fun _ _ => false⟩).1 = 1 ∧
      (lcfStart ⟨some (LcfWritten ls), true, fun _ _ => false⟩).2.2 = [] := by
  have h := C156_tried_partial ⟨some (LcfWritten ls), true, fun _ _ => false⟩ ls ⟨hne, rfl⟩ rfl
  refine ⟨h.1, ?_⟩
  have hv : lcfValid (LcfWritten ls) = true := (aux_lc_valid _).2 ⟨ls, hne, rfl⟩
  have key : ∀ is : List LcfItem, (lcfLoop (fun _ _ => false) [] is).2 = [] := by
    intro is
    induction is with
    | nil => rfl
    | cons i is ih => simpa [lcfLoop] using ih
  simp [lcfStart, hv, key]

example : (lcfStart ⟨some ⟨"vortex-listener", [⟨"listener", [("hostname", "0.0.0.0"), ("port", "44000")]⟩]⟩, true, fun _ _ => false⟩) =
    (1, [("0.0.0.0", "44000")], []) := by decide +kernel

/-- C156 does not hold as stated. -/
theorem C156_statement_false : ¬ C156_statement := by
  intro h
  have hd := C156_deaf [("0.0.0.0", "44000")] (by simp)
  obtain ⟨ls, hl, hr⟩ := ((h ⟨some (LcfWritten [("0.0.0.0", "44000")]), true, fun _ _ => false⟩).1).1 (by rw [hd.1]; decide)
  rw [hd.2] at hr
  exact hl.1 hr.symm

end Verif.Props
