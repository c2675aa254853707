import Verif.Spec.PyException
/-!
# C159 Reports of exceptions of Python programs
-/
namespace Verif.Props
open Verif.Model Verif.Spec

theorem aux_px_join (ls : List (List Char)) : ∀ s, pexJoin s (some ls) = s ++ ls.flatten := by
  simp only [pexJoin]
  induction ls with
  | nil => intro s; simp
  | cons l ls ih => intro s; simp [ih]

/-- **C159, no exception.** Without an exception nothing happens. -/
theorem C159_none (w : PexWorld) (h : w.raised = false) : pexHandle w = ⟨false, none, none, none, false, false⟩ := by
  simp [pexHandle, h]

/-- **C159, found.** The answer is whether there was an exception, and the connection is shut down exactly if there was one and the
program is not the initiator. -/
theorem C159_found (w : PexWorld) :
    ((pexHandle w).found = true ↔ w.raised = true) ∧ ((pexHandle w).shut = true ↔ w.raised = true ∧ w.conn = some false) := by
  unfold pexHandle
  cases hr : w.raised with
  | false => simp
  | true =>
    refine ⟨?_, by simp⟩
    simp only [if_true, iff_true]
    cases w.module with
    | false => rfl
    | true =>
      show (pexReport w).found = true
      unfold pexReport
      cases w.handler with
      | true => rfl
      | false => cases w.log <;> rfl

/-- **C159, handler.** The handler gets the text of all lines, in order, without the end of the last line, with each `%` as a `#`; nothing
is printed or logged, and no other memory is touched. -/
theorem C159_handler_partial (w : PexWorld) (text : List Char) (hr : w.raised = true) (hm : w.module = true) (hh : w.handler = true)
    (ht : PexText w.lines text) :
    ∃ t, (pexHandle w).told = some t ∧ PexSame text t ∧ '%' ∉ t ∧ (pexHandle w).bad = false ∧ (pexHandle w).printed = none ∧
      (pexHandle w).logged = none := by
  obtain ⟨ls, c, hl, hf⟩ := ht
  have e : pexReport w = { found := true, told := some (pexHash text), bad := false } := by
    simp [pexReport, hh, hl, aux_px_join, hf]
  refine ⟨pexHash text, by simp [pexHandle, hr, hm, e], ⟨by simp [pexHash], ?_⟩, ?_, by simp [pexHandle, hr, hm, e],
    by simp [pexHandle, hr, hm, e], by simp [pexHandle, hr, hm, e]⟩
  · intro i c hc
    simp [pexHash, hc]
  · intro hp
    simp only [pexHash, List.mem_map] at hp
    obtain ⟨x, _, hx⟩ := hp
    split at hx
    · exact absurd hx (by decide)
    · rename_i hne; exact hne hx

example : PexText (some ["Traceback:\n".toList, "E: 5%\n".toList]) "Traceback:\nE: 5%".toList ∧
    (pexHandle ⟨true, true, some ["Traceback:\n".toList, "E: 5%\n".toList], true, false, some false⟩) =
      ⟨true, some "Traceback:\nE: 5#".toList, none, none, false, true⟩ :=
  ⟨⟨_, '\n', rfl, by decide +kernel⟩, by decide +kernel⟩

/-- **C159, console.** Without handler and log, all lines are printed as they are, after the first line of the bindings. -/
theorem C159_printed_partial (w : PexWorld) (ls : List (List Char)) (hr : w.raised = true) (hm : w.module = true) (hh : w.handler = false)
    (hg : w.log = false) (hl : w.lines = some ls) :
    (pexHandle w).printed = some ("PyVortex found exception inside: \n".toList ++ ls.flatten) ∧ (pexHandle w).bad = false ∧
      (pexHandle w).told = none := by
  have e : pexReport w = { found := true, printed := some (pexPrefix ++ ls.flatten) } := by simp [pexReport, hh, hg, hl, aux_px_join]
  refine ⟨by show (pexHandle w).printed = some (pexPrefix ++ ls.flatten); simp [pexHandle, hr, hm, e], by simp [pexHandle, hr, hm, e], by simp [pexHandle, hr, hm, e]⟩

theorem aux_px_plain (t : List Char) (h : '%' ∉ t) : pexDirective t = false := by
  induction t with
  | nil => rfl
  | cons c t ih =>
    simp only [List.mem_cons, not_or] at h
    unfold pexDirective
    split
    · rename_i e; injection e with e1; exact absurd e1.symm h.1
    · rename_i e; injection e with e1; exact absurd e1.symm h.1
    · rename_i e; injection e with _ e2; rw [← e2]; exact ih h.2
    · rfl

/-- **C159, log.** Without handler, and with the log, the text is logged without the end of the last line, and nothing else is read if
there is no `%` in it. -/
theorem C159_logged_partial (w : PexWorld) (text : List Char) (hr : w.raised = true) (hm : w.module = true) (hh : w.handler = false)
    (hg : w.log = true) (ht : PexText w.lines text) (hp : '%' ∉ text) :
    (pexHandle w).logged = some ("PyVortex found exception inside: \n".toList ++ text) ∧ (pexHandle w).bad = false := by
  obtain ⟨ls, c, hl, hf⟩ := ht
  have e : (pexPrefix ++ ls.flatten).dropLast = pexPrefix ++ text := by rw [hf, ← List.append_assoc]; simp
  have hd : pexDirective (pexPrefix ++ text) = false := by
    apply aux_px_plain
    simp only [List.mem_append, not_or]
    exact ⟨by decide +kernel, hp⟩
  have r : pexReport w = { found := true, logged := some (pexPrefix ++ text), bad := false } := by
    simp [pexReport, hh, hg, hl, aux_px_join, e, hd]
  exact ⟨by show (pexHandle w).logged = some (pexPrefix ++ text); simp [pexHandle, hr, hm, r], by simp [pexHandle, hr, hm, r]⟩

/-- **C159 is violated**: with a handler, if the exception cannot be formatted, or has no text, memory before the text is written. -/
theorem C159_before (w : PexWorld) (hr : w.raised = true) (hm : w.module = true) (hh : w.handler = true)
    (hl : w.lines = none ∨ ∃ ls, w.lines = some ls ∧ ls.flatten = []) : (pexHandle w).bad = true := by
  rcases hl with hl | ⟨ls, hl, hf⟩
  · simp [pexHandle, pexReport, hr, hm, hh, hl, pexJoin]
  · simp [pexHandle, pexReport, hr, hm, hh, hl, aux_px_join, hf]

theorem aux_px_after (a t : List Char) (ha : '%' ∉ a) : pexDirective (a ++ t) = pexDirective t := by
  induction a with
  | nil => rfl
  | cons c a ih =>
    simp only [List.mem_cons, not_or] at ha
    rw [List.cons_append, ← ih ha.2]
    conv => lhs; unfold pexDirective
    split
    · rename_i e; injection e with e1; exact absurd e1.symm ha.1
    · rename_i e; injection e with e1; exact absurd e1.symm ha.1
    · rename_i e; injection e with _ e2; rw [e2]
    · rename_i e; cases e

/-- **C159 is violated**: with the log and without handler, a `%` in the text of the exception is a directive. -/
theorem C159_directive (w : PexWorld) (a b : List Char) (c : Char) (hr : w.raised = true) (hm : w.module = true) (hh : w.handler = false)
    (hg : w.log = true) (ha : '%' ∉ a) (hc : c ≠ '%') (ht : PexText w.lines (a ++ '%' :: c :: b)) : (pexHandle w).bad = true := by
  obtain ⟨ls, x, hl, hf⟩ := ht
  have e : (pexPrefix ++ ls.flatten).dropLast = (pexPrefix ++ a) ++ '%' :: c :: b := by
    rw [hf, ← List.append_assoc, List.dropLast_concat, List.append_assoc]
  have hd : pexDirective ((pexPrefix ++ a) ++ '%' :: c :: b) = true := by
    rw [aux_px_after]
    · simp [pexDirective, hc]
    · simp only [List.mem_append, not_or]
      exact ⟨by decide +kernel, ha⟩
  have r : pexReport w = { found := true, logged := some ((pexPrefix ++ a) ++ '%' :: c :: b), bad := true } := by
    simp only [pexReport, hh, hg, hl, aux_px_join, Bool.false_eq_true, if_false, if_true, e, hd]
  simp [pexHandle, hr, hm, r]

/-- **C159 is violated**: if the module cannot be loaded, the exception is not reported to anyone. -/
theorem C159_lost (w : PexWorld) (hr : w.raised = true) (hm : w.module = false) :
    (pexHandle w).told = none ∧ (pexHandle w).logged = none ∧ (pexHandle w).printed = none := by
  simp [pexHandle, hr, hm]

example : (pexHandle ⟨true, true, some ["E: 5%s\n".toList], false, true, none⟩).bad = true ∧
    (pexHandle ⟨true, true, none, true, false, none⟩).bad = true := by decide +kernel

/-- C159 does not hold as stated. -/
theorem C159_statement_false : ¬ C159_statement := by
  intro h
  have := (h ⟨true, true, none, true, false, none⟩ rfl).2.1
  rw [C159_before _ rfl rfl rfl (Or.inl rfl)] at this
  cases this

end Verif.Props
