import Verif.Model.XmlRpcSlots
/-!
# C54: parameters and array items set by position
-/
namespace Verif.Props
open Verif.Model

/-- The property. The documentation asks not to mix adding and setting by position, so a history has only one of the two.
A value set at a valid position is found there, all values taken
over are released in the end, each once, and a call with a value at every position can be sent. -/
def C54_statement : Prop :=
  ∀ (count : Nat) (ops : List (Option Nat × Nat)), (ops.all (·.1.isNone) || ops.all (·.1.isSome)) = true →
    let arr := XSlots.run XSlots.arraySet (.new count) [] ops
    let call := XSlots.run XSlots.callSet (.new count) [] ops
    (∀ i v, i < count → (arr.1.arraySet i v).1.arrayGet i = some v) ∧ arr.1.free.Perm arr.2 ∧
    call.1.free.Perm call.2 ∧ ((∀ i, i < count → (call.1.callGet i).isSome = true) → call.1.callReady = true)

theorem aux_xl_add (set : XSlots → Nat → Nat → XSlots × Bool) (count : Nat) : ∀ (vs given : List Nat) (a : XSlots),
    a.added = given.length → a.freed = [] → a.places = given.map some ++ List.replicate (count - given.length) none → given.length ≤ count →
    ∃ k, XSlots.run set a given (vs.map fun v => (none, v)) =
        (⟨(given ++ vs.take k).length, (given ++ vs.take k).map some ++ List.replicate (count - (given ++ vs.take k).length) none, []⟩,
          given ++ vs.take k) ∧ (given ++ vs.take k).length = min count (given ++ vs).length := by
  intro vs
  induction vs with
  | nil =>
    intro given a h1 h2 h3 h4
    refine ⟨0, ?_, ?_⟩
    · simp only [List.map_nil, XSlots.run, List.take_nil, List.append_nil]
      obtain ⟨ad, pl, fr⟩ := a
      simp_all
    · simp; omega
  | cons v vs ih =>
    intro given a h1 h2 h3 h4
    have hlen : a.count = count := by
      unfold XSlots.count; rw [h3]; simp; omega
    simp only [List.map_cons, XSlots.run]
    by_cases hlt : given.length < count
    · have ha : a.add v = (⟨a.added + 1, a.places.set a.added (some v), a.freed⟩, true) := by
        unfold XSlots.add; rw [if_pos (by omega)]
      rw [ha]
      obtain ⟨k, e1, e2⟩ := ih (given ++ [v]) ⟨a.added + 1, a.places.set a.added (some v), a.freed⟩ (by simp [h1]) h2
        (by
          dsimp only
          rw [h3, h1, List.set_append_right _ _ (by simp)]
          obtain ⟨m, hm⟩ : ∃ m, count - given.length = m + 1 := ⟨count - given.length - 1, by omega⟩
          have hm' : count - (given ++ [v]).length = m := by simp; omega
          rw [hm, hm', List.replicate_succ]
          simp)
        (by simp; omega)
      refine ⟨k + 1, ?_, ?_⟩
      · simp only [if_true]
        rw [e1]
        simp
      · rw [show given ++ List.take (k + 1) (v :: vs) = given ++ [v] ++ vs.take k by simp, e2]; simp
    · have ha : a.add v = (a, false) := by
        unfold XSlots.add; rw [if_neg (by omega)]
      rw [ha]
      obtain ⟨k, e1, e2⟩ := ih given a h1 h2 h3 h4
      have hk : vs.take k = [] := by
        have : (given ++ vs.take k).length = min count (given ++ vs).length := e2
        simp only [List.length_append] at this
        have : (vs.take k).length = 0 := by omega
        exact List.length_eq_zero_iff.mp this
      refine ⟨0, ?_, ?_⟩
      · simp only [Bool.false_eq_true, if_false]
        rw [e1, hk]; simp
      · simp; omega

/-- **C54**, partial: values that are added. The first ones, as many as there is room for, are taken and found in order;
in the end they are released, each once; a call is sent when all are there. Missing: values set by position, see below. -/
theorem C54_added_partial (set : XSlots → Nat → Nat → XSlots × Bool) (count : Nat) (vs : List Nat) :
    let r := XSlots.run set (.new count) [] (vs.map fun v => (none, v))
    r.2 = vs.take count ∧ r.1.free = vs.take count ∧ (∀ i, r.1.arrayGet i = (vs.take count)[i]?) ∧
    (∀ i, r.1.callGet i = (vs.take count)[i]?) ∧ (r.1.callReady = true ↔ count ≤ vs.length) := by
  obtain ⟨k, e1, e2⟩ := aux_xl_add set count vs [] (.new count) rfl rfl (by simp [XSlots.new]) (by simp)
  simp only [List.nil_append] at e1 e2
  have hk : vs.take k = vs.take count := by
    rw [List.length_take] at e2
    rcases Nat.lt_or_ge k vs.length with h | h
    · have h1 : k = min count vs.length := by omega
      rcases Nat.lt_or_ge count vs.length with h2 | h2
      · rw [h1, Nat.min_eq_left (by omega)]
      · omega
    · rw [List.take_of_length_le h, List.take_of_length_le (by omega)]
  rw [hk] at e1 e2
  dsimp only
  rw [e1]
  have hl := e2
  generalize hw : vs.take count = w at hl ⊢
  refine ⟨rfl, ?_, ?_, ?_, ?_⟩
  · unfold XSlots.free
    simp only [List.nil_append]
    rw [List.take_append_of_le_length (by simp), List.take_of_length_le (by simp)]
    simp [List.filterMap_map]
  · intro i
    unfold XSlots.arrayGet
    dsimp only
    by_cases hi : i < w.length
    · rw [if_pos hi, List.getElem?_append_left (by simpa using hi)]
      simp [List.getElem?_eq_getElem hi]
    · rw [if_neg hi, List.getElem?_eq_none (by omega)]
  · intro i
    unfold XSlots.callGet
    dsimp only
    by_cases hi : i < w.length
    · rw [List.getElem?_append_left (by simpa using hi)]
      simp [List.getElem?_eq_getElem hi]
    · rw [List.getElem?_append_right (by simp; omega), List.getElem?_eq_none (l := w) (by omega), List.getElem?_replicate]
      split <;> rfl
  · unfold XSlots.callReady XSlots.count
    simp only [List.length_append, List.length_map, List.length_replicate, decide_eq_true_eq]
    omega

example : (XSlots.run XSlots.arraySet (.new 2) [] [(none, 7), (none, 8), (none, 9)]) = (⟨2, [some 7, some 8], []⟩, [7, 8]) := by
  decide

/-- **Violation**: an item set by position in a new array is not found, and is not released with the array. -/
theorem C54_array_set_lost :
    ((XSlots.new 2).arraySet 0 7).1.arrayGet 0 = none ∧ ((XSlots.new 2).arraySet 0 7).2 = true ∧
    ((XSlots.new 2).arraySet 0 7).1.free = [] := by decide

/-- **Violation**: an item that is replaced is not released. -/
theorem C54_array_replace_leaks :
    (XSlots.run XSlots.arraySet (.new 1) [] [(none, 7), (some 0, 8)]).1.free = [8] ∧
    (XSlots.run XSlots.arraySet (.new 1) [] [(none, 7), (some 0, 8)]).2 = [7, 8] := by decide

/-- **Violation**: a call whose parameters are set by position is never sent, and does not release them. -/
theorem C54_call_set_not_sent (vs : List Nat) (hv : vs ≠ []) :
    let r := XSlots.run XSlots.callSet (.new vs.length) [] (vs.zipIdx.map fun (v, i) => (some i, v))
    r.1.callReady = false ∧ r.1.added = 0 := by
  have H : ∀ (ops : List (Nat × Nat)) (a : XSlots) (given : List Nat), a.added = 0 → a.count = vs.length →
      (XSlots.run XSlots.callSet a given (ops.map fun (v, i) => (some i, v))).1.added = 0 ∧
      (XSlots.run XSlots.callSet a given (ops.map fun (v, i) => (some i, v))).1.count = vs.length := by
    intro ops
    induction ops with
    | nil => intro a given h1 h2; exact ⟨h1, h2⟩
    | cons op ops ih =>
      intro a given h1 h2
      simp only [List.map_cons, XSlots.run]
      refine ih _ _ ?_ ?_
      · unfold XSlots.callSet; split <;> simp [h1]
      · unfold XSlots.callSet; split
        · simpa [XSlots.count] using h2
        · exact h2
  have := H vs.zipIdx (.new vs.length) [] rfl (by simp [XSlots.count, XSlots.new])
  refine ⟨?_, this.1⟩
  unfold XSlots.callReady
  rw [this.1, this.2]
  have : vs.length ≠ 0 := by simpa using hv
  simpa using this

/-- A parameter set at a valid position is found there; the others stay. A wrong position changes nothing. -/
theorem C54_call_set_get (a : XSlots) (i v j : Nat) :
    (a.callSet i v).1.callGet j = (if i < a.count ∧ j = i then some v else a.callGet j) ∧
    (a.callSet i v).2 = decide (i < a.count) := by
  unfold XSlots.callSet XSlots.callGet
  by_cases h : i < a.count
  · rw [if_pos h]
    refine ⟨?_, by simp [h]⟩
    dsimp only
    have h' : i < a.places.length := h
    by_cases hj : j = i
    · subst hj; simp [h, h']
    · rw [List.getElem?_set_ne (by omega)]; simp [hj]
  · simp [h]

theorem aux_xl_set_perm (i v : Nat) : ∀ (l : List (Option Nat)) (fr : List Nat), i < l.length →
    ((match l[i]?.getD none with | some old => fr ++ [old] | none => fr) ++ (l.set i (some v)).filterMap id).Perm
      (fr ++ l.filterMap id ++ [v]) := by
  induction i with
  | zero =>
    intro l fr h
    cases l with
    | nil => simp at h
    | cons x l =>
      cases x with
      | none =>
        simp only [List.getElem?_cons_zero, Option.getD_some, List.set_cons_zero, List.filterMap_cons, id]
        rw [List.append_assoc]
        exact List.Perm.append_left _ (List.perm_append_comm (l₁ := [v]))
      | some y =>
        simp only [List.getElem?_cons_zero, Option.getD_some, List.set_cons_zero, List.filterMap_cons, id]
        rw [List.append_assoc, List.append_assoc]
        refine List.Perm.append_left _ ?_
        simp only [List.cons_append, List.nil_append]
        exact List.Perm.cons _ (List.perm_append_comm (l₁ := [v]))
  | succ i ih =>
    intro l fr h
    cases l with
    | nil => simp at h
    | cons x l =>
      have := ih l (fr ++ x.toList) (by simpa using h)
      simp only [List.getElem?_cons_succ, List.set_cons_succ, List.filterMap_cons, id]
      cases x with
      | none => simpa using this
      | some y =>
        simp only [Option.toList] at this
        rw [show fr ++ y :: List.filterMap id l ++ [v] = fr ++ [y] ++ List.filterMap id l ++ [v] by simp]
        refine List.Perm.trans ?_ this
        cases l[i]?.getD none with
        | none => simp
        | some z =>
          simp only [List.append_assoc, List.cons_append, List.nil_append]
          exact List.Perm.append_left _ (List.Perm.swap _ _ _)

/-- **C54**, partial, parameters set by position: each value taken is either still in its place or was released, once.
Missing: the values in place are not released with the call, and it cannot be sent (below). -/
theorem C54_call_set_partial (count : Nat) (ops : List (Nat × Nat)) :
    let r := XSlots.run XSlots.callSet (.new count) [] (ops.map fun (i, v) => (some i, v))
    (r.1.freed ++ r.1.places.filterMap id).Perm r.2 ∧ r.2 = (ops.filter (·.1 < count)).map (·.2) := by
  have H : ∀ (ops : List (Nat × Nat)) (a : XSlots) (given : List Nat), a.count = count →
      (a.freed ++ a.places.filterMap id).Perm given →
      ((XSlots.run XSlots.callSet a given (ops.map fun (i, v) => (some i, v))).1.freed ++
        (XSlots.run XSlots.callSet a given (ops.map fun (i, v) => (some i, v))).1.places.filterMap id).Perm
        (XSlots.run XSlots.callSet a given (ops.map fun (i, v) => (some i, v))).2 ∧
      (XSlots.run XSlots.callSet a given (ops.map fun (i, v) => (some i, v))).2 =
        given ++ (ops.filter (·.1 < count)).map (·.2) := by
    intro ops
    induction ops with
    | nil => intro a given _ h; exact ⟨h, by simp [XSlots.run]⟩
    | cons op ops ih =>
      obtain ⟨i, v⟩ := op
      intro a given hc h
      simp only [List.map_cons, XSlots.run]
      by_cases hi : i < a.count
      · have e : a.callSet i v = (⟨a.added, a.places.set i (some v),
            match a.places[i]?.getD none with | some old => a.freed ++ [old] | none => a.freed⟩, true) := by
          unfold XSlots.callSet; rw [if_pos hi]; rfl
        simp only [e]
        have := ih ⟨a.added, a.places.set i (some v),
            match a.places[i]?.getD none with | some old => a.freed ++ [old] | none => a.freed⟩ (given ++ [v])
            (by simpa [XSlots.count] using hc) ((aux_xl_set_perm i v a.places a.freed hi).trans (h.append_right _))
        simp only [if_true]
        refine ⟨this.1, this.2.trans ?_⟩
        rw [hc] at hi
        simp [hi]
      · have e : a.callSet i v = (a, false) := by unfold XSlots.callSet; rw [if_neg hi]
        simp only [e, Bool.false_eq_true, if_false]
        have := ih a given hc h
        refine ⟨this.1, this.2.trans ?_⟩
        rw [hc] at hi
        simp [hi]
  have h0 : ((XSlots.new count).freed ++ (XSlots.new count).places.filterMap id).Perm [] := by
    simp [XSlots.new, List.filterMap_replicate]
  have := H ops (.new count) [] (by simp [XSlots.count, XSlots.new]) h0
  exact ⟨this.1, by simpa using this.2⟩

example : XSlots.run XSlots.callSet (.new 2) [] [(some 1, 7), (some 0, 8), (some 1, 9), (some 2, 5)] =
    (⟨0, [some 8, some 9], [7]⟩, [7, 8, 9]) := by decide

theorem C54_statement_false : ¬ C54_statement := by
  intro h
  have := (h 2 [] rfl).1 0 7 (by omega)
  exact absurd this (by decide)

end Verif.Props
