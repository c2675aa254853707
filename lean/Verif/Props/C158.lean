import Verif.Spec.Environ
/-!
# C158 Environment variables
-/
namespace Verif.Props
open Verif.Model Verif.Spec

theorem aux_ev_run (t : EvrTable) (a b : List EvrOp) : evrRun t (a ++ b) = evrRun (evrRun t a) b := by simp [evrRun]

theorem aux_ev_setenv (t : EvrTable) (n m v : List Char) (mem : Bool) (h : n ≠ m) : (evrSetenv t n v mem).2 m = t m := by
  unfold evrSetenv
  split
  · rfl
  · simp [Ne.symm h]

theorem aux_ev_other (t : EvrTable) (name : List Char) (o : EvrOp) (h : ¬ EvrAbout name o) : (evrStep t o).2 name = t name := by
  unfold evrStep
  split
  · exact aux_ev_setenv _ _ _ _ _ (fun e => h (by simp [EvrAbout, e]))
  · rfl
  · exact aux_ev_setenv _ _ _ _ _ (fun e => h (by simp [EvrAbout, e]))
  · rfl

theorem aux_ev_quiet (name : List Char) (ops : List EvrOp) : EvrQuiet name ops → ∀ t : EvrTable, evrRun t ops name = t name := by
  induction ops with
  | nil => intro _ t; rfl
  | cons o ops ih =>
    intro h t
    have := ih (fun x hx => h x (List.mem_cons_of_mem _ hx)) (evrStep t o).2
    rw [← aux_ev_other t name o (h o List.mem_cons_self)]
    exact this

theorem aux_ev_last (t : EvrTable) (pre post : List EvrOp) (o : EvrOp) (name : List Char) (h : EvrQuiet name post) :
    evrRun t (pre ++ o :: post) name = (evrStep (evrRun t pre) o).2 name := by
  rw [aux_ev_run]
  exact aux_ev_quiet name post h _

/-- **C158, others.** Calls about other variables change nothing. -/
theorem C158_quiet (t : EvrTable) (name : List Char) (ops : List EvrOp) (h : EvrQuiet name ops) : evrGet (evrRun t ops) name = evrGet t name :=
  aux_ev_quiet name ops h t

/-- **C158, set.** The value set last is the value read, and a call that fails changes nothing. -/
theorem C158_set (t : EvrTable) (pre post : List EvrOp) (name v : List Char) (mem : Bool) (h : EvrQuiet name post) :
    evrGet (evrRun t (pre ++ .set (some name) (some v) mem :: post)) name =
      if (evrStep (evrRun t pre) (.set (some name) (some v) mem)).1 then some v else evrGet (evrRun t pre) name := by
  unfold evrGet
  rw [aux_ev_last t pre post _ name h]
  simp only [evrStep, evrSetenv]
  split <;> simp

/-- **C158, when setting works.** Exactly for names that are not empty and have no `=`, if there is memory. -/
theorem C158_works (t : EvrTable) (name v : List Char) (mem : Bool) :
    (evrStep t (.set (some name) (some v) mem)).1 = true ↔ name ≠ [] ∧ '=' ∉ name ∧ mem = true := by
  simp only [evrStep, evrSetenv]
  split
  · rename_i h
    constructor
    · intro h'; cases h'
    · rintro ⟨a, b, c⟩
      rcases h with h | h | h
      · exact absurd h a
      · exact absurd h b
      · rw [c] at h; cases h
  · rename_i h
    simp only [not_or] at h
    simp [h.1, h.2.1, h.2.2]

example : EvrQuiet "A".toList [.set (some "B".toList) (some "2".toList) true, .unset (some "C".toList) true] ∧
    evrGet (evrRun (fun _ => none) [.set (some "A".toList) (some "1".toList) true, .set (some "B".toList) (some "2".toList) true]) "A".toList =
      some "1".toList := by
  refine ⟨?_, by decide +kernel⟩
  intro o ho
  simp at ho
  rcases ho with rfl | rfl <;> simp [EvrAbout]

theorem aux_ev_digits (t : List Char) (n : Nat) (h : EvrNatural t n) :
    (∀ c ∈ t, c.isDigit = true) ∧ t.foldl (fun n c => n * 10 + (c.toNat - 48)) 0 = n ∧ t ≠ [] := by
  induction h with
  | one d hd => exact ⟨by simpa using hd, by simp, by simp⟩
  | more t n d _ hd ih =>
    refine ⟨?_, ?_, by simp⟩
    · intro c hc
      simp only [List.mem_append, List.mem_singleton] at hc
      rcases hc with hc | hc
      · exact ih.1 c hc
      · rw [hc]; exact hd
    · rw [List.foldl_append, ih.2.1]
      simp only [List.foldl_cons, List.foldl_nil]
      omega

theorem aux_ev_take (t : List Char) (h : ∀ c ∈ t, c.isDigit = true) : t.takeWhile Char.isDigit = t := by
  induction t with
  | nil => rfl
  | cons c t ih => simp [h c List.mem_cons_self, ih (fun x hx => h x (List.mem_cons_of_mem _ hx))]

theorem aux_ev_natural (t : List Char) (n : Nat) (h : EvrNatural t n) : evrDigits t = n := by
  unfold evrDigits
  rw [aux_ev_take t (aux_ev_digits t n h).1, (aux_ev_digits t n h).2.1]

theorem aux_ev_strtol (t : List Char) (z : Int) (h : EvrNumber t z) (h1 : -9223372036854775808 ≤ z) (h2 : z ≤ 9223372036854775807) :
    evrStrtol t = z := by
  cases h with
  | plus t n hn => simp only [evrStrtol, aux_ev_natural t n hn]; omega
  | minus t n hn => simp only [evrStrtol, aux_ev_natural t n hn]; omega
  | plain _ n hn =>
    have hd := (aux_ev_digits t n hn).1
    unfold evrStrtol
    split
    · exact absurd (hd '-' List.mem_cons_self) (by decide)
    · exact absurd (hd '+' List.mem_cons_self) (by decide)
    · rw [aux_ev_natural t n hn]; omega

/-- **C158, numbers.** A variable set to a number of 64 bits is read as that number modulo 2^32. -/
theorem C158_number_partial (t : EvrTable) (pre post : List EvrOp) (name v : List Char) (z : Int) (h : EvrQuiet name post)
    (hw : name ≠ [] ∧ '=' ∉ name) (hv : EvrNumber v z) (h1 : -9223372036854775808 ≤ z) (h2 : z ≤ 9223372036854775807) :
    evrGetInt (evrRun t (pre ++ .set (some name) (some v) true :: post)) name = (z + 2147483648) % 4294967296 - 2147483648 := by
  have hs := C158_set t pre post name v true h
  rw [(C158_works (evrRun t pre) name v true).2 ⟨hw.1, hw.2, rfl⟩, if_pos rfl] at hs
  unfold evrGet at hs
  simp only [evrGetInt, hs, aux_ev_strtol v z hv h1 h2, i32]

/-- **C158, numbers of type `int`** are read as they were set. -/
theorem C158_int_partial (t : EvrTable) (pre post : List EvrOp) (name v : List Char) (z : Int) (h : EvrQuiet name post)
    (hw : name ≠ [] ∧ '=' ∉ name) (hv : EvrNumber v z) (h1 : -2147483648 ≤ z) (h2 : z ≤ 2147483647) :
    evrGetInt (evrRun t (pre ++ .set (some name) (some v) true :: post)) name = z := by
  rw [C158_number_partial t pre post name v z h hw hv (by omega) (by omega)]
  omega

example : EvrNumber "-42".toList (-42) :=
  .minus ['4', '2'] 42 (.more ['4'] 4 '2' (.one '4' (by decide)) (by decide))

/-- **C158 is violated**: a number that is a multiple of 2^32 is read as 0, as if the variable were not there. -/
theorem C158_wraps : EvrNumber "4294967296".toList 4294967296 ∧
    evrGetInt (evrRun (fun _ => none) [.set (some "A".toList) (some "4294967296".toList) true]) "A".toList = 0 := by
  refine ⟨?_, by decide +kernel⟩
  have d : ∀ (t : List Char) (n : Nat) (c : Char), EvrNatural t n → c.isDigit = true → EvrNatural (t ++ [c]) (10 * n + (c.toNat - 48)) :=
    EvrNatural.more
  exact .plain _ 4294967296 (d _ 429496729 '6' (d _ 42949672 '9' (d _ 4294967 '2' (d _ 429496 '7' (d _ 42949 '6' (d _ 4294 '9' (d _ 429 '4'
    (d _ 42 '9' (d _ 4 '2' (.one '4' (by decide)) (by decide)) (by decide)) (by decide)) (by decide)) (by decide)) (by decide)) (by decide))
    (by decide)) (by decide))

/-- **C158 is violated**: a variable that is unset, with success, has a value, the empty text. -/
theorem C158_stays (t : EvrTable) (pre post : List EvrOp) (name : List Char) (h : EvrQuiet name post) (hw : name ≠ [] ∧ '=' ∉ name) :
    (evrStep (evrRun t pre) (.unset (some name) true)).1 = true ∧
      evrGet (evrRun t (pre ++ .unset (some name) true :: post)) name = some [] := by
  refine ⟨rfl, ?_⟩
  unfold evrGet
  rw [aux_ev_last t pre post _ name h]
  simp [evrStep, evrSetenv, hw.1, hw.2]

/-- **C158 is violated**: without memory unsetting answers true, and the variable keeps its value. -/
theorem C158_kept (t : EvrTable) (pre post : List EvrOp) (name : List Char) (h : EvrQuiet name post) :
    (evrStep (evrRun t pre) (.unset (some name) false)).1 = true ∧
      evrGet (evrRun t (pre ++ .unset (some name) false :: post)) name = evrGet (evrRun t pre) name := by
  refine ⟨rfl, ?_⟩
  unfold evrGet
  rw [aux_ev_last t pre post _ name h]
  simp [evrStep, evrSetenv]

/-- **C158, unset as a number.** With memory, a variable that is unset is read as the number 0. -/
theorem C158_zero_partial (t : EvrTable) (pre post : List EvrOp) (name : List Char) (h : EvrQuiet name post) (hw : name ≠ [] ∧ '=' ∉ name) :
    evrGetInt (evrRun t (pre ++ .unset (some name) true :: post)) name = 0 := by
  have := (C158_stays t pre post name h hw).2
  unfold evrGet at this
  simp only [evrGetInt, this]
  decide

example : evrGet (evrRun (fun _ => none) [.set (some "A".toList) (some "1".toList) true, .unset (some "A".toList) true]) "A".toList = some [] := by
  decide +kernel

/-- **C158, missing.** A variable that is not there, and that no call is about, is read as nothing and as the number 0. -/
theorem C158_missing (t : EvrTable) (name : List Char) (ops : List EvrOp) (h : EvrQuiet name ops) (hn : t name = none) :
    evrGet (evrRun t ops) name = none ∧ evrGetInt (evrRun t ops) name = 0 := by
  have := aux_ev_quiet name ops h t
  rw [hn] at this
  exact ⟨this, by simp [evrGetInt, this]⟩

/-- **C158, NULL.** Calls without a name or a value fail and change nothing. -/
theorem C158_null (t : EvrTable) (n v : Option (List Char)) (mem : Bool) (h : n = none ∨ v = none) :
    evrStep t (.set n v mem) = (false, t) ∧ evrStep t (.unset none mem) = (false, t) := by
  refine ⟨?_, rfl⟩
  rcases h with rfl | rfl
  · rfl
  · cases n <;> rfl

/-- C158 does not hold as stated. -/
theorem C158_statement_false : ¬ C158_statement := by
  intro h
  have hq : EvrQuiet "A".toList [] := by intro o ho; cases ho
  have := (h (fun _ => none) [] [] "A".toList true hq).2.1 rfl
  rw [(C158_stays (fun _ => none) [] [] "A".toList hq (by decide)).2] at this
  cases this

end Verif.Props
