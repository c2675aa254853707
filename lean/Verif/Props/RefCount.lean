import Verif.Spec.RefCount
/-!
# C30 — reference counting
-/
namespace Verif.Props
open Verif.Model Verif.Spec

structure aux_rc_Inv (o : RefObj) (h : Nat) : Prop where
  count : o.count = h
  small : h < 2147483648
  bad : o.bad = false
  live : 0 < h → o.freeing = 0 ∧ o.frees = 0
  dead : h = 0 → o.freeing + o.frees = 1

theorem aux_rc_i32 (x : Int) (h1 : 0 ≤ x) (h2 : x < 2147483648) : i32 x = x := by unfold i32; omega

theorem aux_rc_ref {o : RefObj} {h : Nat} (i : aux_rc_Inv o h) (h0 : 0 < h) (h1 : h + 1 < 2147483648) :
    aux_rc_Inv (o.step .ref).1 (h + 1) ∧ (o.step .ref).2 = some true := by
  have e : i32 (o.count + 1) = (h + 1 : Nat) := by
    rw [i.count, aux_rc_i32 _ (by omega) (by omega)]; omega
  obtain ⟨l1, l2⟩ := i.live h0
  refine ⟨⟨by simp only [RefObj.step, e], h1, by simp [RefObj.step, i.bad, l2], fun _ => ⟨l1, l2⟩, fun hz => by omega⟩, ?_⟩
  simp only [RefObj.step, e, Option.some.injEq, decide_eq_true_eq]
  omega

theorem aux_rc_unref {o : RefObj} {h : Nat} (i : aux_rc_Inv o h) (h0 : 0 < h) :
    aux_rc_Inv (o.step .unref).1 (h - 1) ∧ (o.step .unref).2 = none := by
  have hs := i.small
  have e : i32 (o.count - 1) = (h - 1 : Nat) := by
    rw [i.count, aux_rc_i32 _ (by omega) (by omega)]; omega
  obtain ⟨l1, l2⟩ := i.live h0
  refine ⟨⟨by simp only [RefObj.step, e], by omega, by simp [RefObj.step, i.bad, l2], fun hp => ?_, fun hz => ?_⟩, rfl⟩
  · have : ¬ ((h - 1 : Nat) : Int) = 0 := by omega
    simp only [RefObj.step, e, this, if_false]
    exact ⟨l1, l2⟩
  · have : ((h - 1 : Nat) : Int) = 0 := by omega
    simp only [RefObj.step, e, this, if_true, l1, l2]

theorem aux_rc_free {o : RefObj} {h : Nat} (i : aux_rc_Inv o h) :
    aux_rc_Inv (o.step .free).1 h ∧ (o.step .free).2 = none := by
  simp only [RefObj.step]
  split
  · rename_i hf
    have h0 : h = 0 := by
      rcases Nat.eq_zero_or_pos h with hz | hz
      · exact hz
      · have := i.live hz; omega
    have hd := i.dead h0
    have hfr : o.frees = 0 := by omega
    refine ⟨⟨i.count, i.small, by simp [i.bad, hfr], fun hp => by omega, fun _ => ?_⟩, rfl⟩
    simp only
    omega
  · exact ⟨i, rfl⟩

theorem aux_rc_run (ops : List RefOp) : ∀ (o : RefObj) (h k : Nat), aux_rc_Inv o h → refsHeld h ops = some k →
    aux_rc_Inv (o.run ops).1 k ∧ ∀ a ∈ (o.run ops).2, a = true := by
  induction ops with
  | nil =>
    intro o h k i e
    simp only [refsHeld, Option.some.injEq] at e
    subst e
    exact ⟨i, by simp [RefObj.run]⟩
  | cons op ops ih =>
    intro o h k i e
    cases op with
    | ref =>
      simp only [refsHeld] at e
      split at e
      · rename_i hc
        obtain ⟨i1, i2⟩ := aux_rc_ref i hc.1 hc.2
        obtain ⟨j1, j2⟩ := ih _ _ _ i1 e
        refine ⟨j1, ?_⟩
        simp only [RefObj.run, i2, Option.toList, List.mem_append, List.mem_singleton]
        rintro a (rfl | ha)
        · rfl
        · exact j2 a ha
      · simp at e
    | unref =>
      simp only [refsHeld] at e
      split at e
      · rename_i hc
        obtain ⟨i1, i2⟩ := aux_rc_unref i hc
        obtain ⟨j1, j2⟩ := ih _ _ _ i1 e
        refine ⟨j1, ?_⟩
        simpa only [RefObj.run, i2, Option.toList, List.nil_append] using j2
      · simp at e
    | free =>
      simp only [refsHeld] at e
      obtain ⟨i1, i2⟩ := aux_rc_free i
      obtain ⟨j1, j2⟩ := ih _ _ _ i1 e
      refine ⟨j1, ?_⟩
      simpa only [RefObj.run, i2, Option.toList, List.nil_append] using j2

/-- **C30** (objects with a mutex): for every interleaving of calls in which references are taken and dropped only
while one is held, the object is never used after its release; it is released, or about to be, exactly when no
reference is left, and once; and every reference asked for is granted. -/
theorem C30_released_exactly (ops : List RefOp) (k : Nat) (h : refsHeld 1 ops = some k) :
    (RefObj.init.run ops).1.bad = false ∧
    (RefObj.init.run ops).1.freeing + (RefObj.init.run ops).1.frees = (if k = 0 then 1 else 0) ∧
    ∀ a ∈ (RefObj.init.run ops).2, a = true := by
  obtain ⟨i, ha⟩ := aux_rc_run ops .init 1 k ⟨rfl, by omega, rfl, fun _ => ⟨rfl, rfl⟩, fun h => by omega⟩ h
  refine ⟨i.bad, ?_, ha⟩
  split
  · rename_i hk; exact i.dead hk
  · rename_i hk
    have := i.live (by omega)
    omega

example : refsHeld 1 [.ref, .unref, .free, .ref, .unref, .unref, .free] = some 0 ∧
    (RefObj.init.run [.ref, .unref, .free, .ref, .unref, .unref, .free]).1.frees = 1 := by decide +kernel

/-! ## Tables -/

def aux_rc_total (s : RefTable) : Nat := s.held + (if s.inTable then 1 else 0)

theorem aux_rc_table (ops : List RefTableOp) : ∀ s : RefTable, aux_rc_Inv s.obj (aux_rc_total s) → s.borrowed = 0 →
    .lookup ∉ ops → aux_rc_total s + ops.length < 2147483648 →
    aux_rc_Inv (s.run ops).obj (aux_rc_total (s.run ops)) := by
  induction ops with
  | nil => intro s i _ _ _; exact i
  | cons op ops ih =>
    intro s i hb hl hlen
    simp only [List.length_cons] at hlen
    have hl' : .lookup ∉ ops := fun h => hl (List.mem_cons_of_mem _ h)
    simp only [RefTable.run]
    cases op with
    | lookup => exact absurd List.mem_cons_self hl
    | getAndRef =>
      simp only [RefTable.step]
      split
      · rename_i hc
        have e : aux_rc_total s = s.held + 1 := by simp [aux_rc_total, hc]
        refine ih _ ?_ hb hl' (by simp only [aux_rc_total, hc, if_true] at hlen ⊢; omega)
        have := (aux_rc_ref i (by omega) (by omega)).1
        simpa [aux_rc_total, hc] using this
      · exact ih s i hb hl' (by omega)
    | refBorrowed =>
      simp only [RefTable.step, hb, Nat.lt_irrefl, if_false]
      exact ih s i hb hl' (by omega)
    | drop =>
      simp only [RefTable.step]
      split
      · rename_i hc
        refine ih _ ?_ hb hl' (by simp only [aux_rc_total] at hlen ⊢; omega)
        have := (aux_rc_unref i (by simp only [aux_rc_total]; omega)).1
        have e : aux_rc_total s - 1 = s.held - 1 + (if s.inTable then 1 else 0) := by simp only [aux_rc_total]; omega
        rw [e] at this
        exact this
      · exact ih s i hb hl' (by omega)
    | remove =>
      simp only [RefTable.step]
      split
      · rename_i hc
        have e : aux_rc_total s = s.held + 1 := by simp [aux_rc_total, hc]
        refine ih _ ?_ hb hl' (by simp [aux_rc_total]; omega)
        have := (aux_rc_unref i (by omega)).1
        rw [e, Nat.add_sub_cancel] at this
        simpa [aux_rc_total] using this
      · exact ih s i hb hl' (by omega)
    | free =>
      refine ih _ (aux_rc_free i).1 hb hl' ?_
      have e : aux_rc_total (s.step .free) = aux_rc_total s := rfl
      omega

/-- **C30** (objects found in a table and referenced in the same critical section, as the profiles): whatever the
threads do, and whenever the object is taken out of the table, it is never used after its release, and it is
released, or about to be, exactly when the table and all threads have dropped it. -/
theorem C30_table (ops : List RefTableOp) (hl : .lookup ∉ ops) (hlen : ops.length < 2147483647) :
    (RefTable.init.run ops).obj.bad = false ∧
    (RefTable.init.run ops).obj.freeing + (RefTable.init.run ops).obj.frees =
      (if (RefTable.init.run ops).held = 0 ∧ (RefTable.init.run ops).inTable = false then 1 else 0) := by
  have i := aux_rc_table ops .init ⟨rfl, by decide, rfl, fun _ => ⟨rfl, rfl⟩, fun h => by simp [aux_rc_total, RefTable.init] at h⟩ rfl hl
    (by simp [aux_rc_total, RefTable.init]; omega)
  refine ⟨i.bad, ?_⟩
  generalize RefTable.init.run ops = s at *
  split
  · rename_i hc
    exact i.dead (by simp [aux_rc_total, hc.1, hc.2])
  · rename_i hc
    have : 0 < aux_rc_total s := by
      simp only [aux_rc_total]
      cases hi : s.inTable with
      | true => simp
      | false =>
        simp only [hi, and_true] at hc
        simp; omega
    have := i.live this
    omega

example : RefTableOp.lookup ∉ [RefTableOp.getAndRef, .getAndRef, .drop, .remove, .drop, .free] ∧
    (RefTable.init.run [.getAndRef, .getAndRef, .drop, .remove, .drop, .free]).obj.frees = 1 := by decide +kernel

/-- **C30 (fault)**: an object found in the table first and referenced later, as the channels are, may have been
released meanwhile. -/
theorem C30_lookup_then_ref : (RefTable.init.run [.lookup, .remove, .free, .refBorrowed]).obj.bad = true := by decide +kernel

/-! ## Frames -/

/-- **C30** (full statement, violated by the frames): a frame whose references are taken and dropped by threads
that hold one is released once, when there is none left, and not used after that: here with two threads, each of
which has a reference and drops it. -/
def C30_frame_statement : Prop :=
  ∀ ops : List FrameRefOp, (∀ b t, FrameRefOp.load t b ∈ ops → t < 2 ∧ b = false) →
    ops.count (.load 0 false) ≤ 1 → ops.count (.load 1 false) ≤ 1 →
    ((FrameRefs.init.run (frameCall 0 true)).run ops).bad = false ∧ ((FrameRefs.init.run (frameCall 0 true)).run ops).frees ≤ 1

/-- **C30 (fault)**: both drop their reference at the same time; both find the counter at zero: released twice. -/
theorem C30_frame_released_twice :
    ((FrameRefs.init.run (frameCall 0 true)).run [.load 0 false, .store 0, .load 1 false, .store 1, .test 0, .test 1]).frees = 2 := by
  decide +kernel

/-- **C30 (fault)**: one decrement is lost: never released. -/
theorem C30_frame_never_released :
    ((FrameRefs.init.run (frameCall 0 true)).run [.load 0 false, .load 1 false, .store 0, .store 1, .test 0, .test 1]).frees = 0 ∧
    ((FrameRefs.init.run (frameCall 0 true)).run [.load 0 false, .load 1 false, .store 0, .store 1, .test 0, .test 1]).count = 1 := by
  decide +kernel

/-- **C30 (fault)**: one thread takes a reference while another one drops its own, and the increment is lost: the
frame is released by the second drop, with a reference still held. -/
theorem C30_frame_released_early :
    ((FrameRefs.init.run (frameCall 0 true)).run
      ([.load 0 true, .load 1 false, .store 0, .store 1, .test 1] ++ frameCall 0 false)).frees = 1 := by
  decide +kernel

theorem C30_frame_statement_false : ¬ C30_frame_statement := by
  intro h
  have := (h [.load 0 false, .store 0, .load 1 false, .store 1, .test 0, .test 1] (by
    intro b t ht
    simp at ht
    rcases ht with ⟨rfl, rfl⟩ | ⟨rfl, rfl⟩ <;> simp) (by decide) (by decide)).2
  rw [C30_frame_released_twice] at this
  omega

structure aux_rc_Frame (s : FrameRefs) (h : Nat) : Prop where
  count : s.count = h
  small : h < 2147483648
  bad : s.bad = false
  idle : ∀ t, s.threads t = .idle
  frees : s.frees = if h = 0 then 1 else 0

theorem aux_rc_call_ref {s : FrameRefs} {h : Nat} (i : aux_rc_Frame s h) (t : Nat) (h0 : 0 < h) (h1 : h + 1 < 2147483648) :
    aux_rc_Frame (s.run (frameCall t true)) (h + 1) := by
  have e : i32 (s.count + 1) = (h + 1 : Nat) := by
    rw [i.count, aux_rc_i32 _ (by omega) (by omega)]; omega
  have hf : s.frees = 0 := by rw [i.frees, if_neg (by omega)]
  have hid : ∀ u, putAt (putAt s.threads t (.loaded true s.count)) t .idle u = .idle := by
    intro u
    simp only [putAt]
    split
    · rfl
    · simp only [*, i.idle]
  simp only [frameCall, FrameRefs.run, FrameRefs.step, i.idle, putAt, if_true, hf, Nat.lt_irrefl, decide_false, Bool.or_false]
  exact ⟨e, h1, i.bad, hid, by simp⟩

theorem aux_rc_call_unref {s : FrameRefs} {h : Nat} (i : aux_rc_Frame s h) (t : Nat) (h0 : 0 < h) :
    aux_rc_Frame (s.run (frameCall t false)) (h - 1) := by
  have hs := i.small
  have e : i32 (s.count - 1) = (h - 1 : Nat) := by
    rw [i.count, aux_rc_i32 _ (by omega) (by omega)]; omega
  have hf : s.frees = 0 := by rw [i.frees, if_neg (by omega)]
  simp only [frameCall, FrameRefs.run, FrameRefs.step, i.idle, putAt, if_true, hf, Nat.lt_irrefl, decide_false, Bool.or_false]
  refine ⟨e, by omega, i.bad, ?_, ?_⟩
  · intro u
    simp only [putAt]
    split
    · rfl
    · simp only [*, i.idle]
  · simp only [e]
    by_cases hz : h - 1 = 0
    · simp [hz]
    · rw [if_neg (by omega), if_neg hz]

theorem aux_rc_frame_run (cs : List (Nat × Bool)) : ∀ (s : FrameRefs) (h k : Nat), aux_rc_Frame s h → callsHeld h cs = some k →
    aux_rc_Frame (s.run (cs.flatMap (fun c => frameCall c.1 c.2))) k := by
  have append : ∀ (a b : List FrameRefOp) (s : FrameRefs), s.run (a ++ b) = (s.run a).run b := by
    intro a
    induction a with
    | nil => intro b s; rfl
    | cons x a ih => intro b s; exact ih b _
  induction cs with
  | nil =>
    intro s h k i e
    simp only [callsHeld, Option.some.injEq] at e
    subst e
    exact i
  | cons c cs ih =>
    obtain ⟨t, b⟩ := c
    intro s h k i e
    rw [List.flatMap_cons, append]
    cases b with
    | true =>
      simp only [callsHeld] at e
      split at e
      · rename_i hc; exact ih _ _ _ (aux_rc_call_ref i t hc.1 hc.2) e
      · simp at e
    | false =>
      simp only [callsHeld] at e
      split at e
      · rename_i hc; exact ih _ _ _ (aux_rc_call_unref i t hc) e
      · simp at e

/-- **C30 (partial)** (frames): if the calls on a frame do not overlap in time, whatever threads make them, the
frame is released exactly when no reference is left, once, and not used after that.
Missing: calls that overlap, which break it (`C30_frame_released_twice` and the following). -/
theorem C30_frame_partial (cs : List (Nat × Bool)) (k : Nat) (h : callsHeld 1 cs = some k) :
    (FrameRefs.init.run (cs.flatMap (fun c => frameCall c.1 c.2))).bad = false ∧
    (FrameRefs.init.run (cs.flatMap (fun c => frameCall c.1 c.2))).frees = (if k = 0 then 1 else 0) := by
  have i := aux_rc_frame_run cs .init 1 k ⟨rfl, by decide, rfl, fun _ => rfl, rfl⟩ h
  exact ⟨i.bad, i.frees⟩

example : callsHeld 1 [(0, true), (1, true), (0, false), (2, false), (1, false)] = some 0 := by decide +kernel

end Verif.Props
