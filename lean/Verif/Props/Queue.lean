import Verif.Spec.Queue
/-!
# C32, C33: queues
-/
namespace Verif.Props
open Verif.Model Verif.Spec

/-! ## C32 -/

/-- One call on a `VortexQueue`. -/
def queueCall {α : Type} (q : VQueue α) : QOp α → QResult α × VQueue α
  | .push x => (.ok (q.push (some x)).1, (q.push (some x)).2)
  | .headPush x => (.ok (q.headPush (some x)).1, (q.headPush (some x)).2)
  | .pushNull => (.ok (q.push none).1, (q.push none).2)
  | .pop => (.item q.pop.1, q.pop.2)
  | .peek => (.item q.peek, q)
  | .length => (.count q.length, q)

/-- The results of a history of calls. -/
def queueResults {α : Type} (q : VQueue α) : List (QOp α) → List (QResult α)
  | [] => []
  | op :: ops => (queueCall q op).1 :: queueResults (queueCall q op).2 ops

/-- C32. Every call on a new queue returns what the discipline says, whatever was called before. -/
theorem C32_queue {α : Type} (ops : List (QOp α)) : queueResults VQueue.new ops = Line.results ⟨[], []⟩ ops := by
  have key : ∀ (ops : List (QOp α)) (q : VQueue α) (l : Line α), q.items = l.all →
      queueResults q ops = l.results ops := by
    intro ops
    induction ops with
    | nil => intros; rfl
    | cons op ops ih =>
      intro q l h
      have step : (queueCall q op).1 = (l.expect op).1 ∧ (queueCall q op).2.items = (l.expect op).2.all := by
        obtain ⟨items⟩ := q
        obtain ⟨front, rest⟩ := l
        simp only [Line.all] at h
        subst h
        cases op with
        | push x => simp [queueCall, VQueue.push, Line.expect, Line.all]
        | headPush x => simp [queueCall, VQueue.headPush, Line.expect, Line.all]
        | pushNull => simp [queueCall, VQueue.push, Line.expect, Line.all]
        | length => simp [queueCall, VQueue.length, Line.expect, Line.all]
        | pop => cases front <;> cases rest <;> simp [queueCall, VQueue.pop, Line.expect, Line.all]
        | peek => cases front <;> cases rest <;> simp [queueCall, VQueue.peek, Line.expect, Line.all]
      simp only [queueResults, Line.results]
      rw [step.1, ih _ _ step.2]
  exact key ops .new ⟨[], []⟩ rfl

example : queueResults VQueue.new [.push 1, .push 2, .headPush 3, .peek, .pop, .length, .pop, .pop, .pop] =
    [.ok true, .ok true, .ok true, .item (some 3), .item (some 3), .count 2, .item (some 1), .item (some 2),
     .item none] := by decide +kernel

/-! ## C33 -/

/-- C33, order. Whatever the interleaving, batches and spurious wake-ups included: each pop takes the latest
item pushed with priority or, if there is none, the oldest of the others; what has not been
popped is still inside. -/
theorem C33_order {α : Type} [DecidableEq α] (ops : List (AOp α)) :
    ∃ l, follow ⟨[], []⟩ (AQueue.new.run ops).1 = some l ∧ (AQueue.new.run ops).2.data.reverse = l.all := by
  have hsig : ∀ (q : AQueue α) i, (q.notify i).data = q.data := by
    intro q i
    simp only [AQueue.notify, AQueue.signal]
    split
    · split <;> rfl
    · rfl
  have hmap : ∀ (xs : List α) (l : Line α) es, follow l (xs.map .pushed ++ es) =
      follow { l with rest := l.rest ++ xs } es := by
    intro xs
    induction xs with
    | nil => intro l es; simp
    | cons x xs ih => intro l es; simp [follow, ih]
  have hpop : ∀ (q : AQueue α) (l : Line α) x es, q.data.getLast? = some x → q.data.reverse = l.all →
      ∃ l', follow l (.popped x :: es) = follow l' es ∧ q.data.dropLast.reverse = l'.all := by
    intro q l x es hx hd
    obtain ⟨front, rest⟩ := l
    obtain ⟨ds, hds⟩ := List.getLast?_eq_some_iff.mp hx
    rw [hds] at hd ⊢
    simp only [List.reverse_append, List.reverse_cons, List.reverse_nil, List.nil_append, Line.all,
      List.singleton_append] at hd
    simp only [List.dropLast_concat]
    cases front with
    | cons y front =>
      injection hd with h1 h2
      exact ⟨⟨front, rest⟩, by simp [follow, h1], h2⟩
    | nil =>
      cases rest with
      | cons y rest =>
        injection hd with h1 h2
        exact ⟨⟨[], rest⟩, by simp [follow, h1], by simpa [Line.all] using h2⟩
      | nil => exact absurd hd (by simp)
  have key : ∀ (ops : List (AOp α)) (q : AQueue α) (l : Line α), q.data.reverse = l.all →
      ∃ l', follow l (q.run ops).1 = some l' ∧ (q.run ops).2.data.reverse = l'.all := by
    intro ops
    induction ops with
    | nil => intro q l h; exact ⟨l, rfl, h⟩
    | cons op ops ih =>
      intro q l h
      simp only [AQueue.run]
      cases op with
      | push x i =>
        simp only [AQueue.step, List.singleton_append, follow]
        refine ih _ _ ?_
        rw [hsig]; simp [Line.all, h]
      | priorityPush x i =>
        simp only [AQueue.step, List.singleton_append, follow]
        refine ih _ _ ?_
        rw [hsig]; simp [Line.all, h]
      | batch xs i =>
        simp only [AQueue.step]
        rw [hmap]
        refine ih _ _ ?_
        rw [hsig]; simp [Line.all, h]
      | pop timed =>
        simp only [AQueue.step]
        split
        · simp only [List.nil_append]; exact ih _ _ h
        · rename_i x hx
          simp only [List.singleton_append]
          obtain ⟨l', h1, h2⟩ := hpop q l x ((AQueue.run _ ops).1) hx h
          rw [h1]
          exact ih _ _ h2
      | wake i =>
        simp only [AQueue.step]
        split
        · simp only [List.nil_append]; exact ih _ _ h
        · simp only [List.nil_append]; exact ih _ _ h
      | resume i =>
        simp only [AQueue.step]
        split
        · simp only [List.nil_append]; exact ih _ _ h
        · split
          · rename_i x hx
            simp only [List.singleton_append]
            obtain ⟨l', h1, h2⟩ := hpop q l x ((AQueue.run _ ops).1) hx h
            rw [h1]
            exact ih _ _ h2
          · split
            · simp only [List.singleton_append, follow]; exact ih _ _ h
            · simp only [List.nil_append]; exact ih _ _ h
  exact key ops .new ⟨[], []⟩ rfl

theorem aux_follow_perm {α : Type} [DecidableEq α] : ∀ (es : List (AEvent α)) (l l' : Line α),
    follow l es = some l' → (l.all ++ pushes es).Perm (pops es ++ l'.all) := by
  intro es
  induction es with
  | nil => intro l l' h; injection h with h; subst h; simp [pushes, pops]
  | cons e es ih =>
    intro l l' h
    cases e with
    | pushed x =>
      have := ih _ _ h
      simpa [pushes, pops, Line.all] using this
    | pushedFirst x =>
      have := ih _ _ h
      simp only [pushes, pops, Line.all, List.cons_append] at this ⊢
      exact List.perm_middle.trans this
    | gaveUp => exact ih _ _ h
    | popped x =>
      obtain ⟨front, rest⟩ := l
      cases front with
      | cons y front =>
        simp only [follow] at h
        split at h
        · rename_i he
          subst he
          have := ih _ _ h
          simpa [pushes, pops, Line.all] using this
        · exact absurd h (by simp)
      | nil =>
        cases rest with
        | cons y rest =>
          simp only [follow] at h
          split at h
          · rename_i he
            subst he
            have := ih _ _ h
            simpa [pushes, pops, Line.all] using this
          · exact absurd h (by simp)
        | nil => simp [follow] at h

/-- C33. No item is lost or popped twice: the items pushed are those popped and those inside. -/
theorem C33_each_once {α : Type} [DecidableEq α] (ops : List (AOp α)) :
    (pushes (AQueue.new.run ops).1).Perm (pops (AQueue.new.run ops).1 ++ (AQueue.new.run ops).2.data) := by
  obtain ⟨l, h1, h2⟩ := C33_order ops
  have := aux_follow_perm _ _ _ h1
  simp only [Line.all, List.nil_append] at this
  refine this.trans (List.Perm.append_left _ ?_)
  have h3 : l.front ++ l.rest = (AQueue.new.run ops).2.data.reverse := h2.symm
  rw [h3]
  exact List.reverse_perm _

/-- C33, wake-ups, in full: when a thread is blocked in pop there are no more items inside than threads
released and about to take one. -/
def C33_statement : Prop := ∀ (ops : List (AOp Nat)), (AQueue.new.run ops).2.sleeping ≠ [] →
  (AQueue.new.run ops).2.data.length ≤ (AQueue.new.run ops).2.woken.length

/-- No batch of more than one item (`vortex_async_queue_unlocked_push` called twice under one lock). -/
def SmallBatches {α : Type} (ops : List (AOp α)) : Prop := ∀ xs i, AOp.batch xs i ∈ ops → xs.length ≤ 1

/-- What keeps wake-ups from being lost. -/
structure aux_AInv {α : Type} (q : AQueue α) : Prop where
  count : q.waiters = q.sleeping.length + q.woken.length
  awake : q.sleeping ≠ [] → q.data.length ≤ q.woken.length

theorem aux_notify {α : Type} {q : AQueue α} (h : q.waiters = q.sleeping.length + q.woken.length)
    (hd : q.sleeping ≠ [] → q.data.length ≤ q.woken.length + 1) (i : Nat) : aux_AInv (q.notify i) := by
  simp only [AQueue.notify]
  by_cases hs : q.sleeping = []
  · split
    · simp only [AQueue.signal, hs, List.length_nil, List.getElem?_nil]
      exact ⟨h, fun h' => absurd hs h'⟩
    · exact ⟨h, fun h' => absurd hs h'⟩
  · have hpos : 0 < q.sleeping.length := List.length_pos_iff.mpr hs
    have hlt : min i (q.sleeping.length - 1) < q.sleeping.length := by omega
    rw [if_pos (by omega)]
    simp only [AQueue.signal]
    split
    · rename_i hn
      rw [List.getElem?_eq_none_iff] at hn
      omega
    · refine ⟨?_, fun _ => ?_⟩
      · simp only [List.length_eraseIdx_of_lt hlt, List.length_append, List.length_cons, List.length_nil]
        omega
      · have := hd hs
        simp only [List.length_append, List.length_cons, List.length_nil]
        exact this

theorem aux_astep {α : Type} {q : AQueue α} (h : aux_AInv q) (op : AOp α)
    (hb : ∀ xs i, op = .batch xs i → xs.length ≤ 1) : aux_AInv (q.step op).2 := by
  cases op with
  | push x i =>
    refine aux_notify (q := { q with data := x :: q.data }) h.count (fun hs => ?_) i
    have := h.awake hs
    simp only [List.length_cons]; omega
  | priorityPush x i =>
    refine aux_notify (q := { q with data := q.data ++ [x] }) h.count (fun hs => ?_) i
    have := h.awake hs
    simp only [List.length_append, List.length_cons, List.length_nil]; omega
  | batch xs i =>
    refine aux_notify (q := { q with data := xs.reverse ++ q.data }) h.count (fun hs => ?_) i
    have := h.awake hs
    have := hb xs i rfl
    simp only [List.length_append, List.length_reverse]; omega
  | pop timed =>
    simp only [AQueue.step]
    split
    · rename_i hn
      have hd : q.data = [] := List.getLast?_eq_none_iff.mp hn
      have := h.count
      refine ⟨?_, fun _ => by simp [hd]⟩
      simp only [List.length_append, List.length_cons, List.length_nil]
      omega
    · have := h.count
      refine ⟨?_, fun hs => ?_⟩
      · simp only [AQueue.take]; omega
      · have := h.awake hs
        simp only [AQueue.take, List.length_dropLast]
        omega
  | wake i =>
    simp only [AQueue.step]
    split
    · exact h
    · rename_i t ht
      obtain ⟨hi, _⟩ := List.getElem?_eq_some_iff.mp ht
      have := h.count
      have := h.awake (List.ne_nil_of_mem (List.mem_of_getElem? ht))
      refine ⟨?_, fun _ => ?_⟩
      · simp only [List.length_eraseIdx_of_lt hi, List.length_append, List.length_cons, List.length_nil]
        omega
      · simp only [List.length_append, List.length_cons, List.length_nil]
        omega
  | resume i =>
    simp only [AQueue.step]
    split
    · exact h
    · rename_i t ht
      obtain ⟨hi, _⟩ := List.getElem?_eq_some_iff.mp ht
      have hc := h.count
      split
      · rename_i x hx
        have hne : q.data ≠ [] := fun hx' => by simp [hx'] at hx
        have hpos : 0 < q.data.length := List.length_pos_iff.mpr hne
        refine ⟨?_, fun hs => ?_⟩
        · simp only [AQueue.take, List.length_eraseIdx_of_lt hi]; omega
        · have := h.awake hs
          simp only [AQueue.take, List.length_dropLast, List.length_eraseIdx_of_lt hi]
          omega
      · rename_i hn
        have hd : q.data = [] := List.getLast?_eq_none_iff.mp hn
        split
        · refine ⟨?_, fun _ => by simp [hd]⟩
          simp only [List.length_eraseIdx_of_lt hi]; omega
        · refine ⟨?_, fun _ => by simp [hd]⟩
          simp only [List.length_eraseIdx_of_lt hi, List.length_append, List.length_cons, List.length_nil]
          omega

/-- C33, wake-ups, the part that holds: as long as items are not pushed in batches under one lock. Any
number of threads, spurious wake-ups, timeouts. Missing: batches (`C33_batch_lost`). -/
theorem C33_no_lost_wakeup_partial {α : Type} (ops : List (AOp α)) (hb : SmallBatches ops) :
    (AQueue.new.run ops).2.sleeping ≠ [] →
    (AQueue.new.run ops).2.data.length ≤ (AQueue.new.run ops).2.woken.length := by
  have key : ∀ (ops : List (AOp α)) (q : AQueue α), SmallBatches ops → aux_AInv q → aux_AInv (q.run ops).2 := by
    intro ops
    induction ops with
    | nil => intro q _ h; exact h
    | cons op ops ih =>
      intro q hb h
      exact ih _ (fun xs i hx => hb xs i (List.mem_cons_of_mem _ hx))
        (aux_astep h op (fun xs i he => hb xs i (he ▸ List.mem_cons_self)))
  exact (key ops .new hb ⟨rfl, fun h => absurd rfl h⟩).awake

/-- Two threads blocked, then two items under one lock: one signal only. The second thread stays blocked, and
stays so until something else is pushed, although there is an item for it. -/
theorem C33_batch_lost :
    (AQueue.new.run [.pop false, .pop false, .batch [1, 2] 0, .resume 0]).2.sleeping = [false] ∧
    (AQueue.new.run [.pop false, .pop false, .batch [1, 2] 0, .resume 0]).2.woken = [] ∧
    (AQueue.new.run [.pop false, .pop false, .batch [1, 2] 0, .resume 0]).2.data = [2] := by decide +kernel

theorem C33_statement_false : ¬ C33_statement := by
  intro h
  have := h [.pop false, .pop false, .batch [1, 2] 0, .resume 0] (by decide +kernel)
  exact absurd this (by decide +kernel)

/-- Two consumers, two producers: both items are popped, the second by the thread released first. -/
example : (AQueue.new.run [.pop false, .pop true, .push 1 0, .push 2 0, .resume 1, .wake 0, .resume 0]).1 =
    [.pushed 1, .pushed 2, .popped 1, .popped 2] := by decide +kernel

end Verif.Props
