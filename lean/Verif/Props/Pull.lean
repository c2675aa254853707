import Verif.Spec.Pull
/-!
# C41 — the pull API
-/
namespace Verif.Props
open Verif.Model Verif.Spec

theorem aux_pl_bit (m : BitVec 32) (k : Nat) (hk : k < 8) :
    decide (0 < (m &&& eventBit k).toInt) = m.getLsbD k := by
  have e : m &&& eventBit k = if m.getLsbD k then eventBit k else 0#32 := by
    apply BitVec.eq_of_getLsbD_eq
    intro i hi
    simp only [eventBit, BitVec.getLsbD_and, BitVec.getLsbD_shiftLeft, BitVec.getLsbD_one]
    by_cases hik : i = k
    · subst hik
      cases hm : m.getLsbD i <;> simp [hm]
    · have : ¬ (¬ i < k ∧ i - k = 0) := by omega
      split
      · simp only [eventBit, BitVec.getLsbD_shiftLeft, BitVec.getLsbD_one]
        by_cases h1 : i < k
        · simp [h1]
        · have : ¬ (i - k = 0) := by omega
          simp [this]
      · by_cases h1 : i < k
        · simp [h1]
        · have : ¬ (i - k = 0) := by omega
          simp [this]
  rw [e]
  cases hm : m.getLsbD k with
  | false => simp
  | true =>
    have : ∀ k < 8, decide (0 < (eventBit k).toInt) = true := by decide
    simpa using this k hk

/-- The masks of the model name the same types as those of the specification. -/
def aux_pl_rel (a : List EventMask) (b : List MaskSet) : Prop :=
  b = a.map fun m => ⟨m.id, fun k => m.mask.getLsbD k, m.enabled⟩

theorem aux_pl_filtered {p : Pull} {l : List MaskSet} (h : aux_pl_rel p.masks l) {k : Nat} (hk : k < 8) :
    p.isFiltered k = isMasked l k := by
  rw [h]
  simp only [Pull.isFiltered, isMasked, List.any_map]
  congr 1
  funext m
  simp only [EventMask.isSet, aux_pl_bit _ _ hk, Function.comp]

theorem aux_pl_update {a : List EventMask} {b : List MaskSet} (h : aux_pl_rel a b) (id : Nat) (f : EventMask → EventMask)
    (g : MaskSet → MaskSet) (hfg : ∀ m : EventMask, (⟨(f m).id, fun k => (f m).mask.getLsbD k, (f m).enabled⟩ : MaskSet) =
      g ⟨m.id, fun k => m.mask.getLsbD k, m.enabled⟩) :
    aux_pl_rel (updateMask id f a) (b.map fun m => if m.id = id then g m else m) := by
  rw [aux_pl_rel] at h ⊢
  subst h
  simp only [updateMask, List.map_map]
  apply List.map_congr_left
  intro m _
  simp only [Function.comp]
  split
  · exact (hfg m).symm
  · rfl

theorem aux_pl_masks (p : Pull) (l : List MaskSet) (h : aux_pl_rel p.masks l) (op : PullOp) :
    aux_pl_rel (p.step op).2.masks (masksStep l op) := by
  cases op with
  | happen k x =>
    simp only [Pull.step, masksStep]
    split
    · exact h
    · simp only [Pull.push]
      split <;> exact h
  | setMask m =>
    have e : l.any (·.id == m.id) = p.masks.any (·.id == m.id) := by
      rw [h, List.any_map]; rfl
    simp only [Pull.step, masksStep, e]
    split
    · exact h
    · rw [aux_pl_rel] at h ⊢
      simp [h]
  | maskAdd id ev =>
    refine aux_pl_update h id _ (fun m => { m with names := fun k => m.names k || ev.getLsbD k }) ?_
    intro m
    simp only [EventMask.add, BitVec.getLsbD_or]
  | maskRemove id ev =>
    refine aux_pl_update h id _ (fun m => { m with names := fun k => m.names k && !ev.getLsbD k }) ?_
    intro m
    simp only [EventMask.remove, MaskSet.mk.injEq, true_and, and_true]
    funext k
    simp only [BitVec.getLsbD_and, BitVec.getLsbD_not]
    by_cases hk : k < 32
    · simp [hk]
    · have : m.mask.getLsbD k = false := BitVec.getLsbD_of_ge _ _ (by omega)
      simp [this]
  | maskEnable id b => exact aux_pl_update h id _ (fun m => { m with enabled := b }) fun m => rfl
  | next ms => simp only [Pull.step, masksStep]; split <;> exact h
  | wake i s =>
    simp only [Pull.step, masksStep]
    split
    · exact h
    · split <;> exact h
  | resume i =>
    simp only [Pull.step, masksStep]
    split
    · exact h
    · split
      · exact h
      · split <;> exact h
  | wait n => exact h

theorem aux_pl_last {l : List (Nat × Nat)} {e : Nat × Nat} (h : l.getLast? = some e) :
    l.reverse = e :: l.dropLast.reverse := by
  obtain ⟨l', rfl⟩ := List.getLast?_eq_some_iff.mp h
  simp

/-- One step: what is pulled, and what is pending. -/
theorem aux_pl_step (p : Pull) (l : List MaskSet) (h : aux_pl_rel p.masks l) (op : PullOp)
    (hk : ∀ k x, op = .happen k x → k < 8) :
    pulledIn (p.step op).1 ++ (p.step op).2.data.reverse =
      p.data.reverse ++ newEvent l op := by
  cases op with
  | happen k x =>
    have hf := aux_pl_filtered h (hk k x rfl)
    simp only [Pull.step, hf, newEvent]
    split
    · simp only [pulledIn]
      split
      · simp
      · split <;> simp
    · simp only [Pull.push, pulledIn]
      split <;> split <;> simp
  | next ms =>
    simp only [Pull.step]
    split
    · rename_i e he
      simp [pulledIn, newEvent, aux_pl_last he]
    · simp [pulledIn, newEvent]
  | wake i s =>
    simp only [Pull.step]
    split
    · simp [pulledIn, newEvent]
    · split <;> simp [pulledIn, newEvent]
  | resume i =>
    simp only [Pull.step]
    split
    · simp [pulledIn, newEvent]
    · split
      · rename_i e he
        simp [pulledIn, newEvent, aux_pl_last he]
      · split <;> simp [pulledIn, newEvent]
  | setMask m => simp only [Pull.step]; split <;> simp [pulledIn, newEvent]
  | maskAdd id ev => simp [Pull.step, pulledIn, newEvent]
  | maskRemove id ev => simp [Pull.step, pulledIn, newEvent]
  | maskEnable id ev => simp [Pull.step, pulledIn, newEvent]
  | wait n => simp [Pull.step, pulledIn, newEvent]

theorem aux_pl_run (ops : List PullOp) : ∀ (p : Pull) (l : List MaskSet), aux_pl_rel p.masks l → RealKinds ops →
    pulledIn (p.run ops).1 ++ (p.run ops).2.data.reverse = p.data.reverse ++ toDeliver l ops := by
  induction ops with
  | nil => intro p l _ _; simp [Pull.run, pulledIn, toDeliver]
  | cons op ops ih =>
    intro p l h hk
    have h1 := aux_pl_step p l h op (fun k x he => hk k x (he ▸ List.mem_cons_self))
    have h2 := ih _ _ (aux_pl_masks p l h op) (fun k x hm => hk k x (List.mem_cons_of_mem _ hm))
    have e : ∀ a b, pulledIn (a ++ b) = pulledIn a ++ pulledIn b := by intro a b; simp [pulledIn]
    simp only [Pull.run, toDeliver, e]
    rw [List.append_assoc, h2, ← List.append_assoc, h1, List.append_assoc]

/-- **C41** (order and masks): at any moment, the events pulled and, after them, those pending are exactly the
events that happened and were not masked when they did, each once, in the order they were queued. -/
theorem C41_in_order (ops : List PullOp) (hk : RealKinds ops) :
    pulledIn (Pull.init.run ops).1 ++ (Pull.init.run ops).2.data.reverse = toDeliver [] ops := by
  have := aux_pl_run ops Pull.init [] rfl hk
  simpa [Pull.init] using this

/-- Three events, one of them masked by a mask that is then disabled; the second pull waits. -/
example :
    let ops : List PullOp := [.happen 0 1, .setMask ⟨7, 5#32, true⟩, .happen 2 2, .maskRemove 7 1#32, .happen 0 3,
      .maskEnable 7 false, .happen 2 4, .next 0, .next 10, .next 0, .next 0, .happen 3 5, .resume 0]
    toDeliver [] ops = [(0, 1), (0, 3), (2, 4), (3, 5)] ∧
    pulledIn (Pull.init.run ops).1 = [(0, 1), (0, 3), (2, 4), (3, 5)] := by decide +kernel

example : RealKinds [.happen 0 1, .setMask ⟨7, 5#32, true⟩, .happen 2 2, .maskRemove 7 1#32, .happen 0 3, .next 0] := by
  intro k x h
  simp at h
  omega

/-- **C41**: a pull gives the first event pending, if there is any, with no wait. -/
theorem C41_pull_gives (ops : List PullOp) (millis : Int) (k x : Nat) (rest : List (Nat × Nat))
    (hd : (Pull.init.run ops).2.data.reverse = (k, x) :: rest) :
    ((Pull.init.run ops).2.step (.next millis)).1 = [.pulled k x] := by
  have : (Pull.init.run ops).2.data.getLast? = some (k, x) := by
    rw [← List.head?_reverse, hd]; rfl
  simp [Pull.step, this]

example : (Pull.init.run [.happen 0 1, .happen 2 2]).2.data.reverse = (0, 1) :: [(2, 2)] := by decide +kernel

theorem aux_pl_wake (p : Pull) (h : p.sleeping ≠ [] → p.data.length ≤ p.woken.length) (op : PullOp) :
    (p.step op).2.sleeping ≠ [] → (p.step op).2.data.length ≤ (p.step op).2.woken.length := by
  cases op with
  | happen k x =>
    simp only [Pull.step]
    split
    · exact h
    · simp only [Pull.push]
      split
      · rename_i hs; intro hc; exact absurd hs hc
      · rename_i t l hs
        intro _
        have := h (by simp [hs])
        simp
        omega
  | next ms =>
    simp only [Pull.step]
    split
    · intro hs
      have := h hs
      simp
      omega
    · rename_i hn
      intro _
      have : p.data = [] := by simpa using hn
      simp [this]
  | wake i s =>
    simp only [Pull.step]
    split
    · exact h
    · rename_i t hi
      split
      · intro _
        have : p.sleeping ≠ [] := by intro hc; simp [hc] at hi
        have := h this
        simp
        omega
      · exact h
  | resume i =>
    simp only [Pull.step]
    split
    · exact h
    · rename_i t hi
      have hlt : i < p.woken.length := by
        have := List.getElem?_eq_some_iff.mp hi
        exact this.1
      split
      · intro hs
        have := h hs
        simp [List.length_eraseIdx, hlt]
        omega
      · rename_i hn
        have hd : p.data = [] := by simpa using hn
        split
        · intro _; simp [hd]
        · intro _; simp [hd]
  | setMask m => simp only [Pull.step]; split <;> exact h
  | maskAdd id ev => exact h
  | maskRemove id ev => exact h
  | maskEnable id ev => exact h
  | wait n => exact h

theorem aux_pl_wake_run (ops : List PullOp) : ∀ (p : Pull), (p.sleeping ≠ [] → p.data.length ≤ p.woken.length) →
    (p.run ops).2.sleeping ≠ [] → (p.run ops).2.data.length ≤ (p.run ops).2.woken.length := by
  induction ops with
  | nil => intro p h; exact h
  | cons op ops ih => intro p h; exact ih _ (aux_pl_wake p h op)

/-- **C41** (no event waits for a sleeping puller): while some thread sleeps waiting for an event, there are as
many threads awake to pull as events pending. -/
theorem C41_no_lost_wakeup (ops : List PullOp) (hs : (Pull.init.run ops).2.sleeping ≠ []) :
    (Pull.init.run ops).2.data.length ≤ (Pull.init.run ops).2.woken.length :=
  aux_pl_wake_run ops Pull.init (by simp [Pull.init]) hs

example : let p := (Pull.init.run [.next 0, .next 0, .happen 1 4]).2
    p.sleeping ≠ [] ∧ p.data.length = 1 ∧ p.woken.length = 1 := by decide +kernel

/-- **C41** (masked requests): a channel close or start whose event is masked is accepted in place of the
application; a start that is not masked is deferred to the application, and queued. -/
theorem C41_masked_requests (ops : List PullOp) (x : Nat) (l : List MaskSet)
    (hl : l = ops.foldl masksStep []) :
    let p := (Pull.init.run ops).2
    (isMasked l kindClose = true → (p.step (.happen kindClose x)).1 = [.closeAccepted x] ∧
      (p.step (.happen kindClose x)).2 = p) ∧
    (isMasked l kindStart = true → (p.step (.happen kindStart x)).1 = [.startAccepted x] ∧
      (p.step (.happen kindStart x)).2 = p) ∧
    (isMasked l kindStart = false → (p.step (.happen kindStart x)).1 = [.startDeferred x] ∧
      (p.step (.happen kindStart x)).2.data = (kindStart, x) :: p.data) := by
  intro p
  have hr : ∀ (ops : List PullOp) (p : Pull) (l : List MaskSet), aux_pl_rel p.masks l →
      aux_pl_rel (p.run ops).2.masks (ops.foldl masksStep l) := by
    intro ops
    induction ops with
    | nil => intro p l h; exact h
    | cons op ops ih => intro p l h; exact ih _ _ (aux_pl_masks p l h op)
  have h : aux_pl_rel p.masks l := hl ▸ hr ops Pull.init [] rfl
  have h1 := aux_pl_filtered (p := p) h (k := kindClose) (by decide)
  have h2 := aux_pl_filtered (p := p) h (k := kindStart) (by decide)
  refine ⟨fun hm => ?_, fun hm => ?_, fun hm => ?_⟩
  · rw [hm] at h1
    simp [Pull.step, h1]
  · rw [hm] at h2
    have : kindStart ≠ kindClose := by decide
    simp [Pull.step, h2, this]
  · rw [hm] at h2
    simp only [Pull.step, h2, Bool.false_eq_true, if_false, if_true, Pull.push, true_and]
    split <;> rfl

example : isMasked ([PullOp.setMask ⟨7, 2#32, true⟩].foldl masksStep []) kindClose = true ∧
    isMasked ([PullOp.setMask ⟨7, 2#32, true⟩].foldl masksStep []) kindStart = false := by decide +kernel

/-- **C41** (full statement of the wait, violated): a thread that gives up has waited the time it asked for. -/
def C41_wait_statement : Prop :=
  ∀ (ops : List PullOp), NoSpurious ops → ∀ (millis : Int) (waited : Nat), .gaveUp millis waited ∈ (Pull.init.run ops).1 →
    millis * 1000 ≤ waited

/-- **C41 (fault)**: the application asks for a wait of 500 milliseconds, and waits half a millisecond. -/
theorem C41_short_wait :
    (Pull.init.run [.next 500, .wait 500, .wake 0 false, .resume 0]).1 = [.gaveUp 500 500] := by decide +kernel

theorem C41_wait_statement_false : ¬ C41_wait_statement := by
  intro h
  have := h [.next 500, .wait 500, .wake 0 false, .resume 0] (by intro i; simp) 500 500 (by rw [C41_short_wait]; simp)
  omega

structure aux_pl_Time (p : Pull) : Prop where
  sleep : ∀ t ∈ p.sleeping, t.micros = t.millis.toNat
  woken : ∀ t ∈ p.woken, t.micros = t.millis.toNat ∧ (p.data ≠ [] ∨ t.micros = 0 ∨ t.since + t.micros ≤ p.now)
  one : p.sleeping.length + p.woken.length ≤ 1

theorem aux_pl_time_step {p : Pull} (h : aux_pl_Time p) (op : PullOp) (hn : ∀ i, op ≠ .wake i true)
    (ho : (∃ ms, op = .next ms) → p.sleeping = [] ∧ p.woken = []) :
    aux_pl_Time (p.step op).2 ∧
    ∀ (millis : Int) (waited : Nat), .gaveUp millis waited ∈ (p.step op).1 → 0 < millis ∧ millis ≤ waited := by
  cases op with
  | happen k x =>
    simp only [Pull.step]
    split
    · refine ⟨h, ?_⟩
      intro m w hm
      split at hm
      · simp at hm
      · split at hm <;> simp at hm
    · refine ⟨?_, ?_⟩
      · simp only [Pull.push]
        split
        · rename_i hs
          exact ⟨by simp [hs], fun t ht => ⟨(h.woken t ht).1, .inl (by simp)⟩, by have := h.one; simpa [hs] using this⟩
        · rename_i t l hs
          have ho := h.one
          have hs' : p.sleeping = t :: l := hs
          rw [hs'] at ho
          simp only [List.length_cons] at ho
          refine ⟨fun u hu => h.sleep u (by rw [hs']; exact List.mem_cons_of_mem _ hu), ?_, ?_⟩
          · intro u hu
            simp only [List.mem_append, List.mem_singleton] at hu
            rcases hu with hu | rfl
            · exact ⟨(h.woken u hu).1, .inl (by simp)⟩
            · exact ⟨h.sleep u (by rw [hs']; simp), .inl (by simp)⟩
          · simp; omega
      · intro m w hm
        split at hm <;> simp at hm
  | next ms =>
    have ho := ho ⟨ms, rfl⟩
    simp only [Pull.step]
    split
    · refine ⟨⟨by simp [ho], by simp [ho], by simp [ho]⟩, by simp⟩
    · refine ⟨⟨?_, by simp [ho], by simp [ho]⟩, by simp⟩
      intro t ht
      simp [ho] at ht
      subst ht
      simp only
      split <;> omega
  | wake i s =>
    have hs : s = false := by
      cases s with
      | false => rfl
      | true => exact absurd rfl (hn i)
    subst hs
    simp only [Pull.step]
    split
    · exact ⟨h, by simp⟩
    · rename_i t hi
      have hm := List.mem_of_getElem? hi
      have hlt : i < p.sleeping.length := (List.getElem?_eq_some_iff.mp hi).1
      have ho := h.one
      split
      · rename_i hc
        simp only [Bool.false_or, Bool.and_eq_true, decide_eq_true_eq] at hc
        refine ⟨⟨fun u hu => h.sleep u (List.mem_of_mem_eraseIdx hu), ?_, ?_⟩, by simp⟩
        · intro u hu
          simp only [List.mem_append, List.mem_singleton] at hu
          rcases hu with hu | rfl
          · exact h.woken u hu
          · exact ⟨h.sleep u hm, .inr (.inr hc.2)⟩
        · simp [List.length_eraseIdx, hlt]; omega
      · exact ⟨h, by simp⟩
  | resume i =>
    simp only [Pull.step]
    split
    · exact ⟨h, by simp⟩
    · rename_i t hi
      have hm := List.mem_of_getElem? hi
      have hlt : i < p.woken.length := (List.getElem?_eq_some_iff.mp hi).1
      have ho := h.one
      have hw : p.woken.eraseIdx i = [] := by
        apply List.eq_nil_of_length_eq_zero
        simp [List.length_eraseIdx, hlt]; omega
      have hsl : p.sleeping = [] := by
        apply List.eq_nil_of_length_eq_zero; omega
      obtain ⟨h1, h2⟩ := h.woken t hm
      split
      · exact ⟨⟨by simp [hsl], by simp [hw], by simp [hw, hsl]⟩, by simp⟩
      · rename_i hd
        have hd : p.data = [] := by simpa using hd
        split
        · rename_i hpos
          refine ⟨⟨by simp [hsl], by simp [hw], by simp [hw, hsl]⟩, ?_⟩
          intro m w hmw
          simp only [List.mem_singleton, PullEvent.gaveUp.injEq] at hmw
          obtain ⟨rfl, rfl⟩ := hmw
          rcases h2 with h2 | h2 | h2
          · exact absurd hd h2
          · omega
          · omega
        · refine ⟨⟨?_, by simp [hw], by simp [hw, hsl]⟩, by simp⟩
          intro u hu
          simp [hsl] at hu
          rw [hu]; exact h1
  | setMask m =>
    simp only [Pull.step]
    refine ⟨?_, by simp⟩
    split <;> exact ⟨h.sleep, h.woken, h.one⟩
  | maskAdd id ev => exact ⟨⟨h.sleep, h.woken, h.one⟩, by simp [Pull.step]⟩
  | maskRemove id ev => exact ⟨⟨h.sleep, h.woken, h.one⟩, by simp [Pull.step]⟩
  | maskEnable id ev => exact ⟨⟨h.sleep, h.woken, h.one⟩, by simp [Pull.step]⟩
  | wait n =>
    refine ⟨⟨h.sleep, fun t ht => ⟨(h.woken t ht).1, ?_⟩, h.one⟩, by simp [Pull.step]⟩
    rcases (h.woken t ht).2 with h2 | h2 | h2
    · exact .inl h2
    · exact .inr (.inl h2)
    · exact .inr (.inr (by simp only [Pull.step]; omega))

/-- **C41 (partial)** (waits): if threads pull one at a time, and are not released with no reason, one that gives
up had a limit, and waited as many microseconds as the milliseconds it asked for.
Missing: the factor 1000 (`C41_short_wait`), and several threads that pull at the same time. -/
theorem C41_wait_partial (ops : List PullOp) (hn : NoSpurious ops) (ho : OnePuller Pull.init ops) (millis : Int)
    (waited : Nat) (hg : .gaveUp millis waited ∈ (Pull.init.run ops).1) : 0 < millis ∧ millis ≤ waited := by
  suffices H : ∀ (ops : List PullOp) (p : Pull), aux_pl_Time p → NoSpurious ops → OnePuller p ops →
      .gaveUp millis waited ∈ (p.run ops).1 → 0 < millis ∧ millis ≤ waited from
    H ops Pull.init (by constructor <;> simp [Pull.init]) hn ho hg
  clear hg ho hn ops
  intro ops
  induction ops with
  | nil => intro p _ _ _ hg; simp [Pull.run] at hg
  | cons op ops ih =>
    intro p h hn ho hg
    have hs := aux_pl_time_step h op (fun i he => hn i (he ▸ List.mem_cons_self)) ho.1
    simp only [Pull.run, List.mem_append] at hg
    rcases hg with hg | hg
    · exact hs.2 _ _ hg
    · exact ih _ hs.1 (fun i hm => hn i (List.mem_cons_of_mem _ hm)) ho.2 hg

example : NoSpurious [.next 500, .wait 700, .wake 0 false, .resume 0] ∧
    OnePuller Pull.init [.next 500, .wait 700, .wake 0 false, .resume 0] ∧
    .gaveUp 500 700 ∈ (Pull.init.run [.next 500, .wait 700, .wake 0 false, .resume 0]).1 := by
  refine ⟨by intro i; simp, ?_, by decide +kernel⟩
  simp [OnePuller, Pull.init]

/-- **C41 (fault)**: of two threads that pull, the one woken by an event finds that the other one took it, and
gives up at once. -/
theorem C41_stolen_event :
    (Pull.init.run [.next 500, .happen 0 1, .next 500, .resume 0]).1 = [.pulled 0 1, .gaveUp 500 0] := by
  decide +kernel

end Verif.Props
