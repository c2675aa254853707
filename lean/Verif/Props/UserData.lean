import Verif.Spec.UserData
/-!
# C112: data stored with a connection, a channel or a context
-/
namespace Verif.Props
open Verif.Model Verif.Spec

/-! ### the log -/

theorem aux_ud_run_append (s : UdState) (a b : List UdOp) :
    s.run (a ++ b) = (((s.run a).1.run b).1, (s.run a).2 ++ ((s.run a).1.run b).2) := by
  induction a generalizing s with
  | nil => simp [UdState.run]
  | cons o r ih => simp [UdState.run, ih]

theorem aux_ud_run_snoc (s : UdState) (a : List UdOp) (o : UdOp) :
    s.run (a ++ [o]) = (((s.run a).1.step o).1, (s.run a).2 ++ [(o, ((s.run a).1.step o).2)]) := by
  rw [aux_ud_run_append]; rfl

theorem aux_ud_happened_snoc (log : List (UdOp × List UdEvent)) (o : UdOp) (l : List UdEvent) :
    udHappened (log ++ [(o, l)]) = udHappened log ++ l := by
  simp [udHappened]

theorem aux_ud_stored_append (a b : List UdEvent) (i : UdItem) : udStored (a ++ b) i = udStored a i + udStored b i := by
  induction a with
  | nil => simp [udStored]
  | cons e r ih =>
    cases e with
    | done c v => cases c <;> simp [udStored, ih, Nat.add_assoc]
    | _ => simp [udStored, ih]

theorem aux_ud_last_snoc (a : List UdEvent) (ev : UdEvent) (k : Nat) :
    udLast (a ++ [ev]) k =
      match ev with
      | .done (.set e) _ => if e.key = k then some e else udLast a k
      | .done (.unset k' _ _) _ => if k' = k then none else udLast a k
      | .done (.delete k') _ => if k' = k then none else udLast a k
      | _ => udLast a k := by
  simp only [udLast, List.foldl_append, List.foldl_cons, List.foldl_nil]
  cases ev with
  | done c r => cases c <;> rfl
  | _ => rfl

theorem aux_ud_last_returned (a : List UdEvent) (r : List UdItem) (k : Nat) : udLast (a ++ r.map .returned) k = udLast a k := by
  induction r generalizing a with
  | nil => simp
  | cons x r ih =>
    have := ih (a ++ [.returned x])
    rw [List.append_assoc] at this
    simp only [List.map_cons]
    simp only [List.singleton_append] at this
    rw [this, aux_ud_last_snoc]

theorem aux_ud_items_count (e : UdEntry) (i : UdItem) : e.items.count i = if udGives e i then 1 else 0 := by
  rcases i with ⟨k, p⟩
  cases k <;> cases h1 : e.keyDestroy <;> cases h2 : e.valueDestroy <;>
    simp [UdEntry.items, udGives, h1, h2, List.count_cons]

theorem aux_ud_split (table : List UdEntry) (k : Nat) (i : UdItem) :
    (table.flatMap UdEntry.items).count i =
      ((table.filter (fun x => decide (x.key ≠ k))).flatMap UdEntry.items).count i +
      ((table.filter (fun x => decide (x.key = k))).flatMap UdEntry.items).count i := by
  induction table with
  | nil => rfl
  | cons e r ih =>
    by_cases h : e.key = k <;> simp [h, List.count_append] at ih ⊢ <;> omega

theorem aux_ud_find_filter (table : List UdEntry) (k k' : Nat) :
    (table.filter (fun x => decide (x.key ≠ k'))).find? (fun x => decide (x.key = k)) =
      if k' = k then none else table.find? (fun x => decide (x.key = k)) := by
  induction table with
  | nil => simp
  | cons e r ih =>
    by_cases h : e.key = k' <;> by_cases h2 : k' = k
    · simp [h, h2] at ih ⊢; 
    · simp [h, h2] at ih ⊢; exact ih
    · subst h2; simp [h] at ih ⊢; 
    · by_cases h3 : e.key = k
      · have h4 : ¬ k = k' := fun x => h2 x.symm
        simp [h3, h4, h2]
      · simp [h, h2, h3] at ih ⊢; exact ih

/-! ### what is left to destroy -/

def aux_ud_frame (i : UdItem) : UdFrame → Nat
  | .waiting _ => 0
  | .cleanup _ rest _ => rest.count i

def aux_ud_stack (i : UdItem) : List UdFrame → Nat
  | [] => 0
  | f :: r => aux_ud_frame i f + aux_ud_stack i r

def aux_ud_all (i : UdItem) : List (List UdFrame) → Nat
  | [] => 0
  | f :: r => aux_ud_stack i f + aux_ud_all i r

theorem aux_ud_all_set (i : UdItem) (l : List (List UdFrame)) (t : Nat) (old new : List UdFrame) (h : l[t]? = some old) :
    aux_ud_all i (l.set t new) + aux_ud_stack i old = aux_ud_all i l + aux_ud_stack i new := by
  induction l generalizing t with
  | nil => simp at h
  | cons x r ih =>
    cases t with
    | zero => simp at h; subst h; simp [aux_ud_all]; omega
    | succ t => simp at h; have := ih t h; simp [aux_ud_all]; omega

/-- The balance of one item. -/
def AuxUdB (s : UdState) (h : List UdEvent) (i : UdItem) : Prop :=
  udStored h i = (s.table.flatMap UdEntry.items).count i + aux_ud_all i s.stacks + udDestroyed h i + udReturned h i

theorem aux_ud_destroyed_append (a b : List UdEvent) (i : UdItem) : udDestroyed (a ++ b) i = udDestroyed a i + udDestroyed b i := by
  simp [udDestroyed, List.count_append]

theorem aux_ud_returned_append (a b : List UdEvent) (i : UdItem) : udReturned (a ++ b) i = udReturned a i + udReturned b i := by
  simp [udReturned, List.count_append]

theorem aux_ud_ret_map (r : List UdItem) (i : UdItem) :
    udStored (r.map .returned) i = 0 ∧ udDestroyed (r.map .returned) i = 0 ∧ udReturned (r.map .returned) i = r.count i := by
  induction r with
  | nil => exact ⟨rfl, rfl, rfl⟩
  | cons x r ih =>
    obtain ⟨a, b, c⟩ := ih
    simp only [udDestroyed, udReturned] at b c ⊢
    refine ⟨by simpa [udStored] using a, ?_, ?_⟩
    · simp [b]
    · simp [List.count_cons, c]

theorem aux_ud_perform (table : List UdEntry) (c : UdCall) (i : UdItem) :
    udStored (udPerform table c).2.2 i + (table.flatMap UdEntry.items).count i =
      ((udPerform table c).1.flatMap UdEntry.items).count i + (udPerform table c).2.1.count i +
      udDestroyed (udPerform table c).2.2 i + udReturned (udPerform table c).2.2 i := by
  cases c with
  | set e =>
    have := aux_ud_split table e.key i
    simp only [udPerform, udStored, udDestroyed, udReturned, List.flatMap_cons, List.count_append, aux_ud_items_count]
    simp; simp at this; omega
  | unset k p d =>
    have := aux_ud_split table k i
    simp only [udPerform, udStored, udDestroyed, udReturned]
    simp; simp at this; omega
  | delete k =>
    have := aux_ud_split table k i
    obtain ⟨a, b, c⟩ := aux_ud_ret_map ((table.filter (fun x => decide (x.key = k))).flatMap UdEntry.items) i
    simp only [udDestroyed, udReturned] at b c
    simp only [udPerform, udStored, udDestroyed, udReturned, List.count_cons, a, b, c]
    simp; simp at this; omega
  | get k => simp [udPerform, udStored, udDestroyed, udReturned]

theorem aux_ud_enter_B (s : UdState) (h : List UdEvent) (i : UdItem) (t : Nat) (c : UdCall) (stack old : List UdFrame)
    (ho : s.stacks[t]? = some old) (hs : aux_ud_stack i old = aux_ud_stack i stack) (hb : AuxUdB s h i) :
    AuxUdB (s.enter t c stack).1 (h ++ (s.enter t c stack).2) i := by
  unfold AuxUdB at *
  unfold UdState.enter
  split
  · have := aux_ud_all_set i s.stacks t old (.waiting c :: stack) ho
    simp only [aux_ud_stack, aux_ud_frame] at this
    rw [aux_ud_stored_append, aux_ud_destroyed_append, aux_ud_returned_append]
    simp only [udStored, udDestroyed, udReturned] at *
    simp
    omega
  · have := aux_ud_all_set i s.stacks t old (.cleanup none (udPerform s.table c).2.1 false :: stack) ho
    have p := aux_ud_perform s.table c i
    simp only [aux_ud_stack, aux_ud_frame] at this
    rw [aux_ud_stored_append, aux_ud_destroyed_append, aux_ud_returned_append]
    simp only
    omega

theorem aux_ud_step_B (s : UdState) (h : List UdEvent) (i : UdItem) (o : UdOp) (hb : AuxUdB s h i) :
    AuxUdB (s.step o).1 (h ++ (s.step o).2) i := by
  have ign : AuxUdB s (h ++ [.ignored]) i := by
    unfold AuxUdB at *
    rw [aux_ud_stored_append, aux_ud_destroyed_append, aux_ud_returned_append]
    simp only [udStored, udDestroyed, udReturned] at *
    simp; omega
  cases o with
  | call t c =>
    simp only [UdState.step]
    split
    · exact ign
    · split
      · exact ign
      · exact aux_ud_enter_B s h i t c _ _ (by assumption) rfl hb
    · exact aux_ud_enter_B s h i t c _ _ (by assumption) rfl hb
    · exact ign
  | go t j =>
    simp only [UdState.step]
    split
    · exact ign
    · exact ign
    · rename_i c stack ho
      split
      · simpa using hb
      · exact aux_ud_enter_B s h i t c _ _ ho (by simp [aux_ud_stack, aux_ud_frame]) hb
    · rename_i x rest l stack ho
      have := aux_ud_all_set i s.stacks t _ (.cleanup none rest l :: stack) ho
      simp only [aux_ud_stack, aux_ud_frame] at this
      simp only [AuxUdB, List.append_nil] at *
      omega
    · rename_i l stack ho
      have := aux_ud_all_set i s.stacks t _ stack ho
      simp only [aux_ud_stack, aux_ud_frame, List.count_nil] at this
      simp only [AuxUdB, List.append_nil] at *
      omega
    · rename_i x rest l stack ho
      have mem : ((x :: rest)[j]?.getD x) ∈ x :: rest := by
        cases hj : (x :: rest)[j]? with
        | none => simp
        | some y => simpa using List.mem_of_getElem? hj
      generalize (x :: rest)[j]?.getD x = k at mem
      have := aux_ud_all_set i s.stacks t _ (.cleanup (some k) ((x :: rest).erase k) l :: stack) ho
      simp only [aux_ud_stack, aux_ud_frame] at this
      unfold AuxUdB at *
      rw [aux_ud_stored_append, aux_ud_destroyed_append, aux_ud_returned_append]
      simp only [udStored, udDestroyed, udReturned] at *
      have e : ((x :: rest).erase k).count i + [UdEvent.destroyed k].count (.destroyed i) = (x :: rest).count i := by
        by_cases hk : k = i
        · subst hk
          have : 0 < (x :: rest).count k := List.count_pos_iff.2 mem
          rw [List.count_erase_self]; simp; omega
        · have hk' : i ≠ k := fun q => hk q.symm
          rw [List.count_erase_of_ne hk']; simp [hk]
      have e2 : [UdEvent.destroyed k].count (.returned i) = 0 := by simp
      omega
  | release t =>
    simp only [UdState.step]
    split
    · exact ign
    · rename_i hc
      simp only [Bool.or_eq_true, not_or, decide_eq_true_eq, Nat.not_le, Bool.not_eq_true, Bool.not_eq_eq_eq_not,
        Bool.not_true] at hc
      obtain ⟨⟨⟨_, _⟩, hall⟩, ht⟩ := hc
      have ho : s.stacks[t]? = some [] := by
        rw [List.getElem?_eq_getElem ht]
        have := (List.all_eq_true (p := List.isEmpty)).1 (by simpa using hall) _ (List.getElem_mem ht)
        simpa using this
      have := aux_ud_all_set i s.stacks t _ [.cleanup none (s.table.flatMap UdEntry.items) true] ho
      simp only [aux_ud_stack, aux_ud_frame] at this
      simp only [AuxUdB, List.append_nil] at *
      simp only [List.flatMap_nil, List.count_nil]
      omega

theorem aux_ud_init_all (n : Nat) (i : UdItem) : aux_ud_all i (List.replicate n []) = 0 := by
  induction n with
  | zero => rfl
  | succ n ih => simp [List.replicate_succ, aux_ud_all, aux_ud_stack, ih]

/-! ### the shape of the states -/

def AuxUdFrameOk : UdFrame → Prop
  | .waiting _ => False
  | .cleanup _ _ l => l = false

/-- During the release. -/
def AuxUdLast (stack : List UdFrame) : Prop :=
  (∃ now rest, stack = [.cleanup now rest true]) ∨ ∃ c i rest, stack = [.waiting c, .cleanup (some i) rest true]

structure AuxUdOpen (s : UdState) : Prop where
  rel : s.released = false
  lck : s.locked = false
  fre : s.freed = false
  ok : ∀ (t : Nat) (st : List UdFrame), s.stacks[t]? = some st → ∀ f, f ∈ st → AuxUdFrameOk f

structure AuxUdEnding (s : UdState) : Prop where
  rel : s.released = true
  tab : s.table = []
  lck : s.locked = true
  fre : s.freed = false
  who : ∃ (t : Nat) (st : List UdFrame), s.stacks[t]? = some st ∧ AuxUdLast st ∧ ∀ (u : Nat) (x : List UdFrame), u ≠ t → s.stacks[u]? = some x → x = []

structure AuxUdOver (s : UdState) : Prop where
  rel : s.released = true
  tab : s.table = []
  lck : s.locked = false
  fre : s.freed = true
  who : ∀ (u : Nat) (x : List UdFrame), s.stacks[u]? = some x → x = []

theorem aux_ud_get_set (l : List (List UdFrame)) (t u : Nat) (x y : List UdFrame) (h : (l.set t x)[u]? = some y) :
    (u = t ∧ y = x) ∨ (u ≠ t ∧ l[u]? = some y) := by
  rw [List.getElem?_set] at h
  by_cases e : t = u
  · rw [if_pos e] at h
    split at h
    · left; exact ⟨e.symm, by simpa using h.symm⟩
    · simp at h
  · rw [if_neg e] at h; right; exact ⟨fun q => e q.symm, h⟩

theorem aux_ud_set_get (l : List (List UdFrame)) (t : Nat) (x y : List UdFrame) (h : l[t]? = some y) : (l.set t x)[t]? = some x := by
  have : t < l.length := by
    rcases Nat.lt_or_ge t l.length with q | q
    · exact q
    · rw [List.getElem?_eq_none q] at h; simp at h
  rw [List.getElem?_set]; simp [this]

/-- What a step does while the object lives, besides its release. -/
theorem aux_ud_enter_open (s : UdState) (t : Nat) (c : UdCall) (stack : List UdFrame) (ho : AuxUdOpen s)
    (hs : ∀ f, f ∈ stack → AuxUdFrameOk f) :
    AuxUdOpen (s.enter t c stack).1 ∧ (s.enter t c stack).2 = (udPerform s.table c).2.2 ∧
      (s.enter t c stack).1.table = (udPerform s.table c).1 := by
  have e : s.enter t c stack = ({ s with table := (udPerform s.table c).1, stacks := s.stacks.set t (.cleanup none (udPerform s.table c).2.1 false :: stack) },
      (udPerform s.table c).2.2) := by
    unfold UdState.enter; rw [ho.lck]; rfl
  rw [e]
  refine ⟨⟨ho.rel, ho.lck, ho.fre, ?_⟩, rfl, rfl⟩
  intro u x hx f hf
  rcases aux_ud_get_set _ _ _ _ _ hx with ⟨_, rfl⟩ | ⟨_, q⟩
  · rcases List.mem_cons.1 hf with rfl | hf
    · rfl
    · exact hs f hf
  · exact ho.ok u x q f hf

inductive AuxUdStep (s : UdState) (s' : UdState) (ev : List UdEvent) : Prop
  | quiet (h : s'.table = s.table) (q : ev = [] ∨ ev = [.ignored] ∨ ∃ i, ev = [.destroyed i])
  | perform (c : UdCall) (h : s'.table = (udPerform s.table c).1) (q : ev = (udPerform s.table c).2.2)

theorem aux_ud_step_open (s : UdState) (o : UdOp) (ho : AuxUdOpen s) :
    (AuxUdOpen (s.step o).1 ∧ AuxUdStep s (s.step o).1 (s.step o).2) ∨ (AuxUdEnding (s.step o).1 ∧ (s.step o).2 = []) := by
  cases o with
  | call t c =>
    left
    simp only [UdState.step]
    split
    · exact ⟨ho, .quiet rfl (.inr (.inl rfl))⟩
    · rw [ho.rel]
      obtain ⟨a, b, c'⟩ := aux_ud_enter_open s t c [] ho (by simp)
      exact ⟨a, .perform c c' b⟩
    · rename_i h
      obtain ⟨a, b, c'⟩ := aux_ud_enter_open s t c _ ho (ho.ok _ _ h)
      exact ⟨a, .perform c c' b⟩
    · exact ⟨ho, .quiet rfl (.inr (.inl rfl))⟩
  | go t j =>
    left
    simp only [UdState.step]
    split
    · exact ⟨ho, .quiet rfl (.inr (.inl rfl))⟩
    · exact ⟨ho, .quiet rfl (.inr (.inl rfl))⟩
    · rename_i h
      exact (ho.ok _ _ h _ (List.mem_cons_self ..)).elim
    · rename_i rest l stack h
      have hl := ho.ok _ _ h
      refine ⟨⟨ho.rel, ho.lck, ho.fre, ?_⟩, .quiet rfl (.inl rfl)⟩
      intro u x hx f hf
      rcases aux_ud_get_set _ _ _ _ _ hx with ⟨_, rfl⟩ | ⟨_, q⟩
      · rcases List.mem_cons.1 hf with rfl | hf
        · have := hl _ (List.mem_cons_self ..)
          exact this
        · exact hl f (List.mem_cons_of_mem _ hf)
      · exact ho.ok u x q f hf
    · rename_i l stack h
      have hl := ho.ok _ _ h
      have e : l = false := hl _ (List.mem_cons_self ..)
      subst e
      refine ⟨⟨ho.rel, ho.lck, by simp [ho.fre], ?_⟩, .quiet rfl (.inl rfl)⟩
      intro u x hx f hf
      rcases aux_ud_get_set _ _ _ _ _ hx with ⟨_, rfl⟩ | ⟨_, q⟩
      · exact hl f (List.mem_cons_of_mem _ hf)
      · exact ho.ok u x q f hf
    · rename_i i rest l stack h
      have hl := ho.ok _ _ h
      refine ⟨⟨ho.rel, ho.lck, ho.fre, ?_⟩, .quiet rfl (.inr (.inr ⟨_, rfl⟩))⟩
      intro u x hx f hf
      rcases aux_ud_get_set _ _ _ _ _ hx with ⟨_, rfl⟩ | ⟨_, q⟩
      · rcases List.mem_cons.1 hf with rfl | hf
        · have := hl _ (List.mem_cons_self ..)
          exact this
        · exact hl f (List.mem_cons_of_mem _ hf)
      · exact ho.ok u x q f hf
  | release t =>
    simp only [UdState.step]
    split
    · left; exact ⟨ho, .quiet rfl (.inr (.inl rfl))⟩
    · rename_i hc
      right
      simp only [Bool.or_eq_true, not_or, decide_eq_true_eq, Nat.not_le, Bool.not_eq_true, Bool.not_eq_eq_eq_not,
        Bool.not_true] at hc
      obtain ⟨⟨⟨_, _⟩, hall⟩, ht⟩ := hc
      have hemp : ∀ (u : Nat) (x : List UdFrame), s.stacks[u]? = some x → x = [] := by
        intro u x hx
        have := (List.all_eq_true (p := List.isEmpty)).1 (by simpa using hall) _ (List.mem_of_getElem? hx)
        simpa using this
      refine ⟨⟨rfl, rfl, rfl, ho.fre, t, [.cleanup none (s.table.flatMap UdEntry.items) true], ?_, .inl ⟨_, _, rfl⟩, ?_⟩, rfl⟩
      · exact aux_ud_set_get _ _ _ _ (List.getElem?_eq_getElem ht)
      · intro u x hu hx
        rcases aux_ud_get_set _ _ _ _ _ hx with ⟨e, _⟩ | ⟨_, q⟩
        · exact absurd e hu
        · exact hemp u x q

theorem aux_ud_step_ending (s : UdState) (o : UdOp) (ho : AuxUdEnding s) :
    (AuxUdEnding (s.step o).1 ∨ AuxUdOver (s.step o).1) ∧ (∀ c r, .done c r ∉ (s.step o).2) := by
  obtain ⟨t, st, ht, hl, hoth⟩ := ho.who
  -- the frame of the thread that releases changes
  have upd : ∀ st', AuxUdLast st' → AuxUdEnding { s with stacks := s.stacks.set t st' } := by
    intro st' h'
    refine ⟨ho.rel, ho.tab, ho.lck, ho.fre, t, st', aux_ud_set_get _ _ _ _ ht, h', ?_⟩
    intro u x hu hx
    rcases aux_ud_get_set _ _ _ _ _ hx with ⟨e, _⟩ | ⟨_, q⟩
    · exact absurd e hu
    · exact hoth u x hu q
  cases o with
  | call u c =>
    simp only [UdState.step]
    split
    · exact ⟨.inl ho, by simp⟩
    · rw [ho.rel]; exact ⟨.inl ho, by simp⟩
    · rename_i i rest l stack h
      by_cases e : u = t
      · subst e
        rw [ht] at h
        have h := Option.some.inj h
        rcases hl with ⟨now, r, e⟩ | ⟨c', i', r, e⟩
        · rw [e] at h
          simp only [List.cons.injEq, UdFrame.cleanup.injEq] at h
          obtain ⟨⟨h1, h2, h3⟩, h4⟩ := h
          subst h1 h2 h3 h4
          unfold UdState.enter
          rw [if_pos ho.lck]
          exact ⟨.inl (upd _ (.inr ⟨_, _, _, rfl⟩)), by simp⟩
        · rw [e] at h; simp at h
      · exact absurd (hoth u _ e h) (by simp)
    · exact ⟨.inl ho, by simp⟩
  | go u j =>
    by_cases e : u = t
    · subst e
      rcases hl with ⟨now, r, e⟩ | ⟨c', i', r, e⟩
      · subst e
        simp only [UdState.step, ht]
        cases now with
        | some i => exact ⟨.inl (upd _ (.inl ⟨_, _, rfl⟩)), by simp⟩
        | none =>
          cases r with
          | nil =>
            refine ⟨.inr ⟨ho.rel, ho.tab, by simp, by simp, ?_⟩, by simp⟩
            intro v x hx
            rcases aux_ud_get_set _ _ _ _ _ hx with ⟨_, q⟩ | ⟨a, q⟩
            · exact q
            · exact hoth v x a q
          | cons x r => exact ⟨.inl (upd _ (.inl ⟨_, _, rfl⟩)), by simp⟩
      · subst e
        simp only [UdState.step, ht, ho.lck, if_true]
        exact ⟨.inl ho, by simp⟩
    · cases hu : s.stacks[u]? with
      | none => simp only [UdState.step, hu]; exact ⟨.inl ho, by simp⟩
      | some x =>
        have := hoth u x e hu
        subst this
        simp only [UdState.step, hu]; exact ⟨.inl ho, by simp⟩
  | release u =>
    simp only [UdState.step, ho.rel, Bool.true_or, if_true]
    exact ⟨.inl ho, by simp⟩

theorem aux_ud_step_over (s : UdState) (o : UdOp) (ho : AuxUdOver s) : s.step o = (s, [.ignored]) := by
  cases o with
  | call u c =>
    cases hu : s.stacks[u]? with
    | none => simp only [UdState.step, hu]
    | some x =>
      have := ho.who u x hu
      subst this
      simp only [UdState.step, hu, ho.rel, if_true]
  | go u j =>
    cases hu : s.stacks[u]? with
    | none => simp only [UdState.step, hu]
    | some x =>
      have := ho.who u x hu
      subst this
      simp only [UdState.step, hu]
  | release u => simp only [UdState.step, ho.rel, Bool.true_or, if_true]

/-- What holds after every history. -/
def AuxUdI (s : UdState) (h : List UdEvent) : Prop :=
  (∀ i, AuxUdB s h i) ∧
    ((AuxUdOpen s ∧ ∀ k, s.table.find? (fun x => decide (x.key = k)) = udLast h k) ∨ AuxUdEnding s ∨ AuxUdOver s)

theorem aux_ud_perform_last (table : List UdEntry) (h : List UdEvent) (c : UdCall) (k : Nat)
    (hk : table.find? (fun x => decide (x.key = k)) = udLast h k) :
    (udPerform table c).1.find? (fun x => decide (x.key = k)) = udLast (h ++ (udPerform table c).2.2) k := by
  cases c with
  | set e =>
    simp only [udPerform, aux_ud_last_snoc]
    by_cases he : e.key = k
    · simp [he]
    · rw [List.find?_cons_of_neg (by simpa using he), aux_ud_find_filter, if_neg he, if_neg he, hk]
  | unset k' p d =>
    simp only [udPerform, aux_ud_last_snoc]
    rw [aux_ud_find_filter, hk]
  | delete k' =>
    simp only [udPerform]
    rw [List.append_cons, aux_ud_last_returned, aux_ud_last_snoc, aux_ud_find_filter, hk]
  | get k' =>
    simp only [udPerform, aux_ud_last_snoc]
    exact hk

theorem aux_ud_step_I (s : UdState) (h : List UdEvent) (o : UdOp) (hi : AuxUdI s h) : AuxUdI (s.step o).1 (h ++ (s.step o).2) := by
  refine ⟨fun i => aux_ud_step_B s h i o (hi.1 i), ?_⟩
  rcases hi.2 with ⟨a, b⟩ | a | a
  · rcases aux_ud_step_open s o a with ⟨a', st⟩ | ⟨a', _⟩
    · left
      refine ⟨a', ?_⟩
      intro k
      cases st with
      | quiet e q =>
        rw [e, b k]
        rcases q with q | q | ⟨i, q⟩
        · rw [q, List.append_nil]
        · rw [q, aux_ud_last_snoc]
        · rw [q, aux_ud_last_snoc]
      | perform c e q => rw [e, q]; exact aux_ud_perform_last _ _ _ _ (b k)
    · exact .inr (.inl a')
  · exact .inr (aux_ud_step_ending s o a).1
  · rw [aux_ud_step_over s o a]; exact .inr (.inr a)

theorem aux_ud_init_I (n : Nat) : AuxUdI (UdState.init n) [] := by
  refine ⟨?_, .inl ⟨⟨rfl, rfl, rfl, ?_⟩, ?_⟩⟩
  · intro i
    simp [AuxUdB, UdState.init, aux_ud_init_all, udStored, udDestroyed, udReturned]
  · intro t st h f hf
    have := List.mem_of_getElem? h
    have := (List.mem_replicate.1 this).2
    subst this; simp at hf
  · intro k; rfl

theorem aux_ud_run_I (s : UdState) (h : List UdEvent) (ops : List UdOp) (hi : AuxUdI s h) :
    AuxUdI (s.run ops).1 (h ++ udHappened (s.run ops).2) := by
  induction ops generalizing s h with
  | nil => simpa [UdState.run, udHappened] using hi
  | cons o r ih =>
    have := ih _ _ (aux_ud_step_I s h o hi)
    simpa [UdState.run, udHappened] using this

theorem aux_ud_I (n : Nat) (ops : List UdOp) : AuxUdI ((UdState.init n).run ops).1 (udHappened ((UdState.init n).run ops).2) := by
  simpa using aux_ud_run_I _ [] ops (aux_ud_init_I n)

theorem aux_ud_all_nil (i : UdItem) (l : List (List UdFrame)) (h : ∀ (u : Nat) (x : List UdFrame), l[u]? = some x → x = []) : aux_ud_all i l = 0 := by
  induction l with
  | nil => rfl
  | cons y r ih =>
    have e := h 0 y rfl
    subst e
    simp only [aux_ud_all, aux_ud_stack, Nat.zero_add]
    exact ih (fun u x hx => h (u + 1) x (by simpa using hx))

/-! ### the property -/

/-- C112: whatever the threads and the destroy functions of the application do, when the object is freed every key and every value given with
a destroy function was destroyed exactly as often as it was given, less the times it went back to the application; and a call that waits
can return. -/
def C112_statement : Prop :=
  ∀ (n : Nat) (ops : List UdOp),
    let s := ((UdState.init n).run ops).1
    let h := udHappened ((UdState.init n).run ops).2
    (s.freed = true → ∀ i, udStored h i + udKeysOfNull h i = udDestroyed h i + udReturned h i) ∧
    (∀ t, udWaits s t → ∃ more, ¬ udWaits (s.run more).1 t)

/-- Never more is destroyed or handed back than was given. -/
theorem C112_at_most (n : Nat) (ops : List UdOp) (i : UdItem) :
    let h := udHappened ((UdState.init n).run ops).2
    udDestroyed h i + udReturned h i ≤ udStored h i := by
  have := (aux_ud_I n ops).1 i
  unfold AuxUdB at this
  show udDestroyed _ _ + udReturned _ _ ≤ udStored _ _
  omega

/-- When the object is freed everything that was stored with a destroy function was destroyed exactly once for each time it was stored, or went
back to the application. Missing: the keys of calls that store NULL; whether the object can be freed. -/
theorem C112_all_destroyed_partial (n : Nat) (ops : List UdOp) (i : UdItem) (hf : ((UdState.init n).run ops).1.freed = true) :
    let h := udHappened ((UdState.init n).run ops).2
    udDestroyed h i + udReturned h i = udStored h i := by
  have hi := aux_ud_I n ops
  have hb := hi.1 i
  have ho : AuxUdOver ((UdState.init n).run ops).1 := by
    rcases hi.2 with ⟨a, _⟩ | a | a
    · have := a.fre; rw [hf] at this; cases this
    · have := a.fre; rw [hf] at this; cases this
    · exact a
  unfold AuxUdB at hb
  rw [ho.tab, aux_ud_all_nil i _ ho.who] at hb
  show udDestroyed _ _ + udReturned _ _ = udStored _ _
  simp only [List.flatMap_nil, List.count_nil] at hb
  omega

theorem aux_ud_get_event (table : List UdEntry) (c : UdCall) (k : Nat) (r : Option Nat) (h : .done (.get k) r ∈ (udPerform table c).2.2) :
    r = (table.find? (fun x => decide (x.key = k))).map UdEntry.value := by
  cases c <;> simp [udPerform] at h
  obtain ⟨rfl, rfl⟩ := h
  rfl

/-- Reading gives what was stored last under the key by any thread and not removed since, and nothing of it has been destroyed if it was stored only once
with its destroy function. -/
theorem C112_get (n : Nat) (ops : List UdOp) (op : UdOp) (k : Nat) (r : Option Nat)
    (hg : .done (.get k) r ∈ (((UdState.init n).run ops).1.step op).2) :
    let h := udHappened ((UdState.init n).run ops).2
    r = (udLast h k).map UdEntry.value ∧
    ∀ e i, udLast h k = some e → udGives e i = true → udStored h i = 1 → udDestroyed h i = 0 ∧ udReturned h i = 0 := by
  have hi := aux_ud_I n ops
  intro h
  rcases hi.2 with ⟨a, b⟩ | a | a
  · rcases aux_ud_step_open _ op a with ⟨_, st⟩ | ⟨_, q⟩
    · cases st with
      | quiet _ q => rcases q with q | q | ⟨i, q⟩ <;> rw [q] at hg <;> simp at hg
      | perform c _ q =>
        rw [q] at hg
        refine ⟨?_, ?_⟩
        · rw [aux_ud_get_event _ _ _ _ hg, b k]
        · intro e i he hgv h1
          have hb := hi.1 i
          unfold AuxUdB at hb
          have hm : e ∈ ((UdState.init n).run ops).1.table := List.mem_of_find?_eq_some ((b k).trans he)
          have hpos : 0 < (((UdState.init n).run ops).1.table.flatMap UdEntry.items).count i := by
            rw [List.count_pos_iff, List.mem_flatMap]
            refine ⟨e, hm, ?_⟩
            rw [← List.count_pos_iff, aux_ud_items_count, if_pos hgv]
            exact Nat.one_pos
          have h1' : udStored (udHappened ((UdState.init n).run ops).2) i = 1 := h1
          show udDestroyed (udHappened ((UdState.init n).run ops).2) i = 0 ∧ udReturned (udHappened ((UdState.init n).run ops).2) i = 0
          omega
    · rw [q] at hg; simp at hg
  · exact absurd hg ((aux_ud_step_ending _ op a).2 _ _)
  · rw [aux_ud_step_over _ op a] at hg; simp at hg

/-- Until the last reference is released no call waits, not even of destroy functions that use the same object. -/
theorem C112_no_waiting_partial (n : Nat) (ops : List UdOp) (hr : ((UdState.init n).run ops).1.released = false) (t : Nat) :
    ¬ udWaits ((UdState.init n).run ops).1 t := by
  rintro ⟨c, stack, h⟩
  rcases (aux_ud_I n ops).2 with ⟨a, _⟩ | a | a
  · exact a.ok _ _ h _ (List.mem_cons_self ..)
  · have := a.rel; rw [hr] at this; cases this
  · have := a.rel; rw [hr] at this; cases this

/-! ### the end of a call -/

def aux_ud_cost : List UdFrame → Nat
  | [] => 0
  | .waiting _ :: r => 1 + aux_ud_cost r
  | .cleanup now rest _ :: r => 1 + (if now.isSome then 1 else 0) + 2 * rest.length + aux_ud_cost r

def aux_ud_free (stack : List UdFrame) : Prop := ∀ c, .waiting c ∉ stack

theorem aux_ud_go (s : UdState) (t j : Nat) (st : List UdFrame) (h : s.stacks[t]? = some st) (hn : aux_ud_free st) (hne : st ≠ []) :
    ∃ st', (s.step (.go t j)).1.stacks[t]? = some st' ∧ aux_ud_free st' ∧ aux_ud_cost st' + 1 = aux_ud_cost st := by
  cases st with
  | nil => exact absurd rfl hne
  | cons f stack =>
    cases f with
    | waiting c => exact absurd (List.mem_cons_self ..) (hn c)
    | cleanup now rest l =>
      have hn' : aux_ud_free stack := fun c hc => hn c (List.mem_cons_of_mem _ hc)
      have hn2 : ∀ now rest l, aux_ud_free (.cleanup now rest l :: stack) := by
        intro now rest l c hc
        rcases List.mem_cons.1 hc with q | q
        · cases q
        · exact hn' c q
      cases now with
      | some i =>
        simp only [UdState.step, h]
        refine ⟨_, aux_ud_set_get _ _ _ _ h, hn2 _ _ _, ?_⟩
        simp [aux_ud_cost]; omega
      | none =>
        cases rest with
        | nil =>
          simp only [UdState.step, h]
          refine ⟨_, aux_ud_set_get _ _ _ _ h, hn', ?_⟩
          simp [aux_ud_cost]; omega
        | cons i rest =>
          simp only [UdState.step, h]
          have mem : ((i :: rest)[j]?.getD i) ∈ i :: rest := by
            cases hj : (i :: rest)[j]? with
            | none => simp
            | some y => simpa using List.mem_of_getElem? hj
          refine ⟨_, aux_ud_set_get _ _ _ _ h, hn2 _ _ _, ?_⟩
          have := List.length_erase_of_mem mem
          simp only [aux_ud_cost, this]
          simp; omega

theorem aux_ud_gos (js : List Nat) (s : UdState) (t : Nat) (st : List UdFrame) (h : s.stacks[t]? = some st) (hn : aux_ud_free st)
    (hl : aux_ud_cost st ≤ js.length) : (s.run (js.map (.go t))).1.stacks[t]? = some [] := by
  induction js generalizing s st with
  | nil =>
    cases st with
    | nil => exact h
    | cons f r => cases f <;> simp [aux_ud_cost] at hl <;> omega
  | cons j r ih =>
    simp only [List.map_cons, UdState.run]
    by_cases hne : st = []
    · subst hne
      have : s.step (.go t j) = (s, [.ignored]) := by simp only [UdState.step, h]
      rw [this]
      exact ih s [] h hn (Nat.zero_le _)
    · obtain ⟨st', a, b, c⟩ := aux_ud_go s t j st h hn hne
      exact ih _ st' a b (by simp at hl; omega)

/-- A call that does not wait ends, whatever the order of the destroy functions, when these return: there is a number of steps of its thread after
which it is over. (With `C112_no_waiting_partial`: every call before the release.) -/
theorem C112_ends_partial (n : Nat) (ops : List UdOp) (t : Nat) (ht : t < n)
    (hw : ∀ u, ¬ udWaits ((UdState.init n).run ops).1 u) :
    ∃ N, ∀ js : List Nat, N ≤ js.length → (((UdState.init n).run ops).1.run (js.map (.go t))).1.stacks[t]? = some [] := by
  have len : ∀ (ops : List UdOp) (s : UdState), (s.run ops).1.stacks.length = s.stacks.length := by
    intro ops
    induction ops with
    | nil => intro s; rfl
    | cons o r ih =>
      intro s
      simp only [UdState.run]
      rw [ih]
      cases o <;> simp only [UdState.step, UdState.enter] <;> (repeat' split) <;> simp
  have hlt : t < ((UdState.init n).run ops).1.stacks.length := by rw [len]; simpa [UdState.init] using ht
  have hs := List.getElem?_eq_getElem hlt
  refine ⟨aux_ud_cost ((UdState.init n).run ops).1.stacks[t], fun js hj => aux_ud_gos js _ t _ hs ?_ hj⟩
  intro c hc
  rcases (aux_ud_I n ops).2 with ⟨a, _⟩ | a | a
  · exact a.ok _ _ hs _ hc
  · obtain ⟨u, st, hu, hl, ho⟩ := a.who
    by_cases e : t = u
    · subst e
      rw [hs] at hu
      have hu := Option.some.inj hu
      rcases hl with ⟨now, rest, e⟩ | ⟨c', i, rest, e⟩
      · rw [hu, e] at hc; simp at hc
      · exact hw t ⟨c', [.cleanup (some i) rest true], by rw [hs, hu, e]⟩
    · rw [ho t _ e hs] at hc; simp at hc
  · rw [a.who t _ hs] at hc; simp at hc

/-- The release ends too, with the object freed and everything destroyed, if the destroy functions it calls do not use the object. -/
theorem C112_release_ends_partial (n : Nat) (ops : List UdOp) (t : Nat) (ht : t < n)
    (hrest : ∀ u : Nat, u < n → ((UdState.init n).run ops).1.stacks[u]? = some []) (hr : ((UdState.init n).run ops).1.released = false) :
    ∃ N, ∀ js : List Nat, N ≤ js.length → ((UdState.init n).run (ops ++ .release t :: js.map (.go t))).1.freed = true := by
  have hi := aux_ud_I n ops
  rcases hi.2 with ⟨a, _⟩ | a | a
  · have key : AuxUdEnding (((UdState.init n).run ops).1.step (.release t)).1 ∧
        (((UdState.init n).run ops).1.step (.release t)).1.stacks[t]? =
          some [.cleanup none (((UdState.init n).run ops).1.table.flatMap UdEntry.items) true] := by
      generalize hs : ((UdState.init n).run ops).1 = s at *
      have hlen : t < s.stacks.length := by
        rcases Nat.lt_or_ge t s.stacks.length with q | q
        · exact q
        · have := hrest t ht; rw [List.getElem?_eq_none q] at this; cases this
      have len : s.stacks.length ≤ n := by
        rcases Nat.lt_or_ge n s.stacks.length with q | q
        · exfalso
          have gen : ∀ (ops : List UdOp) (s : UdState), (s.run ops).1.stacks.length = s.stacks.length := by
            intro ops
            induction ops with
            | nil => intro s; rfl
            | cons o r ih =>
              intro s
              simp only [UdState.run]
              rw [ih]
              cases o <;> simp only [UdState.step, UdState.enter] <;> (repeat' split) <;> simp
          have := gen ops (UdState.init n)
          rw [hs] at this
          simp [UdState.init] at this
          omega
        · exact q
      have hall : s.stacks.all List.isEmpty = true := by
        rw [List.all_eq_true]
        intro x hx
        obtain ⟨u, hu, e⟩ := List.getElem_of_mem hx
        have := hrest u (Nat.lt_of_lt_of_le hu len)
        rw [List.getElem?_eq_getElem hu, e] at this
        rw [Option.some.inj this]; rfl
      have hc : (s.released || s.locked || !(s.stacks.all List.isEmpty) || decide (s.stacks.length ≤ t)) = false := by
        rw [a.rel, a.lck, hall]; simpa using hlen
      have e : s.step (.release t) = (⟨[], s.stacks.set t [.cleanup none (s.table.flatMap UdEntry.items) true], true, true, s.freed⟩, []) := by
        simp only [UdState.step, hc]; rfl
      rw [e]
      refine ⟨⟨rfl, rfl, rfl, a.fre, t, _, aux_ud_set_get _ _ _ _ (hrest t ht), .inl ⟨_, _, rfl⟩, ?_⟩, aux_ud_set_get _ _ _ _ (hrest t ht)⟩
      intro u x hu hx
      rcases aux_ud_get_set _ _ _ _ _ hx with ⟨e, _⟩ | ⟨_, q⟩
      · exact absurd e hu
      · have := List.all_eq_true.1 hall _ (List.mem_of_getElem? q); simpa using this
    refine ⟨aux_ud_cost [.cleanup none (((UdState.init n).run ops).1.table.flatMap UdEntry.items) true], fun js hj => ?_⟩
    rw [List.append_cons, aux_ud_run_append, aux_ud_run_snoc]
    have hend : (((((UdState.init n).run ops).1.step (.release t)).1).run (js.map (.go t))).1.stacks[t]? = some [] :=
      aux_ud_gos js _ t _ key.2 (by intro c hc; simp at hc) hj
    have after : ∀ (l : List UdOp) (s : UdState), AuxUdEnding s ∨ AuxUdOver s → AuxUdEnding (s.run l).1 ∨ AuxUdOver (s.run l).1 := by
      intro l
      induction l with
      | nil => intro s h; exact h
      | cons o r ih =>
        intro s h
        simp only [UdState.run]
        apply ih
        rcases h with h | h
        · exact (aux_ud_step_ending s o h).1
        · rw [aux_ud_step_over s o h]; exact .inr h
    rcases after (js.map (.go t)) _ (.inl key.1) with q | q
    · obtain ⟨u, st, hu, hl, ho⟩ := q.who
      exfalso
      have stay : ∀ (l : List Nat) (s : UdState), AuxUdEnding s → (∃ st, s.stacks[t]? = some st ∧ AuxUdLast st) →
          AuxUdOver (s.run (l.map (.go t))).1 ∨ ∃ st, (s.run (l.map (.go t))).1.stacks[t]? = some st ∧ AuxUdLast st := by
        intro l
        induction l with
        | nil => intro s _ h; exact .inr h
        | cons j r ih =>
          intro s hE h
          simp only [List.map_cons, UdState.run]
          rcases (aux_ud_step_ending s (.go t j) hE).1 with h' | h'
          · refine ih _ h' ?_
            obtain ⟨st, h1, h2⟩ := h
            rcases h2 with ⟨now, rest, e⟩ | ⟨c, i, rest, e⟩
            · subst e
              cases now with
              | some i =>
                simp only [UdState.step, h1]
                exact ⟨_, aux_ud_set_get _ _ _ _ h1, .inl ⟨_, _, rfl⟩⟩
              | none =>
                cases rest with
                | nil =>
                  have := h'.fre
                  simp [UdState.step, h1] at this
                | cons x r =>
                  simp only [UdState.step, h1]
                  exact ⟨_, aux_ud_set_get _ _ _ _ h1, .inl ⟨_, _, rfl⟩⟩
            · subst e
              simp only [UdState.step, h1, hE.lck, if_true]
              exact ⟨_, rfl, .inr ⟨_, _, _, rfl⟩⟩
          · left
            have : ∀ (l : List UdOp) (s : UdState), AuxUdOver s → AuxUdOver (s.run l).1 := by
              intro l
              induction l with
              | nil => intro s h; exact h
              | cons o r ih => intro s h; simp only [UdState.run]; apply ih; rw [aux_ud_step_over s o h]; exact h
            exact this _ _ h'
      rcases stay js _ key.1 ⟨_, key.2, .inl ⟨_, _, rfl⟩⟩ with h' | ⟨st', h1, h2⟩
      · have := q.fre; rw [h'.fre] at this; cases this
      · rw [hend] at h1
        have h1 := Option.some.inj h1
        subst h1
        rcases h2 with ⟨_, _, e⟩ | ⟨_, _, _, e⟩ <;> cases e
    · exact q.fre
  · have := a.rel; rw [hr] at this; cases this
  · have := a.rel; rw [hr] at this; cases this

/-! ### the faults -/

/-- A destroy function that, called by the release, reads from the object it belongs to never returns, whatever happens after: the object is
never freed, and what is left is never destroyed. -/
theorem C112_release_stuck (n : Nat) (ops : List UdOp) (t : Nat) (c : UdCall)
    (hrel : ((UdState.init n).run ops).1.released = true) (more : List UdOp)
    (hb : .blocked ∈ (((UdState.init n).run ops).1.step (.call t c)).2) :
    let s := ((UdState.init n).run (ops ++ .call t c :: more)).1
    s.freed = false ∧ udWaits s t := by
  have stuck : ∀ (l : List UdOp) (s : UdState) (i : UdItem) (rest : List UdItem), s.released = true → s.locked = true → s.freed = false →
      s.stacks[t]? = some [.waiting c, .cleanup (some i) rest true] → (∀ (u : Nat) (x : List UdFrame), u ≠ t → s.stacks[u]? = some x → x = []) →
      s.run l = (s, (s.run l).2) := by
    intro l
    induction l with
    | nil => intro s i rest _ _ _ _ _; rfl
    | cons o r ih =>
      intro s i rest h1 h2 h3 h4 h5
      have e : (s.step o).1 = s := by
        cases o with
        | call u c' =>
          by_cases e : u = t
          · subst e; simp only [UdState.step, h4]
          · cases hu : s.stacks[u]? with
            | none => simp only [UdState.step, hu]
            | some x =>
              have := h5 u x e hu
              subst this
              simp only [UdState.step, hu, h1, if_true]
        | go u j =>
          by_cases e : u = t
          · subst e; simp only [UdState.step, h4, h2, if_true]
          · cases hu : s.stacks[u]? with
            | none => simp only [UdState.step, hu]
            | some x =>
              have := h5 u x e hu
              subst this
              simp only [UdState.step, hu]
        | release u => simp only [UdState.step, h1, Bool.true_or, if_true]
      simp only [UdState.run]
      rw [e]
      have := ih s i rest h1 h2 h3 h4 h5
      exact Prod.ext (congrArg (fun x => x.1) this) rfl
  intro s
  have hs : s = ((((UdState.init n).run ops).1.step (.call t c)).1.run more).1 := by
    show ((UdState.init n).run (ops ++ .call t c :: more)).1 = _
    rw [List.append_cons, aux_ud_run_append, aux_ud_run_snoc]
  rcases (aux_ud_I n ops).2 with ⟨a, _⟩ | a | a
  · have := a.rel; rw [hrel] at this; cases this
  · obtain ⟨u, st, hu, hl, ho⟩ := a.who
    generalize ((UdState.init n).run ops).1 = s0 at *
    have htu : t = u ∧ ∃ i rest, st = [.cleanup (some i) rest true] := by
      by_cases e : t = u
      · subst e
        refine ⟨rfl, ?_⟩
        rcases hl with ⟨now, rest, e⟩ | ⟨c', i, rest, e⟩
        · subst e
          cases now with
          | some i => exact ⟨i, rest, rfl⟩
          | none => simp [UdState.step, hu] at hb
        · subst e; simp [UdState.step, hu] at hb
      · exfalso
        cases hx : s0.stacks[t]? with
        | none => simp [UdState.step, hx] at hb
        | some x =>
          have := ho t x e hx
          subst this
          simp [UdState.step, hx, hrel] at hb
    obtain ⟨e, i, rest, e2⟩ := htu
    subst e e2
    have e : s0.step (.call t c) = ({ s0 with stacks := s0.stacks.set t [.waiting c, .cleanup (some i) rest true] }, [.blocked]) := by
      simp only [UdState.step, hu, UdState.enter]
      rw [if_pos a.lck]
    rw [e] at hs
    have := stuck more { s0 with stacks := s0.stacks.set t [.waiting c, .cleanup (some i) rest true] } i rest a.rel a.lck a.fre
      (aux_ud_set_get _ _ _ _ hu) (by
        intro v x hv hx
        rcases aux_ud_get_set _ _ _ _ _ hx with ⟨q, _⟩ | ⟨_, q⟩
        · exact absurd q hv
        · exact ho v x hv q)
    rw [this] at hs
    rw [hs]
    exact ⟨a.fre, c, _, aux_ud_set_get _ _ _ _ hu⟩
  · rw [aux_ud_step_over _ _ a] at hb; simp at hb

/-- Such a history: the value 5 is stored with a destroy function, which, when the object is released, reads what is stored under 2. -/
def udStuckOps : List UdOp :=
  [.call 0 (.set ⟨1, 100, false, 5, true⟩), .go 0 0, .release 0, .go 0 0]

theorem C112_release_stuck_example (more : List UdOp) :
    let s := ((UdState.init 1).run (udStuckOps ++ .call 0 (.get 2) :: more)).1
    s.freed = false ∧ udWaits s 0 :=
  C112_release_stuck 1 udStuckOps 0 (.get 2) (by decide +kernel) more (by decide +kernel)

/-- The key of a call that stores NULL is not destroyed though its destroy function is given: not when there was nothing under the key, not when there was,
and not with the object. -/
def udNullOps : List UdOp :=
  [.call 0 (.unset 1 100 true), .go 0 0, .release 0, .go 0 0]

theorem C112_key_leak :
    let s := ((UdState.init 1).run udNullOps).1
    let h := udHappened ((UdState.init 1).run udNullOps).2
    s.freed = true ∧ udKeysOfNull h ⟨.key, 100⟩ = 1 ∧ udDestroyed h ⟨.key, 100⟩ = 0 ∧ udReturned h ⟨.key, 100⟩ = 0 := by
  decide +kernel

/-- Storing again, under the same key, the value that is stored there: its destroy function is called, and reading gives what was destroyed. -/
def udAgainOps : List UdOp :=
  [.call 0 (.set ⟨1, 100, false, 5, true⟩), .go 0 0, .call 0 (.set ⟨1, 100, false, 5, true⟩), .go 0 0, .go 0 0, .go 0 0]

theorem C112_stored_again :
    let h := udHappened ((UdState.init 1).run udAgainOps).2
    udDestroyed h ⟨.value, 5⟩ = 1 ∧ .done (.get 1) (some 5) ∈ (((UdState.init 1).run udAgainOps).1.step (.call 0 (.get 1))).2 := by
  decide +kernel

theorem C112_statement_false : ¬ C112_statement := by
  intro h
  have := (h 1 udNullOps).1 (by decide +kernel) ⟨.key, 100⟩
  exact absurd this (by decide +kernel)

/-- A history with two threads, in which the destroy function of a value stores something else, and nothing is missed. -/
def udSampleOps : List UdOp :=
  [.call 0 (.set ⟨1, 100, true, 5, true⟩), .go 0 0, .call 1 (.set ⟨1, 101, true, 6, true⟩), .go 1 1, .call 1 (.set ⟨2, 102, false, 7, true⟩), .go 1 0,
   .go 1 0, .go 1 0, .go 1 0, .go 1 0, .call 0 (.delete 2), .go 0 0]

example : udStored (udHappened ((UdState.init 2).run udSampleOps).2) ⟨.value, 5⟩ = 1 ∧
    udDestroyed (udHappened ((UdState.init 2).run udSampleOps).2) ⟨.value, 5⟩ = 1 ∧
    udReturned (udHappened ((UdState.init 2).run udSampleOps).2) ⟨.value, 7⟩ = 1 := by decide +kernel

example : ((UdState.init 2).run udSampleOps).1.released = false ∧ (∀ u : Nat, u < 2 → ((UdState.init 2).run udSampleOps).1.stacks[u]? = some []) := by
  decide +kernel

example : ((UdState.init 2).run (udSampleOps ++ [.release 1, .go 1 0, .go 1 0, .go 1 0, .go 1 0, .go 1 0])).1.freed = true := by decide +kernel

example : .done (.get 1) (some 6) ∈ (((UdState.init 2).run udSampleOps).1.step (.call 0 (.get 1))).2 ∧
    udLast (udHappened ((UdState.init 2).run udSampleOps).2) 1 = some ⟨1, 101, true, 6, true⟩ ∧
    udStored (udHappened ((UdState.init 2).run udSampleOps).2) ⟨.value, 6⟩ = 1 := by decide +kernel

end Verif.Props
