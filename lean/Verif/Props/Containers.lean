import Verif.Spec.Containers
/-!
# C31, C34: error stack and hash
-/
namespace Verif.Props
open Verif.Model Verif.Spec

/-! ## C31 -/

/-- One call; the answer is that of `pop`. -/
def stackCall (s : ErrorStack) : StackOp → Option (Bool × Int × Option String) × ErrorStack
  | .push e => (none, s.push e.code (some e.msg))
  | .pushNull code => (none, s.push code none)
  | .record status text => (none, s.record status text)
  | .pop => (some s.pop.1, s.pop.2)

/-- The stack after a history. -/
def stackRun (s : ErrorStack) : List StackOp → ErrorStack
  | [] => s
  | op :: ops => stackRun (stackCall s op).2 ops

theorem aux_stackRun_append (s : ErrorStack) (a b : List StackOp) :
    stackRun s (a ++ b) = stackRun (stackRun s a) b := by
  induction a generalizing s with
  | nil => rfl
  | cons op a ih => exact ih _

theorem aux_balanced {ops : List StackOp} (h : Balanced ops) : ∀ s, stackRun s ops = s := by
  induction h with
  | nil => intro s; rfl
  | ignored code => intro s; rfl
  | silent text status h =>
    intro s
    have : ¬ (status ≠ 2 ∧ status ≠ 12) := by omega
    simp only [stackRun, stackCall, ErrorStack.record, if_neg this]
  | pushPop e h ih =>
    intro s
    rw [List.cons_append, stackRun, aux_stackRun_append, ih]
    rfl
  | recordPop status text hs hc h ih =>
    intro s
    rw [List.cons_append, stackRun, aux_stackRun_append, ih]
    simp [stackRun, stackCall, ErrorStack.record, hs, hc, ErrorStack.push, ErrorStack.pop]
  | append ha hb iha ihb => intro s; rw [aux_stackRun_append, iha, ihb]

/-- C31, order. Whatever happened before: after an error is pushed and everything pushed later has been
popped, the next pop returns that error. -/
theorem C31_lifo (pre mid : List StackOp) (e : ChanError) (h : Balanced mid) :
    (stackCall (stackRun ⟨[]⟩ (pre ++ [.push e] ++ mid)) .pop).1 = some (true, e.code, some e.msg) := by
  rw [aux_stackRun_append, aux_balanced h, aux_stackRun_append]
  rfl

/-- C31. The error recorded when the connection is closed by an error is popped likewise. -/
theorem C31_recorded (pre mid : List StackOp) (status : Int) (text : String) (hs : status ≠ 2)
    (hc : status ≠ 12) (h : Balanced mid) :
    (stackCall (stackRun ⟨[]⟩ (pre ++ [.record status text] ++ mid)) .pop).1 =
      some (true, status, some text) := by
  rw [aux_stackRun_append, aux_balanced h, aux_stackRun_append]
  simp [stackRun, stackCall, ErrorStack.record, hs, hc, ErrorStack.push, ErrorStack.pop]

/-- C31, each once. When everything pushed has been popped, a pop reports failure. -/
theorem C31_empty (ops : List StackOp) (h : Balanced ops) :
    (stackCall (stackRun ⟨[]⟩ ops) .pop).1 = some (false, 0, none) := by
  rw [aux_balanced h]; rfl

/-- C31. Popping an empty stack any number of times does not disturb it: the next error pushed is the next
popped. -/
theorem C31_after_failure (ops : List StackOp) (n : Nat) (h : Balanced ops) (e : ChanError) :
    (stackCall (stackRun ⟨[]⟩ (ops ++ List.replicate n .pop ++ [.push e])) .pop).1 =
      some (true, e.code, some e.msg) ∧
    (stackCall (stackRun ⟨[]⟩ (ops ++ List.replicate n .pop ++ [.push e, .pop])) .pop).1 =
      some (false, 0, none) := by
  have hn : ∀ n, stackRun ⟨[]⟩ (List.replicate n StackOp.pop) = ⟨[]⟩ := by
    intro n
    induction n with
    | zero => rfl
    | succ n ih => exact ih
  rw [aux_stackRun_append, aux_stackRun_append, aux_balanced h, hn, aux_stackRun_append, aux_stackRun_append,
    aux_balanced h, hn]
  exact ⟨rfl, rfl⟩

example : Balanced [.push ⟨550, "still working"⟩, .push ⟨421, "x"⟩, .pop, .pop] :=
  .pushPop ⟨550, "still working"⟩ (.pushPop ⟨421, "x"⟩ .nil)

/-! ## C34 -/

section Hash
variable {κ ν : Type} [DecidableEq κ]

theorem aux_run_append (h : HashTable κ ν) (a b : List (HashOp κ ν)) :
    h.run (a ++ b) = ((h.run a).1 ++ ((h.run a).2.run b).1, ((h.run a).2.run b).2) := by
  induction a generalizing h with
  | nil => simp [HashTable.run]
  | cons op a ih => simp [HashTable.run, ih]

omit [DecidableEq κ] in
theorem aux_refsAfter_append (a b : List (HashOp κ ν)) :
    refsAfter (a ++ b) = refsAfter a + refsAfter b - 1 := by
  induction a with
  | nil => simp only [List.nil_append, refsAfter]; omega
  | cons op a ih => cases op <;> simp only [List.cons_append, refsAfter, ih] <;> omega

omit [DecidableEq κ] in
theorem aux_held_left {a b : List (HashOp κ ν)} (h : Held (a ++ b)) : Held a :=
  fun pre post e => h pre (post ++ b) (by rw [e, List.append_assoc])

theorem aux_find_unlink {t : List (Entry κ ν)} {n : Nat} (hk : (t.map (·.key)).Nodup) (k k' : κ) :
    (HashTable.unlink ⟨t, n⟩ k).find k' = if k' = k then none else HashTable.find ⟨t, n⟩ k' := by
  induction t with
  | nil => simp [HashTable.unlink, HashTable.find]
  | cons e t ih =>
    rw [List.map_cons, List.nodup_cons] at hk
    have ih := ih hk.2
    simp only [HashTable.unlink, HashTable.find] at ih ⊢
    by_cases he : e.key = k
    · rw [List.eraseP_cons_of_pos (by simpa using he)]
      split
      · rename_i hkk
        rw [List.find?_eq_none]
        intro x hx
        simp only [decide_eq_true_eq]
        intro hxk
        exact hk.1 (List.mem_map.mpr ⟨x, hx, by rw [hxk, hkk, he]⟩)
      · rename_i hkk
        rw [List.find?_cons_of_neg]
        simp only [decide_eq_true_eq]
        intro h; exact hkk (by rw [← h, he])
    · rw [List.eraseP_cons_of_neg (by simpa using he)]
      by_cases hek : e.key = k'
      · rw [List.find?_cons_of_pos (by simpa using hek), List.find?_cons_of_pos (by simpa using hek)]
        rw [if_neg]
        intro h; exact he (by rw [hek, h])
      · rw [List.find?_cons_of_neg (by simpa using hek), List.find?_cons_of_neg (by simpa using hek), ih]

/-- What holds after a history during which the table was held. -/
structure aux_HashInv (ops : List (HashOp κ ν)) (es : List (HashEvent κ ν)) (h : HashTable κ ν) : Prop where
  refs : (h.refs : Int) = refsAfter ops
  nodup : (h.table.map (·.key)).Nodup
  find : ∀ k, (h.find k).map (·.value) = binding k ops.reverse
  parts : (inserted ops).Perm (destroyedIn es ++ releasedIn es ++ h.table)

omit [DecidableEq κ] in
theorem aux_dest (l : List (Entry κ ν)) : destroyedIn (l.map HashEvent.destroyed) = l ∧
    releasedIn (l.map HashEvent.destroyed) = [] := by
  induction l with
  | nil => exact ⟨rfl, rfl⟩
  | cons e l ih =>
    have h1 := ih.1
    have h2 := ih.2
    simp only [destroyedIn, releasedIn] at h1 h2
    exact ⟨by simp [destroyedIn, h1], by simp [releasedIn, h2]⟩

omit [DecidableEq κ] in
theorem aux_rel (l : List (Entry κ ν)) : destroyedIn (l.map HashEvent.released) = [] ∧
    releasedIn (l.map HashEvent.released) = l := by
  induction l with
  | nil => exact ⟨rfl, rfl⟩
  | cons e l ih =>
    have h1 := ih.1
    have h2 := ih.2
    simp only [destroyedIn, releasedIn] at h1 h2
    exact ⟨by simp [destroyedIn, h1], by simp [releasedIn, h2]⟩

omit [DecidableEq κ] in
theorem aux_dest_append (a b : List (HashEvent κ ν)) : destroyedIn (a ++ b) = destroyedIn a ++ destroyedIn b := by
  simp [destroyedIn]
omit [DecidableEq κ] in
theorem aux_rel_append (a b : List (HashEvent κ ν)) : releasedIn (a ++ b) = releasedIn a ++ releasedIn b := by
  simp [releasedIn]

theorem aux_split (h : HashTable κ ν) (k : κ) : h.table.Perm ((h.find k).toList ++ (h.unlink k).table) := by
  simp only [HashTable.find, HashTable.unlink]
  cases hf : h.table.find? (fun e => decide (e.key = k)) with
  | none =>
    have : ¬ ∃ x ∈ h.table, decide (x.key = k) = true := by
      rintro ⟨x, hx, hk⟩
      exact List.find?_eq_none.mp hf x hx hk
    rw [List.eraseP_of_forall_not (fun x hx => fun hk => this ⟨x, hx, hk⟩)]
    exact List.Perm.refl _
  | some e =>
    generalize h.table = t at *
    induction t with
    | nil => simp at hf
    | cons x t ih =>
      by_cases hx : decide (x.key = k) = true
      · rw [List.find?_cons_of_pos (p := fun (e : Entry κ ν) => decide (e.key = k)) hx] at hf
        injection hf with hf
        subst hf
        rw [List.eraseP_cons_of_pos (p := fun (e : Entry κ ν) => decide (e.key = k)) hx]
        exact List.Perm.refl _
      · rw [List.find?_cons_of_neg (p := fun (e : Entry κ ν) => decide (e.key = k)) hx] at hf
        rw [List.eraseP_cons_of_neg (p := fun (e : Entry κ ν) => decide (e.key = k)) hx]
        exact ((ih hf).cons x).trans (List.Perm.swap _ _ _)

theorem aux_unlink_sub (h : HashTable κ ν) (k : κ) : (h.unlink k).table.Sublist h.table :=
  List.eraseP_sublist

theorem aux_unlink_notin {h : HashTable κ ν} (hn : (h.table.map (·.key)).Nodup) (k : κ) :
    k ∉ (h.unlink k).table.map (·.key) := by
  intro hm
  obtain ⟨x, hx, hk⟩ := List.mem_map.mp hm
  have := aux_find_unlink (n := h.refs) hn k k
  rw [if_pos rfl] at this
  exact List.find?_eq_none.mp this x hx (by simpa using hk)

theorem aux_hstep {ops : List (HashOp κ ν)} {es : List (HashEvent κ ν)} {h : HashTable κ ν}
    (I : aux_HashInv ops es h) (op : HashOp κ ν) (hpos : 0 < refsAfter ops)
    (hpos' : 0 < refsAfter (ops ++ [op])) :
    aux_HashInv (ops ++ [op]) (es ++ (h.step op).1) (h.step op).2 := by
  have hr := I.refs
  have hne : h.refs ≠ 0 := by omega
  have hrev : (ops ++ [op]).reverse = op :: ops.reverse := by simp
  have hra : refsAfter (ops ++ [op]) = refsAfter ops + refsAfter [op] - 1 := aux_refsAfter_append _ _
  have hins : inserted (ops ++ [op]) = inserted ops ++ inserted [op] := by simp [inserted]
  -- a call that takes the entry of k away, with its handlers or not
  have away : ∀ (k : κ) (evs : List (HashEvent κ ν)),
      (destroyedIn evs ++ releasedIn evs).Perm (h.find k).toList →
      refsAfter [op] = 1 → inserted [op] = [] →
      (∀ k', binding k' (op :: ops.reverse) = if k' = k then none else binding k' ops.reverse) →
      aux_HashInv (ops ++ [op]) (es ++ evs) (h.unlink k) := by
    intro k evs hev hr1 hi1 hb
    refine ⟨?_, I.nodup.sublist ((aux_unlink_sub h k).map _), fun k' => ?_, ?_⟩
    · rw [hra, hr1]; show (h.refs : Int) = _; omega
    · rw [hrev, hb, aux_find_unlink (n := h.refs) I.nodup]
      split
      · rfl
      · exact I.find k'
    · rw [hins, hi1, List.append_nil, aux_dest_append, aux_rel_append]
      refine I.parts.trans ?_
      refine (List.Perm.append_left _ (aux_split h k)).trans ?_
      refine (List.Perm.append_left _ (hev.symm.append_right _)).trans ?_
      generalize destroyedIn es = a, releasedIn es = b, destroyedIn evs = c, releasedIn evs = d
      simp only [List.append_assoc]
      refine List.Perm.append_left a ?_
      simp only [← List.append_assoc]
      refine List.Perm.append_right _ (List.Perm.append_right _ ?_)
      exact List.perm_append_comm
  -- a call that changes nothing
  have same : ∀ (evs : List (HashEvent κ ν)) (n : Nat), destroyedIn evs = [] → releasedIn evs = [] →
      (n : Int) = refsAfter (ops ++ [op]) → inserted [op] = [] →
      (∀ k', binding k' (op :: ops.reverse) = binding k' ops.reverse) →
      aux_HashInv (ops ++ [op]) (es ++ evs) { h with refs := n } := by
    intro evs n hd hrl hr1 hi1 hb
    refine ⟨hr1, I.nodup, fun k' => ?_, ?_⟩
    · rw [hrev, hb]; exact I.find k'
    · rw [hins, hi1, List.append_nil, aux_dest_append, aux_rel_append, hd, hrl, List.append_nil, List.append_nil]
      exact I.parts
  simp only [HashTable.step, if_neg hne]
  cases op with
  | insert k v =>
    refine ⟨?_, ?_, fun k' => ?_, ?_⟩
    · rw [hra]; show (h.refs : Int) = _; simp only [refsAfter]; omega
    · rw [List.map_cons, List.nodup_cons]
      exact ⟨aux_unlink_notin I.nodup k, I.nodup.sublist ((aux_unlink_sub h k).map _)⟩
    · rw [hrev]
      simp only [binding, HashTable.find]
      by_cases hkk : k' = k
      · subst hkk
        rw [List.find?_cons_of_pos (by simp), if_pos rfl]
        rfl
      · rw [List.find?_cons_of_neg (by simpa using fun h => hkk h.symm), if_neg hkk]
        have := aux_find_unlink (n := h.refs) I.nodup k k'
        rw [if_neg hkk] at this
        simp only [HashTable.find, HashTable.unlink] at this ⊢
        rw [this]
        exact I.find k'
    · rw [hins, aux_dest_append, aux_rel_append, (aux_dest _).1, (aux_dest _).2, List.append_nil]
      show (inserted ops ++ [(⟨k, v⟩ : Entry κ ν)]).Perm
        (destroyedIn es ++ (h.find k).toList ++ releasedIn es ++ (⟨k, v⟩ : Entry κ ν) :: (h.unlink k).table)
      refine (I.parts.append_right _).trans ?_
      refine ((List.Perm.append_left _ (aux_split h k)).append_right _).trans ?_
      generalize destroyedIn es = a, releasedIn es = b, (h.find k).toList = c, (h.unlink k).table = d
      simp only [List.append_assoc]
      refine List.Perm.append_left a ?_
      refine List.Perm.trans ?_ (List.perm_append_comm_assoc b c _)
      refine List.Perm.append_left b (List.Perm.append_left c ?_)
      exact List.perm_append_comm
  | remove k =>
    refine away k _ ?_ rfl rfl (fun k' => rfl)
    rw [aux_dest_append, aux_rel_append, (aux_dest _).1, (aux_dest _).2]
    simp [destroyedIn, releasedIn]
  | delete k =>
    refine away k _ ?_ rfl rfl (fun k' => rfl)
    rw [aux_dest_append, aux_rel_append, (aux_rel _).1, (aux_rel _).2]
    simp [destroyedIn, releasedIn]
  | lookupAndClear k =>
    refine away k _ ?_ rfl rfl (fun k' => rfl)
    rw [aux_dest_append, aux_rel_append, (aux_rel _).1, (aux_rel _).2]
    simp [destroyedIn, releasedIn]
  | lookup k => exact same _ h.refs rfl rfl (by rw [hra]; simp only [refsAfter]; omega) rfl (fun _ => rfl)
  | exist k => exact same _ h.refs rfl rfl (by rw [hra]; simp only [refsAfter]; omega) rfl (fun _ => rfl)
  | size => exact same _ h.refs rfl rfl (by rw [hra]; simp only [refsAfter]; omega) rfl (fun _ => rfl)
  | ref => exact same _ (h.refs + 1) rfl rfl (by rw [hra]; simp only [refsAfter]; omega) rfl (fun _ => rfl)
  | unref =>
    have h2 : refsAfter (ops ++ [HashOp.unref (κ := κ) (ν := ν)]) = refsAfter ops - 1 := by
      rw [hra]; simp only [refsAfter]; omega
    have hn1 : h.refs ≠ 1 := by intro h1; omega
    simp only [if_neg hn1]
    exact same _ (h.refs - 1) rfl rfl (by omega) rfl (fun _ => rfl)
  | clear =>
    refine ⟨?_, List.nodup_nil, fun k' => ?_, ?_⟩
    · rw [hra]; show (h.refs : Int) = _; simp only [refsAfter]; omega
    · rw [hrev]; rfl
    · rw [hins, aux_dest_append, aux_rel_append, (aux_dest _).1, (aux_dest _).2]
      simp only [inserted, List.filterMap_cons, List.filterMap_nil, List.append_nil]
      refine I.parts.trans ?_
      rw [List.append_assoc, List.append_assoc]
      exact List.Perm.append_left _ List.perm_append_comm

theorem aux_hruns (post : List (HashOp κ ν)) : ∀ (pre : List (HashOp κ ν)) es h, Held (pre ++ post) →
    aux_HashInv pre es h → aux_HashInv (pre ++ post) (es ++ (h.run post).1) (h.run post).2 := by
  induction post with
  | nil => intro pre es h _ I; simpa [HashTable.run] using I
  | cons op post ih =>
    intro pre es h hh I
    have hh' : Held (pre ++ [op] ++ post) := by simpa using hh
    have := ih _ _ _ hh' (aux_hstep I op (hh pre (op :: post) rfl) (hh (pre ++ [op]) post (by simp)))
    simpa [HashTable.run] using this

theorem aux_hrun (ops : List (HashOp κ ν)) (hh : Held ops) :
    aux_HashInv ops (HashTable.new.run ops).1 (HashTable.new.run ops).2 := by
  have := aux_hruns ops [] [] HashTable.new hh
    ⟨rfl, List.nodup_nil, fun _ => rfl, by simp [inserted, destroyedIn, releasedIn, HashTable.new]⟩
  simpa using this

/-- C34. After any history, a lookup returns the value of the last insert or replace of the key, unless the
key was removed or the table cleared later; `exists` agrees. -/
theorem C34_lookup (ops : List (HashOp κ ν)) (hh : Held ops) (k : κ) :
    ((HashTable.new.run ops).2.step (.lookup k)).1 = [.found (binding k ops.reverse)] ∧
    ((HashTable.new.run ops).2.step (.exist k)).1 = [.answer (binding k ops.reverse).isSome] ∧
    ((HashTable.new.run ops).2.step (.lookupAndClear k)).1.getLast? = some (.found (binding k ops.reverse)) := by
  have I := aux_hrun ops hh
  have hr := I.refs
  have hp : 0 < refsAfter ops := hh ops [] (by simp)
  have hne : (HashTable.new.run ops).2.refs ≠ 0 := by omega
  simp only [HashTable.step, if_neg hne, I.find k]
  refine ⟨trivial, ?_, by simp⟩
  have := congrArg Option.isSome (I.find k)
  rw [Option.isSome_map] at this
  rw [this]

/-- C34. The size is the number of keys that have a value. -/
theorem C34_size (ops : List (HashOp κ ν)) (hh : Held ops) :
    ∃ keys : List κ, keys.Nodup ∧ (∀ k, k ∈ keys ↔ (binding k ops.reverse).isSome) ∧
      ((HashTable.new.run ops).2.step .size).1 = [.count keys.length] := by
  have I := aux_hrun ops hh
  have hr := I.refs
  have hp : 0 < refsAfter ops := hh ops [] (by simp)
  have hne : (HashTable.new.run ops).2.refs ≠ 0 := by omega
  refine ⟨(HashTable.new.run ops).2.table.map (·.key), I.nodup, fun k => ?_, ?_⟩
  · rw [← I.find k, Option.isSome_map, HashTable.find, List.find?_isSome]
    simp only [List.mem_map, decide_eq_true_eq]
  · simp only [HashTable.step, if_neg hne, List.length_map]

/-- C34. At any point, the entries inserted are those whose destroy handlers have run, those given back to
the caller by a delete or a lookup-and-clear, and those still found inside, each counted once. -/
theorem C34_destroy_once (ops : List (HashOp κ ν)) (hh : Held ops) :
    ∃ inside : List (Entry κ ν), (inside.map (·.key)).Nodup ∧
      (∀ k v, ⟨k, v⟩ ∈ inside ↔ binding k ops.reverse = some v) ∧
      (inserted ops).Perm
        (destroyedIn (HashTable.new.run ops).1 ++ releasedIn (HashTable.new.run ops).1 ++ inside) := by
  have I := aux_hrun ops hh
  refine ⟨(HashTable.new.run ops).2.table, I.nodup, fun k v => ?_, I.parts⟩
  rw [← I.find k]
  have hn := I.nodup
  generalize (HashTable.new.run ops).2 = h at hn
  obtain ⟨t, n⟩ := h
  simp only [HashTable.find] at hn ⊢
  constructor
  · intro hm
    cases hf : t.find? (fun e => decide (e.key = k)) with
    | none => exact absurd (List.find?_eq_none.mp hf _ hm) (by simp)
    | some e =>
      have h1 := List.mem_of_find?_eq_some hf
      have h2 : e.key = k := by simpa using List.find?_some hf
      suffices he : e = ⟨k, v⟩ by rw [he]; rfl
      clear I hf
      induction t with
      | nil => simp at hm
      | cons x t ih =>
        rw [List.map_cons, List.nodup_cons] at hn
        rcases List.mem_cons.mp hm with hx | hx
        · rcases List.mem_cons.mp h1 with hy | hy
          · rw [hy, hx]
          · exact absurd (List.mem_map.mpr ⟨e, hy, by rw [h2, ← hx]⟩) hn.1
        · rcases List.mem_cons.mp h1 with hy | hy
          · exact absurd (List.mem_map.mpr ⟨⟨k, v⟩, hx, by rw [← hy, h2]⟩) hn.1
          · exact ih hn.2 hx hy
  · intro hm
    cases hf : t.find? (fun e => decide (e.key = k)) with
    | none => rw [hf] at hm; exact absurd hm (by simp)
    | some e =>
      rw [hf] at hm
      have h1 := List.mem_of_find?_eq_some hf
      have h2 : e.key = k := by simpa using List.find?_some hf
      have h3 : e.value = v := by simpa using hm
      have : e = ⟨k, v⟩ := by cases e; simp_all
      rw [← this]; exact h1

/-- C34. Dropping the last reference runs the handlers of everything inside: in the end every entry ever
inserted has been destroyed or given back to the caller, once. -/
theorem C34_last_reference (ops : List (HashOp κ ν)) (hh : Held ops) (h1 : refsAfter ops = 1) :
    (inserted ops).Perm (destroyedIn (HashTable.new.run (ops ++ [.unref])).1 ++
      releasedIn (HashTable.new.run (ops ++ [.unref])).1) := by
  have I := aux_hrun ops hh
  have hr := I.refs
  have hr1 : (HashTable.new.run ops).2.refs = 1 := by omega
  have hev : ((HashTable.new.run ops).2.run [.unref]).1 = (HashTable.new.run ops).2.table.map .destroyed := by
    simp [HashTable.run, HashTable.step, hr1]
  rw [aux_run_append, hev]
  simp only [aux_dest_append, aux_rel_append, (aux_dest _).1, (aux_dest _).2, List.append_nil]
  refine I.parts.trans ?_
  rw [List.append_assoc, List.append_assoc]
  exact List.Perm.append_left _ List.perm_append_comm

end Hash

theorem aux_held_iff {κ ν : Type} (ops : List (HashOp κ ν))
    (h : ∀ n ∈ List.range (ops.length + 1), 0 < refsAfter (ops.take n)) : Held ops := by
  intro pre post e
  have := h pre.length (by rw [e]; simp; omega)
  rwa [e, List.take_left'] at this
  rfl

example : Held (κ := Nat) (ν := String) [.insert 1 "a", .ref, .insert 1 "b", .insert 2 "c", .remove 2, .unref, .delete 1] :=
  aux_held_iff _ (by decide +kernel)
example : (HashTable.new.run (κ := Nat) (ν := String)
    [.insert 1 "a", .insert 1 "b", .insert 2 "c", .remove 2, .lookup 1, .size, .unref]).1 =
    [.destroyed ⟨1, "a"⟩, .destroyed ⟨2, "c"⟩, .answer true, .found (some "b"), .count 1, .destroyed ⟨1, "b"⟩] := by
  decide +kernel

end Verif.Props
