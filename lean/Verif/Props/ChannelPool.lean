import Verif.Spec.ChannelPool
/-!
# C38 — exclusive use of pooled channels
-/
namespace Verif.Props
open Verif.Model Verif.Spec

/-- **C38** (full statement, violated): a channel somebody holds is not given to anybody. -/
def C38_statement : Prop :=
  ∀ (ops : List ChPoolOp) (op : ChPoolOp) (c : Nat), .given c ∈ ((ChPool.init.run ops).2.step op).1 →
    isHeld c (ChPool.init.run ops).1 false = false

/-- Two threads look for a channel before the first one marks it as busy, and both get it. -/
theorem C38_given_twice :
    (ChPool.init.run [.add, .get false, .get false, .advance 0 true, .advance 0 true]).1 = [.given 0, .given 0] := by
  decide +kernel

/-- A channel made for one thread is found, before it is marked as busy, by another. -/
theorem C38_new_channel_given_twice :
    (ChPool.init.run [.get true, .advance 0 true, .get false, .advance 0 true, .advance 0 true]).1 =
    [.given 0, .given 0] := by decide +kernel

theorem C38_statement_false : ¬ C38_statement := by
  intro h
  have := h [.add, .get false, .get false, .advance 0 true] (.advance 0 true) 0 (by decide +kernel)
  revert this
  decide +kernel

theorem aux_cp_held_append (c : Nat) (a b : List ChPoolEvent) : ∀ x, isHeld c (a ++ b) x = isHeld c b (isHeld c a x) := by
  induction a with
  | nil => intro x; rfl
  | cons e a ih => intro x; cases e <;> simp [isHeld, ih]

structure aux_cp_Inv (log : List ChPoolEvent) (p : ChPool) : Prop where
  held : ∀ c, isHeld c log false = true → p.busy c = true
  one : p.gets.length ≤ 1
  found : ∀ c, .found c ∈ p.gets → p.busy c = false
  new : ∀ c, p.created ≤ c → p.busy c = false
  lt : ∀ c ∈ p.channels, c < p.created
  foundLt : ∀ c, .found c ∈ p.gets → c < p.created

theorem aux_cp_removeReady (p : ChPool) (l : List Nat) : ∀ n c, c ∈ (p.removeReady n l).1 → c ∈ l := by
  induction l with
  | nil => intro n c h; cases n <;> simp [ChPool.removeReady] at h
  | cons a l ih =>
    intro n c h
    cases n with
    | zero => exact h
    | succ n =>
      simp only [ChPool.removeReady] at h
      split at h
      · exact List.mem_cons_of_mem _ (ih n c h)
      · simp only [List.mem_cons] at h
        rcases h with rfl | h
        · exact List.mem_cons_self
        · exact List.mem_cons_of_mem _ (ih (n + 1) c h)

theorem aux_cp_dropped (c : Nat) (l : List Nat) (x : Bool) : isHeld c (l.map .dropped) x = x := by
  induction l with
  | nil => rfl
  | cons a l ih => simp [isHeld, ih]

theorem aux_cp_single {l : List ChPoolGet} {i : Nat} {g : ChPoolGet} (h1 : l.length ≤ 1) (h : l[i]? = some g) :
    l = [g] ∧ i = 0 := by
  cases l with
  | nil => simp at h
  | cons a l =>
    cases l with
    | cons b l => simp at h1
    | nil =>
      cases i with
      | zero => simp at h; exact ⟨by rw [h], rfl⟩
      | succ i => simp at h

theorem aux_cp_step {log : List ChPoolEvent} {p : ChPool} (h : aux_cp_Inv log p) (op : ChPoolOp)
    (ho : OneAtATime p [op]) : aux_cp_Inv (log ++ (p.step op).1) (p.step op).2 := by
  have ho := ho.1
  cases op with
  | add =>
    refine ⟨by simpa [ChPool.step, ChPool.addChannel] using h.held, h.one, h.found, fun c hc => h.new c (Nat.le_of_succ_le hc), ?_,
      fun c hc => Nat.lt_succ_of_lt (h.foundLt c hc)⟩
    intro c hc
    simp only [ChPool.step, ChPool.addChannel, List.mem_append, List.mem_singleton] at hc
    rcases hc with hc | rfl
    · exact Nat.lt_succ_of_lt (h.lt c hc)
    · exact Nat.lt_succ_self _
  | make =>
    exact ⟨by simpa [ChPool.step, ChPool.addChannel] using h.held, h.one, h.found, fun c hc => h.new c (Nat.le_of_succ_le hc),
      fun c hc => Nat.lt_succ_of_lt (h.lt c hc), fun c hc => Nat.lt_succ_of_lt (h.foundLt c hc)⟩
  | get autoInc =>
    simp only at ho
    simp only [ChPool.step, ho]
    split
    · rename_i c hf
      have h1 := List.find?_some hf
      have h2 := List.mem_of_find?_eq_some hf
      simp only [ChPool.ready, Bool.and_eq_true, Bool.not_eq_true'] at h1
      refine ⟨by simpa [ChPool.step, ChPool.addChannel] using h.held, by simp, ?_, h.new, h.lt, ?_⟩
      · intro d hd
        simp at hd
        rw [hd]; exact h1.2
      · intro d hd
        simp at hd
        rw [hd]; exact h.lt c h2
    · exact ⟨by simpa [ChPool.step, ChPool.addChannel] using h.held, by simp, by simp, h.new, h.lt, by simp⟩
  | advance i ok =>
    simp only [ChPool.step]
    split
    · simpa using h
    · rename_i autoInc hi
      obtain ⟨hg, rfl⟩ := aux_cp_single h.one hi
      split
      · refine ⟨by simpa [ChPool.step, ChPool.addChannel] using h.held, by simp [hg], ?_, ?_, ?_, ?_⟩
        · intro d hd
          simp [hg] at hd
          rw [hd]; exact h.new _ (Nat.le_refl _)
        · intro d hd; exact h.new d (Nat.le_of_succ_le hd)
        · intro c hc
          simp only [ChPool.addChannel, List.mem_append, List.mem_singleton] at hc
          rcases hc with hc | rfl
          · exact Nat.lt_succ_of_lt (h.lt c hc)
          · exact Nat.lt_succ_self _
        · intro d hd
          simp [hg] at hd
          rw [hd]; exact Nat.lt_succ_self _
      · refine ⟨?_, by simp [hg], by simp [hg], h.new, h.lt, by simp [hg]⟩
        intro c hc
        rw [aux_cp_held_append] at hc
        exact h.held c hc
    · rename_i c hi
      obtain ⟨hg, rfl⟩ := aux_cp_single h.one hi
      have hc := h.foundLt c (by rw [hg]; simp)
      refine ⟨?_, by simp [hg], by simp [hg], ?_, h.lt, by simp [hg]⟩
      · intro d hd
        rw [aux_cp_held_append] at hd
        simp only [putAt]
        split
        · rfl
        · rename_i hne
          simp only [isHeld] at hd
          rw [if_neg (fun he => hne he.symm)] at hd
          exact h.held d hd
      · intro d hd
        simp only [putAt]
        split
        · rename_i he; subst he; exact absurd hc (Nat.not_lt.mpr hd)
        · exact h.new d hd
  | release c =>
    simp only [ChPool.step]
    split
    · refine ⟨?_, h.one, ?_, ?_, h.lt, h.foundLt⟩
      · intro d hd
        rw [aux_cp_held_append] at hd
        simp only [isHeld] at hd
        split at hd
        · simp at hd
        · rename_i hne
          simp only [putAt]
          rw [if_neg (fun he => hne he.symm)]
          exact h.held d hd
      · intro d hd
        simp only [putAt]
        split
        · rfl
        · exact h.found d hd
      · intro d hd
        simp only [putAt]
        split
        · rfl
        · exact h.new d hd
    · refine ⟨?_, h.one, h.found, h.new, h.lt, h.foundLt⟩
      intro d hd
      rw [aux_cp_held_append] at hd
      simp only [isHeld] at hd
      split at hd
      · simp at hd
      · exact h.held d hd
  | remove n =>
    refine ⟨?_, h.one, h.found, h.new, fun c hc => h.lt c (aux_cp_removeReady p _ n c hc), h.foundLt⟩
    intro c hc
    rw [aux_cp_held_append] at hc
    exact h.held c (by simpa [ChPool.step, aux_cp_dropped] using hc)
  | attach c =>
    simp only [ChPool.step]
    split
    · simpa using h
    · rename_i hn
      refine ⟨by simpa [ChPool.step, ChPool.addChannel] using h.held, h.one, h.found, h.new, ?_, h.foundLt⟩
      intro d hd
      simp only [List.mem_append, List.mem_singleton] at hd
      rcases hd with hd | rfl
      · exact h.lt d hd
      · simp at hn; exact hn.2
  | deattach c =>
    exact ⟨by simpa [ChPool.step, ChPool.addChannel] using h.held, h.one, h.found, h.new, fun d hd => h.lt d (List.mem_of_mem_erase hd), h.foundLt⟩
  | setIdle c b =>
    exact ⟨by simpa [ChPool.step, ChPool.addChannel] using h.held, h.one, h.found, h.new, h.lt, h.foundLt⟩

theorem aux_cp_run (ops : List ChPoolOp) : ∀ (log : List ChPoolEvent) (p : ChPool), aux_cp_Inv log p → OneAtATime p ops →
    aux_cp_Inv (log ++ (p.run ops).1) (p.run ops).2 := by
  induction ops with
  | nil => intro log p h _; simpa [ChPool.run] using h
  | cons op ops ih =>
    intro log p h ho
    simp only [ChPool.run]
    rw [← List.append_assoc]
    exact ih _ _ (aux_cp_step h op ⟨ho.1, trivial⟩) ho.2

theorem aux_cp_init : aux_cp_Inv [] ChPool.init := by
  constructor <;> simp [ChPool.init, isHeld]

/-- **C38 (partial)**: if the threads ask for channels one at a time, a channel that is given is held by nobody,
whatever happens meanwhile: releases, channels added, removed, attached and deattached, and in use.
Missing: threads that ask for a channel at the same time (`C38_given_twice`). -/
theorem C38_exclusive_partial (ops : List ChPoolOp) (ho : OneAtATime ChPool.init ops) (op : ChPoolOp) (c : Nat)
    (hg : .given c ∈ ((ChPool.init.run ops).2.step op).1) : isHeld c (ChPool.init.run ops).1 false = false := by
  have h := aux_cp_run ops [] ChPool.init aux_cp_init ho
  simp only [List.nil_append] at h
  generalize (ChPool.init.run ops).1 = log at *
  generalize (ChPool.init.run ops).2 = p at *
  have key : .found c ∈ p.gets := by
    cases op with
    | advance i ok =>
      simp only [ChPool.step] at hg
      split at hg
      · simp at hg
      · split at hg <;> simp at hg
      · rename_i d hi
        simp only [List.mem_singleton, ChPoolEvent.given.injEq] at hg
        subst hg
        exact List.mem_of_getElem? hi
    | get a => simp only [ChPool.step] at hg; split at hg <;> simp at hg
    | remove n => simp [ChPool.step] at hg
    | _ => simp [ChPool.step] at hg
  cases hh : isHeld c log false with
  | false => rfl
  | true =>
    have h1 := h.held c hh
    rw [h.found c key] at h1
    simp at h1

def aux_cp_oneAtATime (p : ChPool) : List ChPoolOp → Bool
  | [] => true
  | op :: ops =>
    (match op with
      | .get _ => p.gets.isEmpty
      | _ => true) && aux_cp_oneAtATime (p.step op).2 ops

theorem aux_cp_oneAtATime_spec (ops : List ChPoolOp) : ∀ p, aux_cp_oneAtATime p ops = true → OneAtATime p ops := by
  induction ops with
  | nil => intro p _; trivial
  | cons op ops ih =>
    intro p h
    simp only [aux_cp_oneAtATime, Bool.and_eq_true] at h
    refine ⟨?_, ih _ h.2⟩
    cases op <;> first | trivial | simpa using h.1

/-- Two channels held by two users; the first is released and given again. -/
example :
    let ops : List ChPoolOp := [.add, .get false, .advance 0 true, .get true, .advance 0 true, .advance 0 true,
      .release 0, .get false]
    OneAtATime ChPool.init ops ∧ (ChPool.init.run ops).1 = [.given 0, .given 1, .released 0] ∧
    ((ChPool.init.run ops).2.step (.advance 0 true)).1 = [.given 0] :=
  ⟨aux_cp_oneAtATime_spec _ _ (by decide +kernel), by decide +kernel, by decide +kernel⟩

/-- **C38** (availability): in any state, a thread that asks for a channel of a pool in which some channel is in
use by nobody gets one, and one that is not marked as busy, as soon as it goes on. -/
theorem C38_found_if_free (ops : List ChPoolOp) (autoInc ok : Bool) (c : Nat)
    (hc : c ∈ (ChPool.init.run ops).2.channels) (hi : (ChPool.init.run ops).2.idle c = true)
    (hb : (ChPool.init.run ops).2.busy c = false) :
    let p := (ChPool.init.run ops).2
    ∃ d ∈ p.channels, p.idle d = true ∧ p.busy d = false ∧
      ((p.step (.get autoInc)).2.step (.advance p.gets.length ok)).1 = [.given d] := by
  intro p
  cases hf : p.channels.find? p.ready with
  | none =>
    have := List.find?_eq_none.mp hf c hc
    have hi : p.idle c = true := hi
    have hb : p.busy c = false := hb
    simp [ChPool.ready, hi, hb] at this
  | some d =>
    have h1 := List.find?_some hf
    have h2 := List.mem_of_find?_eq_some hf
    simp only [ChPool.ready, Bool.and_eq_true, Bool.not_eq_true'] at h1
    refine ⟨d, h2, h1.1, h1.2, ?_⟩
    simp [ChPool.step, hf]

example : let p := (ChPool.init.run [.add, .add, .get false, .advance 0 true, .get false]).2
    1 ∈ p.channels ∧ p.idle 1 = true ∧ p.busy 1 = false ∧ p.gets.length = 1 := by decide +kernel

/-- **C38 (fault)**: a channel that a thread has found, but not yet marked as busy, is closed by
`vortex_channel_pool_remove`, and given. -/
theorem C38_closed_is_given :
    (ChPool.init.run [.add, .get false, .remove 1, .advance 0 true]).1 = [.dropped 0, .given 0] := by decide +kernel

theorem aux_cp_removed (p : ChPool) (l : List Nat) (hl : l.Nodup) : ∀ n c, c ∈ (p.removeReady n l).1 →
    c ∉ (p.removeReady n l).2 := by
  induction l with
  | nil => intro n c h; cases n <;> simp [ChPool.removeReady] at h
  | cons a l ih =>
    intro n c h
    have hl := List.nodup_cons.mp hl
    cases n with
    | zero => simp [ChPool.removeReady]
    | succ n =>
      simp only [ChPool.removeReady] at h ⊢
      split at h
      · rename_i hr
        simp only [hr, if_true, List.mem_cons, not_or]
        exact ⟨fun he => hl.1 (he ▸ aux_cp_removeReady p l n c h), ih hl.2 n c h⟩
      · rename_i hr
        simp only [hr]
        simp only [List.mem_cons] at h
        rcases h with rfl | h
        · intro hm
          have : ∀ (l : List Nat) n, ∀ x ∈ (p.removeReady n l).2, x ∈ l := by
            intro l
            induction l with
            | nil => intro n x hx; cases n <;> simp [ChPool.removeReady] at hx
            | cons b l ih2 =>
              intro n x hx
              cases n with
              | zero => simp [ChPool.removeReady] at hx
              | succ n =>
                simp only [ChPool.removeReady] at hx
                split at hx
                · simp only [List.mem_cons] at hx
                  rcases hx with rfl | hx
                  · exact List.mem_cons_self
                  · exact List.mem_cons_of_mem _ (ih2 n x hx)
                · exact List.mem_cons_of_mem _ (ih2 (n + 1) x hx)
          exact hl.1 (this l (n + 1) c hm)
        · exact ih hl.2 (n + 1) c h

structure aux_cp_Open (log : List ChPoolEvent) (p : ChPool) : Prop where
  nodup : p.channels.Nodup
  lt : ∀ c ∈ p.channels, c < p.created
  dropped : ∀ c, .dropped c ∈ log → c ∈ p.closed
  closedLt : ∀ c ∈ p.closed, c < p.created
  disj : ∀ c ∈ p.channels, c ∉ p.closed
  found : ∀ c, .found c ∈ p.gets → c ∉ p.closed ∧ c < p.created

theorem aux_cp_removeReady_sub (p : ChPool) (l : List Nat) : ∀ n, (p.removeReady n l).1.Sublist l := by
  induction l with
  | nil => intro n; cases n <;> simp [ChPool.removeReady]
  | cons a l ih =>
    intro n
    cases n with
    | zero => simp [ChPool.removeReady]
    | succ n =>
      simp only [ChPool.removeReady]
      split
      · exact (ih n).cons _
      · exact (ih (n + 1)).cons_cons _

theorem aux_cp_removeReady_sub2 (p : ChPool) (l : List Nat) : ∀ n, (p.removeReady n l).2.Sublist l := by
  induction l with
  | nil => intro n; cases n <;> simp [ChPool.removeReady]
  | cons a l ih =>
    intro n
    cases n with
    | zero => simp [ChPool.removeReady]
    | succ n =>
      simp only [ChPool.removeReady]
      split
      · exact (ih n).cons_cons _
      · exact (ih (n + 1)).cons _

theorem aux_cp_open_step {log : List ChPoolEvent} {p : ChPool} (h : aux_cp_Open log p) (op : ChPoolOp)
    (ho : NoRemoval p [op]) : aux_cp_Open (log ++ (p.step op).1) (p.step op).2 := by
  have ho := ho.1
  have hnew : ∀ c ∈ p.closed, c ≠ p.created := fun c hc he => by
    subst he
    exact Nat.lt_irrefl _ (h.closedLt _ hc)
  have hadd : ∀ {l : List Nat}, l.Nodup → (∀ c ∈ l, c < p.created) → (l ++ [p.created]).Nodup := by
    intro l h1 h2
    refine List.nodup_append.mpr ⟨h1, by simp, ?_⟩
    intro a ha b hb
    simp only [List.mem_singleton] at hb
    subst hb
    exact Nat.ne_of_lt (h2 a ha)
  have hch : ∀ c ∈ p.channels ++ [p.created], c < p.created + 1 ∧ c ∉ p.closed := by
    intro c hc
    simp only [List.mem_append, List.mem_singleton] at hc
    rcases hc with hc | rfl
    · exact ⟨Nat.lt_succ_of_lt (h.lt c hc), h.disj c hc⟩
    · exact ⟨Nat.lt_succ_self _, fun hm => hnew _ hm rfl⟩
  cases op with
  | add =>
    exact ⟨hadd h.nodup h.lt, fun c hc => (hch c hc).1, by simpa [ChPool.step, ChPool.addChannel] using h.dropped,
      fun c hc => Nat.lt_succ_of_lt (h.closedLt c hc), fun c hc => (hch c hc).2,
      fun c hc => ⟨(h.found c hc).1, Nat.lt_succ_of_lt (h.found c hc).2⟩⟩
  | make =>
    exact ⟨h.nodup, fun c hc => Nat.lt_succ_of_lt (h.lt c hc), by simpa [ChPool.step, ChPool.addChannel] using h.dropped,
      fun c hc => Nat.lt_succ_of_lt (h.closedLt c hc), h.disj,
      fun c hc => ⟨(h.found c hc).1, Nat.lt_succ_of_lt (h.found c hc).2⟩⟩
  | get autoInc =>
    simp only [ChPool.step]
    split
    · rename_i c hf
      have h2 := List.mem_of_find?_eq_some hf
      refine ⟨h.nodup, h.lt, by simpa [ChPool.step, ChPool.addChannel] using h.dropped, h.closedLt, h.disj, ?_⟩
      intro d hd
      simp only [List.mem_append, List.mem_singleton, ChPoolGet.found.injEq] at hd
      rcases hd with hd | rfl
      · exact h.found d hd
      · exact ⟨h.disj d h2, h.lt d h2⟩
    · refine ⟨h.nodup, h.lt, by simpa [ChPool.step, ChPool.addChannel] using h.dropped, h.closedLt, h.disj, ?_⟩
      intro d hd
      simp only [List.mem_append, List.mem_singleton] at hd
      rcases hd with hd | hd
      · exact h.found d hd
      · simp at hd
  | advance i ok =>
    simp only [ChPool.step]
    split
    · simpa using h
    · split
      · refine ⟨hadd h.nodup h.lt, fun c hc => (hch c hc).1, by simpa [ChPool.step, ChPool.addChannel] using h.dropped,
          fun c hc => Nat.lt_succ_of_lt (h.closedLt c hc), fun c hc => (hch c hc).2, ?_⟩
        intro d hd
        rcases List.mem_or_eq_of_mem_set hd with hd | hd
        · exact ⟨(h.found d hd).1, Nat.lt_succ_of_lt (h.found d hd).2⟩
        · simp only [ChPoolGet.found.injEq] at hd
          subst hd
          exact ⟨fun hm => hnew _ hm rfl, Nat.lt_succ_self _⟩
      · exact ⟨h.nodup, h.lt, by simpa [ChPool.step, ChPool.addChannel] using h.dropped, h.closedLt, h.disj,
          fun d hd => h.found d (List.mem_of_mem_eraseIdx hd)⟩
    · exact ⟨h.nodup, h.lt, by simpa [ChPool.step, ChPool.addChannel] using h.dropped, h.closedLt, h.disj,
          fun d hd => h.found d (List.mem_of_mem_eraseIdx hd)⟩
  | release c =>
    simp only [ChPool.step]
    split <;> exact ⟨h.nodup, h.lt, by simpa [ChPool.step, ChPool.addChannel] using h.dropped, h.closedLt, h.disj, h.found⟩
  | remove n =>
    simp only at ho
    have s1 := aux_cp_removeReady_sub p p.channels n
    have s2 := aux_cp_removeReady_sub2 p p.channels n
    refine ⟨h.nodup.sublist s1, fun c hc => h.lt c (s1.subset hc), ?_, ?_, ?_, ?_⟩
    · intro c hc
      simp only [ChPool.step, List.mem_append, List.mem_map, ChPoolEvent.dropped.injEq] at hc ⊢
      rcases hc with hc | ⟨d, hd, rfl⟩
      · exact .inl (h.dropped c hc)
      · exact .inr hd
    · intro c hc
      simp only [ChPool.step, List.mem_append] at hc
      rcases hc with hc | hc
      · exact h.closedLt c hc
      · exact h.lt c (s2.subset hc)
    · intro c hc hm
      simp only [ChPool.step, List.mem_append] at hm
      rcases hm with hm | hm
      · exact h.disj c (s1.subset hc) hm
      · exact aux_cp_removed p _ h.nodup n c hc hm
    · intro c hc
      simp [ChPool.step, ho] at hc
  | attach c =>
    simp only at ho
    simp only [ChPool.step]
    split
    · simpa using h
    · rename_i hn
      simp at hn
      refine ⟨?_, ?_, by simpa [ChPool.step, ChPool.addChannel] using h.dropped, h.closedLt, ?_, h.found⟩
      · refine List.nodup_append.mpr ⟨h.nodup, by simp, ?_⟩
        intro a ha b hb
        simp only [List.mem_singleton] at hb
        subst hb
        rintro rfl
        exact hn.1 ha
      · intro d hd
        simp only [List.mem_append, List.mem_singleton] at hd
        rcases hd with hd | rfl
        · exact h.lt d hd
        · exact hn.2
      · intro d hd
        simp only [List.mem_append, List.mem_singleton] at hd
        rcases hd with hd | rfl
        · exact h.disj d hd
        · exact ho
  | deattach c =>
    have s1 : (p.channels.erase c).Sublist p.channels := List.erase_sublist
    exact ⟨h.nodup.sublist s1, fun d hd => h.lt d (s1.subset hd), by simpa [ChPool.step, ChPool.addChannel] using h.dropped, h.closedLt,
      fun d hd => h.disj d (s1.subset hd), h.found⟩
  | setIdle c b =>
    exact ⟨h.nodup, h.lt, by simpa [ChPool.step, ChPool.addChannel] using h.dropped, h.closedLt, h.disj, h.found⟩

theorem aux_cp_open_run (ops : List ChPoolOp) : ∀ (log : List ChPoolEvent) (p : ChPool), aux_cp_Open log p →
    NoRemoval p ops → aux_cp_Open (log ++ (p.run ops).1) (p.run ops).2 := by
  induction ops with
  | nil => intro log p h _; simpa [ChPool.run] using h
  | cons op ops ih =>
    intro log p h ho
    simp only [ChPool.run]
    rw [← List.append_assoc]
    exact ih _ _ (aux_cp_open_step h op ⟨ho.1, trivial⟩) ho.2

/-- **C38 (partial)** (not closed): if no channel is removed from the pool while a thread is getting one, and the
channels closed by the pool are not attached again, no channel is given that the pool has closed.
Missing: removals while a thread is getting a channel (`C38_closed_is_given`). -/
theorem C38_not_closed_partial (ops : List ChPoolOp) (ho : NoRemoval ChPool.init ops) (op : ChPoolOp) (c : Nat)
    (hg : .given c ∈ ((ChPool.init.run ops).2.step op).1) : .dropped c ∉ (ChPool.init.run ops).1 := by
  have h := aux_cp_open_run ops [] ChPool.init (by constructor <;> simp [ChPool.init]) ho
  simp only [List.nil_append] at h
  generalize (ChPool.init.run ops).1 = log at *
  generalize (ChPool.init.run ops).2 = p at *
  have key : .found c ∈ p.gets := by
    cases op with
    | advance i ok =>
      simp only [ChPool.step] at hg
      split at hg
      · simp at hg
      · split at hg <;> simp at hg
      · rename_i d hi
        simp only [List.mem_singleton, ChPoolEvent.given.injEq] at hg
        subst hg
        exact List.mem_of_getElem? hi
    | get a => simp only [ChPool.step] at hg; split at hg <;> simp at hg
    | remove n => simp [ChPool.step] at hg
    | _ => simp [ChPool.step] at hg
  exact fun hd => (h.found c key).1 (h.dropped c hd)

def aux_cp_noRemoval (p : ChPool) : List ChPoolOp → Bool
  | [] => true
  | op :: ops =>
    (match op with
      | .remove _ => p.gets.isEmpty
      | .attach c => !p.closed.contains c
      | _ => true) && aux_cp_noRemoval (p.step op).2 ops

theorem aux_cp_noRemoval_spec (ops : List ChPoolOp) : ∀ p, aux_cp_noRemoval p ops = true → NoRemoval p ops := by
  induction ops with
  | nil => intro p _; trivial
  | cons op ops ih =>
    intro p h
    simp only [aux_cp_noRemoval, Bool.and_eq_true] at h
    refine ⟨?_, ih _ h.2⟩
    cases op <;> first | trivial | simpa using h.1

/-- Three channels: one held, one removed, one given to two threads at once. -/
example :
    let ops : List ChPoolOp := [.add, .add, .add, .get false, .advance 0 true, .remove 1, .get false, .get false]
    NoRemoval ChPool.init ops ∧ (ChPool.init.run ops).1 = [.given 0, .dropped 1] ∧
    ((ChPool.init.run ops).2.step (.advance 0 true)).1 = [.given 2] :=
  ⟨aux_cp_noRemoval_spec _ _ (by decide +kernel), by decide +kernel, by decide +kernel⟩

/-- **C38 (fault)**: a channel that is deattached while somebody holds it stays marked as busy when it is
released, and is not given any more although it is attached again. -/
theorem C38_busy_for_ever :
    (ChPool.init.run [.add, .get false, .advance 0 true, .deattach 0, .release 0, .attach 0, .get false,
      .advance 0 true]).1 = [.given 0, .released 0, .nothing] := by decide +kernel

theorem aux_cp_busy_step {log : List ChPoolEvent} {p : ChPool} (h : ∀ c, isHeld c log false = true → p.busy c = true)
    (op : ChPoolOp) : ∀ c, isHeld c (log ++ (p.step op).1) false = true → (p.step op).2.busy c = true := by
  intro c hc
  rw [aux_cp_held_append] at hc
  cases op with
  | remove n => exact h c (by simpa [ChPool.step, aux_cp_dropped] using hc)
  | get autoInc =>
    simp only [ChPool.step] at hc ⊢
    split at hc <;> rename_i hf <;> simp only [hf] <;> exact h c hc
  | advance i ok =>
    simp only [ChPool.step] at hc ⊢
    split at hc
    · rename_i hi; exact h c hc
    · split at hc
      · rename_i hi ho; simpa [ho, ChPool.addChannel] using h c hc
      · rename_i hi ho; simpa [ho] using h c hc
    · rename_i d hi
      simp only [putAt]
      split
      · rfl
      · rename_i hne
        simp only [isHeld] at hc
        rw [if_neg (fun he => hne he.symm)] at hc
        exact h c hc
  | release d =>
    simp only [ChPool.step, isHeld] at hc ⊢
    split at hc
    · simp at hc
    · rename_i hne
      split
      · simp only [putAt]
        rw [if_neg (fun he => hne he.symm)]
        exact h c hc
      · exact h c hc
  | attach d =>
    simp only [ChPool.step] at hc ⊢
    split <;> exact h c hc
  | _ => exact h c hc

theorem aux_cp_busy_run (ops : List ChPoolOp) : ∀ (log : List ChPoolEvent) (p : ChPool),
    (∀ c, isHeld c log false = true → p.busy c = true) →
    ∀ c, isHeld c (log ++ (p.run ops).1) false = true → (p.run ops).2.busy c = true := by
  induction ops with
  | nil => intro log p h; simpa [ChPool.run] using h
  | cons op ops ih =>
    intro log p h
    simp only [ChPool.run]
    rw [← List.append_assoc]
    exact ih _ _ (aux_cp_busy_step h op)

theorem aux_cp_removeReady_ready (p : ChPool) (l : List Nat) : ∀ n, (p.removeReady n l).2.length ≤ n ∧
    ∀ c ∈ (p.removeReady n l).2, p.ready c = true := by
  induction l with
  | nil => intro n; cases n <;> simp [ChPool.removeReady]
  | cons a l ih =>
    intro n
    cases n with
    | zero => simp [ChPool.removeReady]
    | succ n =>
      simp only [ChPool.removeReady]
      split
      · rename_i hr
        refine ⟨by simpa using (ih n).1, ?_⟩
        intro c hc
        rcases List.mem_cons.mp hc with rfl | hc
        · exact hr
        · exact (ih n).2 c hc
      · exact ih (n + 1)

/-- **C38** (channels in use stay): with any number of threads and in any order, a channel somebody holds, or that
has a message in course, is not closed by the pool, which closes no more channels than it was asked to. -/
theorem C38_held_not_dropped (ops : List ChPoolOp) (op : ChPoolOp) :
    (∀ c, .dropped c ∈ ((ChPool.init.run ops).2.step op).1 →
      isHeld c (ChPool.init.run ops).1 false = false ∧ (ChPool.init.run ops).2.idle c = true) ∧
    ∀ n, op = .remove n → ((ChPool.init.run ops).2.step op).1.length ≤ n := by
  have h := aux_cp_busy_run ops [] ChPool.init (by simp [isHeld])
  simp only [List.nil_append] at h
  generalize (ChPool.init.run ops).1 = log at *
  generalize (ChPool.init.run ops).2 = p at *
  refine ⟨?_, ?_⟩
  · intro c hc
    have key : p.ready c = true := by
      cases op with
      | remove n =>
        simp only [ChPool.step, List.mem_map, ChPoolEvent.dropped.injEq] at hc
        obtain ⟨d, hd, rfl⟩ := hc
        exact (aux_cp_removeReady_ready p _ n).2 d hd
      | advance i ok =>
        simp only [ChPool.step] at hc
        split at hc
        · simp at hc
        · split at hc <;> simp at hc
        · simp at hc
      | get a => simp only [ChPool.step] at hc; split at hc <;> simp at hc
      | _ => simp [ChPool.step] at hc
    simp only [ChPool.ready, Bool.and_eq_true, Bool.not_eq_true'] at key
    refine ⟨?_, key.1⟩
    cases hh : isHeld c log false with
    | false => rfl
    | true => have h1 := h c hh; rw [key.2] at h1; simp at h1
  · rintro n rfl
    simpa [ChPool.step] using (aux_cp_removeReady_ready p p.channels n).1

/-- Three channels, the first held: two are to be removed, and they are the others. -/
example :
    let ops : List ChPoolOp := [.add, .add, .add, .get false, .advance 0 true]
    (ChPool.init.run ops).1 = [.given 0] ∧
    ((ChPool.init.run ops).2.step (.remove 2)).1 = [.dropped 1, .dropped 2] := by decide +kernel

end Verif.Props
