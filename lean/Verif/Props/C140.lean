import Verif.Spec.PyClose
/-!
# C140: close handlers of the Python bindings
-/
namespace Verif.Props
open Verif.Model Verif.Spec

theorem aux_py_snoc {α : Type} {p : List α → Prop} (h0 : p []) (hs : ∀ l a, p l → p (l ++ [a])) : ∀ l, p l := by
  intro l
  have : ∀ m : List α, p m.reverse := by
    intro m
    induction m with
    | nil => exact h0
    | cons a m ih => simpa using hs _ a ih
  simpa using this l.reverse

theorem aux_py_run (link : Nat → Nat) (ops : List PycOp) (op : PycOp) : pycRun link (ops ++ [op]) = pycStep link (pycRun link ops) op := by
  simp [pycRun]

theorem aux_py_sets (ops : List PycOp) (w fn data : Nat) : PycSets (ops ++ [.set w fn data]) = PycSets ops ++ [(w, fn, data)] := by
  simp [PycSets]

theorem aux_py_sets_lost (ops : List PycOp) (c : Nat) : PycSets (ops ++ [.lost c]) = PycSets ops := by simp [PycSets]
theorem aux_py_sets_close (ops : List PycOp) (c : Nat) : PycSets (ops ++ [.close c]) = PycSets ops := by simp [PycSets]
theorem aux_py_sets_remove (ops : List PycOp) (w k : Nat) : PycSets (ops ++ [.remove w k]) = PycSets ops := by simp [PycSets]

theorem aux_py_fell (link : Nat → Nat) (c : Nat) (ops : List PycOp) (op : PycOp) :
    PycFell link c (ops ++ [op]) ↔ PycFell link c ops ∨ op = .lost c ∨ ∃ w, op = .close w ∧ link w = c := by
  simp only [PycFell, List.mem_append, List.mem_singleton]
  constructor
  · rintro ((h | h) | ⟨w, (h | h), e⟩)
    · exact .inl (.inl h)
    · exact .inr (.inl h.symm)
    · exact .inl (.inr ⟨w, h, e⟩)
    · exact .inr (.inr ⟨w, h.symm, e⟩)
  · rintro ((h | ⟨w, h, e⟩) | h | ⟨w, h, e⟩)
    · exact .inl (.inl h)
    · exact .inr ⟨w, .inl h, e⟩
    · exact .inl (.inr h.symm)
    · exact .inr ⟨w, .inr h.symm, e⟩

theorem aux_py_inv {link : Nat → Nat} {k : Nat} {ops : List PycOp} {op : PycOp} {g : PycFate} (h : PycFateOf link k (ops ++ [op]) g) :
    ∃ f, PycFateOf link k ops f ∧ PycNext link k ops f op g := by
  generalize hl : ops ++ [op] = l at h
  cases h with
  | nil => simp at hl
  | snoc ops' op' f _ h1 h2 =>
    obtain ⟨rfl, hx⟩ := List.append_inj' hl rfl
    simp at hx; subst hx
    exact ⟨f, h1, h2⟩

theorem aux_py_nil {link : Nat → Nat} {k : Nat} {g : PycFate} (h : PycFateOf link k [] g) : g = .unset := by
  generalize hl : ([] : List PycOp) = l at h
  cases h with
  | nil => rfl
  | snoc => simp at hl

theorem aux_py_unset (link : Nat → Nat) (k : Nat) : ∀ (ops : List PycOp) (f : PycFate), PycFateOf link k ops f → (f = .unset ↔ (PycSets ops).length ≤ k) := by
  refine aux_py_snoc ?_ ?_
  · intro f h; rw [aux_py_nil h]; simp [PycSets]
  · intro ops op ih g h
    obtain ⟨f, hf, hn⟩ := aux_py_inv h
    have := ih f hf
    cases hn with
    | set w fn data hk => simp [aux_py_sets]; omega
    | late w fn data hk => simp [aux_py_sets]; omega
    | other _ w fn data hk => rw [this, aux_py_sets]; simp; omega
    | lost => rw [aux_py_sets_lost, ← this]; simp
    | close => rw [aux_py_sets_close, ← this]; simp
    | remove => rw [aux_py_sets_remove, ← this]; simp
    | lostElse => rw [aux_py_sets_lost]; exact this
    | closeElse => rw [aux_py_sets_close]; exact this
    | removeElse => rw [aux_py_sets_remove]; exact this

theorem aux_py_total (link : Nat → Nat) (k : Nat) : ∀ ops, ∃ f, PycFateOf link k ops f := by
  refine aux_py_snoc ⟨_, .nil⟩ ?_
  rintro ops op ⟨f, hf⟩
  have hu := aux_py_unset link k ops f hf
  suffices ∃ g, PycNext link k ops f op g from this.elim fun g hg => ⟨g, .snoc _ _ _ _ hf hg⟩
  cases op with
  | set w fn data =>
    by_cases hk : (PycSets ops).length = k
    · have : f = .unset := hu.2 (by omega)
      subst this
      by_cases hd : PycFell link (link w) ops
      · exact ⟨_, .late w fn data hk hd⟩
      · exact ⟨_, .set w fn data hk hd⟩
    · exact ⟨_, .other f w fn data hk⟩
  | remove w j =>
    by_cases h : j = k ∧ f = .pending (link w)
    · obtain ⟨rfl, rfl⟩ := h; exact ⟨_, .remove w⟩
    · exact ⟨_, .removeElse f w j (fun a b => h ⟨a, b⟩)⟩
  | lost c =>
    by_cases h : f = .pending c
    · subst h; exact ⟨_, .lost c⟩
    · exact ⟨_, .lostElse f c h⟩
  | close w =>
    by_cases h : f = .pending (link w)
    · subst h; exact ⟨_, .close w⟩
    · exact ⟨_, .closeElse f w h⟩

/-- What holds of one handler. -/
def aux_py_ok (link : Nat → Nat) (s : PycState) (k : Nat) : PycFate → Prop
  | .unset => s.objs.length ≤ k ∧ PycCallsOf s k = []
  | .pending c => ∃ o, s.objs[k]? = some o ∧ o.freed = false ∧ link o.w = c ∧ (c, k) ∈ s.regs ∧ c ∉ s.down ∧ s.handles[k]? = some (some k) ∧ PycCallsOf s k = []
  | .called => ∃ o, s.objs[k]? = some o ∧ o.freed = true ∧ s.handles[k]? = some (some k) ∧ PycCallsOf s k = [(o.w, o.fn, o.data)]
  | .removed => ∃ o, s.objs[k]? = some o ∧ o.freed = true ∧ s.handles[k]? = some none ∧ PycCallsOf s k = []
  | .late => ∃ o, s.objs[k]? = some o ∧ o.freed = false ∧ link o.w ∈ s.down ∧ s.handles[k]? = some (some k) ∧ PycCallsOf s k = []

/-- The invariant. -/
structure aux_py_I (link : Nat → Nat) (ops : List PycOp) (s : PycState) : Prop where
  bad : s.bad = false
  objs : s.objs.map (fun o => (o.w, o.fn, o.data)) = PycSets ops
  handles : s.handles.length = s.objs.length
  sorted : s.regs.Pairwise (fun a b => a.2 < b.2)
  regs : ∀ (c k : Nat), (c, k) ∈ s.regs → ∃ o, s.objs[k]? = some o ∧ o.freed = false ∧ link o.w = c
  down : ∀ c, c ∈ s.down ↔ PycFell link c ops
  closed : ∀ w, w ∈ s.closed → link w ∈ s.down
  order : s.calls.Pairwise (fun a b => link a.2.1 = link b.2.1 → a.1 < b.1)
  past : ∀ e ∈ s.calls, link e.2.1 ∈ s.down
  fate : ∀ (k : Nat) (f : PycFate), PycFateOf link k ops f → aux_py_ok link s k f

theorem aux_py_call (s : PycState) (k : Nat) (o : PycObj) (h : s.objs[k]? = some o) (hf : o.freed = false) :
    pycCall s k = { s with objs := s.objs.set k { o with freed := true }, calls := s.calls ++ [(k, o.w, o.fn, o.data)] } := by
  simp [pycCall, pycFree, h, hf]

theorem aux_py_fold (ks : List Nat) : ∀ (s : PycState), ks.Pairwise (· < ·) → (∀ k ∈ ks, ∃ o, s.objs[k]? = some o ∧ o.freed = false) →
    ∃ objs calls, ks.foldl pycCall s = { s with objs := objs, calls := s.calls ++ calls } ∧
      objs.map (fun o => (o.w, o.fn, o.data)) = s.objs.map (fun o => (o.w, o.fn, o.data)) ∧
      (∀ (i : Nat) o, s.objs[i]? = some o → objs[i]? = some { o with freed := o.freed || decide (i ∈ ks) }) ∧
      calls.map (·.1) = ks ∧ (∀ e ∈ calls, ∃ o, s.objs[e.1]? = some o ∧ e = (e.1, o.w, o.fn, o.data)) := by
  induction ks with
  | nil => intro s _ _; exact ⟨s.objs, [], by simp, rfl, by simp, rfl, by simp⟩
  | cons k ks ih =>
    intro s hp hk
    obtain ⟨o, ho, hf⟩ := hk k List.mem_cons_self
    obtain ⟨hlt, hp'⟩ := List.pairwise_cons.1 hp
    have hlen : k < s.objs.length := (List.getElem?_eq_some_iff.1 ho).1
    rw [List.foldl_cons, aux_py_call s k o ho hf]
    obtain ⟨objs, calls, h1, h2, h3, h4, h5⟩ := ih { s with objs := s.objs.set k { o with freed := true }, calls := s.calls ++ [(k, o.w, o.fn, o.data)] } hp' (by
      intro j hj
      have := hlt j hj
      obtain ⟨o', ho', hf'⟩ := hk j (List.mem_cons_of_mem _ hj)
      exact ⟨o', by simp [List.getElem?_set, show k ≠ j by omega, ho'], hf'⟩)
    refine ⟨objs, (k, o.w, o.fn, o.data) :: calls, ?_, ?_, ?_, ?_, ?_⟩
    · rw [h1]; simp
    · rw [h2]
      apply List.ext_getElem?
      intro i
      simp only [List.getElem?_map, List.getElem?_set]
      by_cases hi : k = i
      · subst hi; rw [if_pos rfl, if_pos hlen, ho]; rfl
      · simp [hi]
    · intro i o' ho'
      by_cases hi : k = i
      · subst hi
        have e : o' = o := by rw [ho] at ho'; exact (Option.some.inj ho').symm
        subst e
        have hx := h3 k { o' with freed := true } (by simp [List.getElem?_set, hlen])
        rw [hx]; simp
      · have hx := h3 i o' (by simp [List.getElem?_set, hi, ho'])
        rw [hx]
        have : i ∈ k :: ks ↔ i ∈ ks := by simp; omega
        simp [this]
    · simp [h4]
    · intro e he
      rcases List.mem_cons.1 he with rfl | he
      · exact ⟨o, ho, rfl⟩
      · obtain ⟨o', ho', e'⟩ := h5 e he
        have hmem : e.1 ∈ ks := by rw [← h4]; exact List.mem_map_of_mem he
        have := hlt _ hmem
        exact ⟨o', by simpa [List.getElem?_set, show k ≠ e.1 by omega] using ho', e'⟩

theorem aux_py_pairs (calls : List (Nat × Nat × Nat × Nat)) (ks : List Nat) (h : calls.map (·.1) = ks) (hp : ks.Pairwise (· < ·)) (k : Nat) (e : Nat × Nat × Nat × Nat) (he : e ∈ calls) (hk : e.1 = k) :
    calls.filter (fun e => e.1 == k) = [e] := by
  subst h
  induction calls with
  | nil => simp at he
  | cons a l ih =>
    simp only [List.map_cons, List.pairwise_cons] at hp
    rcases List.mem_cons.1 he with rfl | he
    · have : l.filter (fun e => e.1 == k) = [] := by
        rw [List.filter_eq_nil_iff]
        intro x hx
        have := hp.1 x.1 (List.mem_map_of_mem hx)
        simp; omega
      rw [List.filter_cons_of_pos (by simpa using hk), this]
    · have := hp.1 e.1 (List.mem_map_of_mem he)
      rw [List.filter_cons_of_neg (by simp; omega), ih he hp.2]

/-- The connection falls. -/
theorem aux_py_down (link : Nat → Nat) (ops : List PycOp) (s : PycState) (c : Nat) (h : aux_py_I link ops s) (hc : c ∉ s.down) :
    ∃ objs calls, pycDown s c = { s with objs := objs, calls := s.calls ++ calls, down := s.down ++ [c], regs := s.regs.filter (fun r => r.1 != c) } ∧
      objs.map (fun o => (o.w, o.fn, o.data)) = s.objs.map (fun o => (o.w, o.fn, o.data)) ∧
      (∀ (i : Nat) o, s.objs[i]? = some o → objs[i]? = some { o with freed := o.freed || decide ((c, i) ∈ s.regs) }) ∧
      calls.Pairwise (fun a b => a.1 < b.1) ∧
      (∀ e ∈ calls, link e.2.1 = c) ∧
      (∀ (k : Nat) o, s.objs[k]? = some o → PycCallsOf (pycDown s c) k = PycCallsOf s k ++ if (c, k) ∈ s.regs then [(o.w, o.fn, o.data)] else []) ∧
      (∀ k : Nat, s.objs.length ≤ k → PycCallsOf (pycDown s c) k = PycCallsOf s k) := by
  have hm : ∀ k, k ∈ pycList s c ↔ (c, k) ∈ s.regs := by
    intro k; simp [pycList]
  have hp : (pycList s c).Pairwise (· < ·) := by
    rw [pycList, List.pairwise_map]; exact h.sorted.filter _
  obtain ⟨objs, calls, h1, h2, h3, h4, h5⟩ := aux_py_fold (pycList s c) { s with down := s.down ++ [c], regs := s.regs.filter (fun r => r.1 != c) } hp (by
    intro k hk
    obtain ⟨o, ho, hf, _⟩ := h.regs c k ((hm k).1 hk)
    exact ⟨o, ho, hf⟩)
  have he : pycDown s c = { s with objs := objs, calls := s.calls ++ calls, down := s.down ++ [c], regs := s.regs.filter (fun r => r.1 != c) } := by
    rw [pycDown, if_neg (by simpa using hc), h1]
  have hnone : ∀ k, (c, k) ∉ s.regs → calls.filter (fun e => e.1 == k) = [] := by
    intro k hk
    rw [List.filter_eq_nil_iff]
    intro x hx hxk
    refine hk ((hm k).1 ?_)
    rw [← h4, ← show x.1 = k by simpa using hxk]
    exact List.mem_map_of_mem hx
  refine ⟨objs, calls, he, h2, ?_, ?_, ?_, ?_, ?_⟩
  · intro i o ho; rw [h3 i o ho]; simp [hm]
  · rw [← h4, List.pairwise_map] at hp; exact hp
  · intro e hx
    obtain ⟨o, ho, e'⟩ := h5 e hx
    have : e.1 ∈ pycList s c := by rw [← h4]; exact List.mem_map_of_mem hx
    obtain ⟨o', ho', _, hl⟩ := h.regs c e.1 ((hm _).1 this)
    have ho : s.objs[e.1]? = some o := ho
    rw [ho] at ho'; cases ho'
    rw [e']; exact hl
  · intro k o ho
    rw [he]
    simp only [PycCallsOf, List.filter_append, List.map_append]
    congr 1
    by_cases hk : (c, k) ∈ s.regs
    · have hk' := (hm k).2 hk
      rw [← h4] at hk'
      obtain ⟨e, hx, hek⟩ := List.mem_map.1 hk'
      obtain ⟨o', ho', e'⟩ := h5 e hx
      rw [aux_py_pairs calls _ h4 hp k e hx hek]
      have ho' : s.objs[e.1]? = some o' := ho'
      rw [hek, ho] at ho'; cases ho'
      simp only [hk, if_true, List.map_cons, List.map_nil]
      rw [e']
    · rw [hnone k hk]; simp [hk]
  · intro k hk
    have : (c, k) ∉ s.regs := by
      intro hx
      obtain ⟨o, ho, _⟩ := h.regs c k hx
      have := (List.getElem?_eq_some_iff.1 ho).1
      omega
    rw [he]
    simp only [PycCallsOf, List.filter_append, List.map_append, hnone k this]
    simp

theorem aux_py_downs (link : Nat → Nat) (ops : List PycOp) (s : PycState) (c : Nat) (op : PycOp) (cl : List Nat)
    (h : aux_py_I link ops s) (hc : c ∉ s.down) (hop : op = .lost c ∨ ∃ w, op = .close w ∧ link w = c)
    (hcl : ∀ w, w ∈ cl → w ∈ s.closed ∨ link w = c) :
    aux_py_I link (ops ++ [op]) { pycDown s c with closed := cl } := by
  obtain ⟨objs, calls, h1, h2, h3, h4, h5, h6, h7⟩ := aux_py_down link ops s c h hc
  have hs : PycSets (ops ++ [op]) = PycSets ops := by
    rcases hop with rfl | ⟨w, rfl, _⟩ <;> simp [PycSets]
  have hlen : objs.length = s.objs.length := by simpa using congrArg List.length h2
  have hcalls : ∀ k, PycCallsOf { pycDown s c with closed := cl } k = PycCallsOf (pycDown s c) k := fun _ => rfl
  refine ⟨by rw [h1]; exact h.bad, by rw [h1, hs, ← h.objs]; exact h2, by rw [h1]; simpa [hlen] using h.handles, by rw [h1]; exact h.sorted.filter _, ?_, ?_, ?_, ?_, ?_, ?_⟩
  · intro d k hk
    rw [h1] at hk ⊢
    simp only [List.mem_filter, bne_iff_ne] at hk
    obtain ⟨o, ho, hf, hl⟩ := h.regs d k hk.1
    refine ⟨_, h3 k o ho, ?_, hl⟩
    have : (c, k) ∉ s.regs := by
      intro hx
      obtain ⟨o', ho', _, hl'⟩ := h.regs c k hx
      rw [ho] at ho'; cases ho'
      exact hk.2 (hl.symm.trans hl')
    simp [hf, this]
  · intro d
    rw [aux_py_fell, h1]
    simp only [List.mem_append, List.mem_singleton, h.down d]
    rcases hop with rfl | ⟨w, rfl, rfl⟩
    · simp [eq_comm]
    · simp [eq_comm]
  · intro w hw
    rw [h1]
    simp only [List.mem_append, List.mem_singleton]
    rcases hcl w hw with h' | h'
    · exact .inl (h.closed w h')
    · exact .inr h'
  · rw [h1]
    simp only [List.pairwise_append]
    refine ⟨h.order, h4.imp (by intro a b hx _; exact hx), ?_⟩
    intro a ha b hb he
    have := h.past a ha
    rw [he, h5 b hb] at this
    exact absurd this hc
  · intro e he
    rw [h1] at he ⊢
    simp only [List.mem_append, List.mem_singleton] at he ⊢
    rcases he with he | he
    · exact .inl (h.past e he)
    · exact .inr (h5 e he)
  · intro k g hg
    obtain ⟨f, hf, hn⟩ := aux_py_inv hg
    have hok := h.fate k f hf
    -- unchanged unless pending in `c`
    have keep : f ≠ .pending c → g = f → aux_py_ok link { pycDown s c with closed := cl } k g := by
      rintro hne rfl
      have key : ∀ o, s.objs[k]? = some o → o.freed = true ∨ link o.w ≠ c → (c, k) ∉ s.regs := by
        intro o ho hx hr
        obtain ⟨o', ho', hf', hl'⟩ := h.regs c k hr
        rw [ho] at ho'; cases ho'
        rcases hx with hx | hx
        · rw [hx] at hf'; cases hf'
        · exact hx hl'
      cases g with
      | unset =>
        refine ⟨?_, ?_⟩
        · rw [h1]; simpa [hlen] using hok.1
        · rw [hcalls, h7 k hok.1, hok.2]
      | pending d =>
        obtain ⟨o, ho, hfr, hl, hr, hd, hh, hcs⟩ := hok
        have hdc : d ≠ c := fun e => hne (by rw [e])
        have hnr := key o ho (.inr (by rw [hl]; exact hdc))
        refine ⟨{ o with freed := o.freed || decide ((c, k) ∈ s.regs) }, by rw [h1]; exact h3 k o ho, by simp [hfr, hnr], hl, by rw [h1]; simp [hr, hdc], by rw [h1]; simp [hd, hdc], by rw [h1]; exact hh, by rw [hcalls, h6 k o ho, hcs]; simp [hnr]⟩
      | called =>
        obtain ⟨o, ho, hfr, hh, hcs⟩ := hok
        have hnr := key o ho (.inl hfr)
        exact ⟨{ o with freed := o.freed || decide ((c, k) ∈ s.regs) }, by rw [h1]; exact h3 k o ho, by simp [hfr], by rw [h1]; exact hh, by rw [hcalls, h6 k o ho, hcs]; simp [hnr]⟩
      | removed =>
        obtain ⟨o, ho, hfr, hh, hcs⟩ := hok
        have hnr := key o ho (.inl hfr)
        exact ⟨{ o with freed := o.freed || decide ((c, k) ∈ s.regs) }, by rw [h1]; exact h3 k o ho, by simp [hfr], by rw [h1]; exact hh, by rw [hcalls, h6 k o ho, hcs]; simp [hnr]⟩
      | late =>
        obtain ⟨o, ho, hfr, hl, hh, hcs⟩ := hok
        have hnr := key o ho (.inr (fun e => hc (e ▸ hl)))
        exact ⟨{ o with freed := o.freed || decide ((c, k) ∈ s.regs) }, by rw [h1]; exact h3 k o ho, by simp [hfr, hnr], by rw [h1]; simp [hl], by rw [h1]; exact hh, by rw [hcalls, h6 k o ho, hcs]; simp [hnr]⟩
    have fall : f = .pending c → g = .called → aux_py_ok link { pycDown s c with closed := cl } k g := by
      rintro rfl rfl
      obtain ⟨o, ho, hfr, hl, hr, hd, hh, hcs⟩ := hok
      exact ⟨{ o with freed := o.freed || decide ((c, k) ∈ s.regs) }, by rw [h1]; exact h3 k o ho, by simp [hr], by rw [h1]; exact hh, by rw [hcalls, h6 k o ho, hcs]; simp [hr]⟩
    rcases hop with rfl | ⟨w, rfl, rfl⟩
    · cases hn with
      | lost => exact fall rfl rfl
      | lostElse _ _ hne => exact keep hne rfl
    · cases hn with
      | close => exact fall rfl rfl
      | closeElse _ _ hne => exact keep hne rfl

/-- A connection that fell already. -/
theorem aux_py_again (link : Nat → Nat) (ops : List PycOp) (s : PycState) (c : Nat) (op : PycOp) (cl : List Nat)
    (h : aux_py_I link ops s) (hc : c ∈ s.down) (hop : op = .lost c ∨ ∃ w, op = .close w ∧ link w = c)
    (hcl : ∀ w, w ∈ cl → w ∈ s.closed ∨ link w = c) : aux_py_I link (ops ++ [op]) { s with closed := cl } := by
  have hs : PycSets (ops ++ [op]) = PycSets ops := by
    rcases hop with rfl | ⟨w, rfl, _⟩ <;> simp [PycSets]
  refine ⟨h.bad, by rw [hs]; exact h.objs, h.handles, h.sorted, h.regs, ?_, ?_, h.order, h.past, ?_⟩
  · intro d
    rw [aux_py_fell, h.down d]
    constructor
    · exact .inl
    · rintro (h' | rfl | ⟨w, rfl, rfl⟩)
      · exact h'
      · rcases hop with e | ⟨w, e, _⟩
        · cases e; exact (h.down _).1 hc
        · cases e
      · rcases hop with e | ⟨w', e, e'⟩
        · cases e
        · cases e; rw [e']; exact (h.down _).1 hc
  · intro w hw
    rcases hcl w hw with h' | h'
    · exact h.closed w h'
    · rw [h']; exact hc
  · intro k g hg
    obtain ⟨f, hf, hn⟩ := aux_py_inv hg
    have hok := h.fate k f hf
    have hp : f ≠ .pending c := by
      rintro rfl
      obtain ⟨o, _, _, _, _, hd, _⟩ := hok
      exact hd hc
    have : g = f := by
      rcases hop with rfl | ⟨w, rfl, rfl⟩
      · cases hn with
        | lost => exact absurd rfl hp
        | lostElse _ _ hne => rfl
      · cases hn with
        | close => exact absurd rfl hp
        | closeElse _ _ hne => rfl
    subst this
    cases g <;> exact hok

theorem aux_py_set (link : Nat → Nat) (ops : List PycOp) (s : PycState) (w fn data : Nat) (h : aux_py_I link ops s) :
    aux_py_I link (ops ++ [.set w fn data]) (pycStep link s (.set w fn data)) := by
  have hl : s.objs.length = (PycSets ops).length := by rw [← h.objs]; simp
  have hlt : ∀ (c k : Nat), (c, k) ∈ s.regs → k < s.objs.length := by
    intro c k hk
    obtain ⟨o, ho, _⟩ := h.regs c k hk
    exact (List.getElem?_eq_some_iff.1 ho).1
  -- the new list of handlers
  obtain ⟨rg, hstep, hrg, hnew⟩ : ∃ rg, pycStep link s (.set w fn data) = { s with objs := s.objs ++ [⟨w, fn, data, false⟩], handles := s.handles ++ [some s.objs.length], regs := rg } ∧
      (rg = s.regs ∨ rg = s.regs ++ [(link w, s.objs.length)]) ∧ (link w ∉ s.down → rg = s.regs ++ [(link w, s.objs.length)]) := by
    by_cases hcl : w ∈ s.closed
    · exact ⟨s.regs, by simp [pycStep, hcl], .inl rfl, fun hd => absurd (h.closed w hcl) hd⟩
    · exact ⟨s.regs ++ [(link w, s.objs.length)], by simp [pycStep, hcl], .inr rfl, fun _ => rfl⟩
  have hold : ∀ (c k : Nat), (c, k) ∈ s.regs → (c, k) ∈ rg := by
    intro c k hk; rcases hrg with rfl | rfl
    · exact hk
    · exact List.mem_append_left _ hk
  rw [hstep]
  refine ⟨h.bad, by rw [aux_py_sets]; simp [h.objs], by simp [h.handles], ?_, ?_, ?_, h.closed, h.order, h.past, ?_⟩
  · rcases hrg with rfl | rfl
    · exact h.sorted
    · rw [List.pairwise_append]
      refine ⟨h.sorted, by simp, ?_⟩
      rintro ⟨c, k⟩ hk b hb
      simp only [List.mem_singleton] at hb; subst hb
      exact hlt c k hk
  · intro c k hk
    have : (c, k) ∈ s.regs ∨ (c, k) = (link w, s.objs.length) := by
      rcases hrg with rfl | rfl
      · exact .inl hk
      · simpa using hk
    rcases this with hk | hk
    · obtain ⟨o, ho, h1, h2⟩ := h.regs c k hk
      exact ⟨o, by rw [List.getElem?_append_left (hlt c k hk)]; exact ho, h1, h2⟩
    · cases hk; exact ⟨⟨w, fn, data, false⟩, by simp, rfl, rfl⟩
  · intro c; rw [aux_py_fell, ← h.down c]; simp
  · intro k g hg
    obtain ⟨f, hf, hn⟩ := aux_py_inv hg
    have hok := h.fate k f hf
    have hget : ∀ o, s.objs[k]? = some o → (s.objs ++ [(⟨w, fn, data, false⟩ : PycObj)])[k]? = some o := by
      intro o ho; rw [List.getElem?_append_left (List.getElem?_eq_some_iff.1 ho).1]; exact ho
    have hhan : ∀ x, s.handles[k]? = some x → (s.handles ++ [some s.objs.length])[k]? = some x := by
      intro o ho; rw [List.getElem?_append_left (List.getElem?_eq_some_iff.1 ho).1]; exact ho
    cases hn with
    | set _ _ _ hk hd =>
      have hk : k = s.objs.length := by omega
      subst hk
      have hd : link w ∉ s.down := fun hx => hd ((h.down _).1 hx)
      exact ⟨⟨w, fn, data, false⟩, by simp, rfl, rfl, by rw [hnew hd]; simp, hd, by simp [← h.handles], hok.2⟩
    | late _ _ _ hk hd =>
      have hk : k = s.objs.length := by omega
      subst hk
      exact ⟨⟨w, fn, data, false⟩, by simp, rfl, (h.down _).2 hd, by simp [← h.handles], hok.2⟩
    | other _ _ _ _ hne =>
      cases g with
      | unset => exact ⟨by have := hok.1; simp; omega, hok.2⟩
      | pending c =>
        obtain ⟨o, ho, h1, h2, h3, h4, h5, h6⟩ := hok
        exact ⟨o, hget o ho, h1, h2, hold _ _ h3, h4, hhan _ h5, h6⟩
      | called => obtain ⟨o, ho, h1, h5, h6⟩ := hok; exact ⟨o, hget o ho, h1, hhan _ h5, h6⟩
      | removed => obtain ⟨o, ho, h1, h5, h6⟩ := hok; exact ⟨o, hget o ho, h1, hhan _ h5, h6⟩
      | late => obtain ⟨o, ho, h1, h2, h5, h6⟩ := hok; exact ⟨o, hget o ho, h1, h2, hhan _ h5, h6⟩

theorem aux_py_remove (link : Nat → Nat) (ops : List PycOp) (s : PycState) (w k : Nat) (h : aux_py_I link ops s)
    (ho : ∀ f, PycFateOf link k ops f → f = .pending (link w) ∨ f = .removed ∨ f = .unset) :
    aux_py_I link (ops ++ [.remove w k]) (pycStep link s (.remove w k)) := by
  obtain ⟨f, hf⟩ := aux_py_total link k ops
  have hok := h.fate k f hf
  have hdn : ∀ c, c ∈ s.down ↔ PycFell link c (ops ++ [.remove w k]) := by
    intro c; rw [aux_py_fell, ← h.down c]; simp
  rcases ho f hf with rfl | rfl | rfl
  · obtain ⟨o, ho', hfr, hl, hr, hd, hh, hcs⟩ := hok
    have hcl : w ∉ s.closed := fun hx => hd (h.closed w hx)
    have hstep : pycStep link s (.remove w k) = { s with handles := s.handles.set k none, regs := s.regs.erase (link w, k), results := s.results ++ [true], objs := s.objs.set k { o with freed := true } } := by
      simp [pycStep, hh, hcl, hr, pycFree, ho', hfr]
    have hklt : k < s.objs.length := (List.getElem?_eq_some_iff.1 ho').1
    have hnd : s.regs.Nodup := h.sorted.imp (fun hx => by intro e; subst e; omega)
    rw [hstep]
    refine ⟨h.bad, ?_, by simp [h.handles], h.sorted.sublist List.erase_sublist, ?_, hdn, h.closed, h.order, h.past, ?_⟩
    · rw [aux_py_sets_remove, ← h.objs]
      apply List.ext_getElem?
      intro i
      simp only [List.getElem?_map, List.getElem?_set]
      by_cases hi : k = i
      · subst hi; rw [if_pos rfl, if_pos hklt, ho']; rfl
      · simp [hi]
    · intro c j hj
      rw [hnd.mem_erase_iff] at hj
      obtain ⟨o', ho'', h1, h2⟩ := h.regs c j hj.2
      have : k ≠ j := by
        rintro rfl
        rw [ho'] at ho''; cases ho''
        exact hj.1 (by rw [← h2, hl])
      exact ⟨o', by simp [List.getElem?_set, this, ho''], h1, h2⟩
    · intro j g hg
      obtain ⟨f', hf', hn⟩ := aux_py_inv hg
      have hok' := h.fate j f' hf'
      by_cases hjk : k = j
      · subst hjk
        cases hn with
        | remove => exact ⟨{ o with freed := true }, by simp [List.getElem?_set, hklt], rfl, by simp [List.getElem?_set, h.handles, hklt], hcs⟩
        | removeElse _ _ _ hne =>
          exfalso
          have hne := hne rfl
          rcases ho g hf' with rfl | rfl | rfl
          · exact hne rfl
          · obtain ⟨o2, h2, h3, h4, _⟩ := hok'
            rw [hh] at h4; cases h4
          · have := hok'.1; omega
      · have hgf : g = f' := by
          cases hn with
          | remove => exact absurd rfl hjk
          | removeElse => rfl
        subst hgf
        have hget : ∀ o', s.objs[j]? = some o' → (s.objs.set k { o with freed := true })[j]? = some o' := by
          intro o' ho; simp [List.getElem?_set, hjk, ho]
        have hhan : ∀ x, s.handles[j]? = some x → (s.handles.set k none)[j]? = some x := by
          intro o' ho; simp [List.getElem?_set, hjk, ho]
        cases g with
        | unset => exact ⟨by simpa using hok'.1, hok'.2⟩
        | pending c =>
          obtain ⟨o, ho, h1, h2, h3, h4, h5, h6⟩ := hok'
          exact ⟨o, hget o ho, h1, h2, by rw [hnd.mem_erase_iff]; exact ⟨by intro e; cases e; exact hjk rfl, h3⟩, h4, hhan _ h5, h6⟩
        | called => obtain ⟨o, ho, h1, h5, h6⟩ := hok'; exact ⟨o, hget o ho, h1, hhan _ h5, h6⟩
        | removed => obtain ⟨o, ho, h1, h5, h6⟩ := hok'; exact ⟨o, hget o ho, h1, hhan _ h5, h6⟩
        | late => obtain ⟨o, ho, h1, h2, h5, h6⟩ := hok'; exact ⟨o, hget o ho, h1, h2, hhan _ h5, h6⟩
  all_goals
    have hsame : ∃ r, pycStep link s (.remove w k) = { s with results := r } := by
      first
      | (obtain ⟨o, ho', hfr, hh, hcs⟩ := hok; exact ⟨_, by simp only [pycStep, hh]; rfl⟩)
      | (have : s.handles[k]? = none := by rw [List.getElem?_eq_none]; rw [h.handles]; exact hok.1
         exact ⟨s.results, by simp [pycStep, this]⟩)
    obtain ⟨r, hsame⟩ := hsame
    rw [hsame]
    refine ⟨h.bad, by rw [aux_py_sets_remove]; exact h.objs, h.handles, h.sorted, h.regs, hdn, h.closed, h.order, h.past, ?_⟩
    intro j g hg
    obtain ⟨f', hf', hn⟩ := aux_py_inv hg
    have hok' := h.fate j f' hf'
    have hgf : g = f' := by
      cases hn with
      | remove =>
        exfalso
        obtain ⟨o2, h2, h3, h4, h5, h6, h7, _⟩ := hok'
        first
        | (obtain ⟨o, ho', hfr, hh, hcs⟩ := hok; rw [hh] at h7; cases h7)
        | (have := (List.getElem?_eq_some_iff.1 h2).1; have := hok.1; omega)
      | removeElse => rfl
    subst hgf
    cases g <;> exact hok'

theorem aux_py_prefix (link : Nat → Nat) (ops : List PycOp) (op : PycOp) (h : PycOrderly link (ops ++ [op])) : PycOrderly link ops := by
  intro pre w k post e f hf
  exact h pre w k (post ++ [op]) (by rw [e]; simp) f hf

theorem aux_py_all (link : Nat → Nat) : ∀ ops, PycOrderly link ops → aux_py_I link ops (pycRun link ops) := by
  refine aux_py_snoc ?_ ?_
  · intro _
    refine ⟨rfl, rfl, rfl, by simp [pycRun, pycInit], by simp [pycRun, pycInit], by simp [pycRun, pycInit, PycFell], by simp [pycRun, pycInit], by simp [pycRun, pycInit], by simp [pycRun, pycInit], ?_⟩
    intro k f h
    have := (aux_py_unset link k [] f h).2 (by simp [PycSets])
    subst this
    exact ⟨by simp [pycRun, pycInit], rfl⟩
  · intro ops op ih ho
    have h := ih (aux_py_prefix link ops op ho)
    rw [aux_py_run]
    cases op with
    | set w fn data => exact aux_py_set link ops _ w fn data h
    | remove w k => exact aux_py_remove link ops _ w k h (ho ops w k [] rfl)
    | lost c =>
      by_cases hc : c ∈ (pycRun link ops).down
      · have := aux_py_again link ops _ c (.lost c) (pycRun link ops).closed h hc (.inl rfl) (fun w hw => .inl hw)
        have e : pycStep link (pycRun link ops) (.lost c) = pycRun link ops := by simp [pycStep, pycDown, hc]
        rw [e]; exact this
      · have := aux_py_downs link ops _ c (.lost c) (pycRun link ops).closed h hc (.inl rfl) (fun w hw => .inl hw)
        obtain ⟨objs, calls, h1, _⟩ := aux_py_down link ops _ c h hc
        have e : pycStep link (pycRun link ops) (.lost c) = { pycDown (pycRun link ops) c with closed := (pycRun link ops).closed } := by
          simp only [pycStep]; rw [h1]
        rw [e]; exact this
    | close w =>
      by_cases hw : w ∈ (pycRun link ops).closed
      · have := aux_py_again link ops _ (link w) (.close w) (pycRun link ops).closed h (h.closed w hw) (.inr ⟨w, rfl, rfl⟩) (fun w hw => .inl hw)
        have e : pycStep link (pycRun link ops) (.close w) = pycRun link ops := by simp [pycStep, hw]
        rw [e]; exact this
      · have e : pycStep link (pycRun link ops) (.close w) = { pycDown (pycRun link ops) (link w) with closed := (pycRun link ops).closed ++ [w] } := by
          simp [pycStep, hw]
        have hcl : ∀ v, v ∈ (pycRun link ops).closed ++ [w] → v ∈ (pycRun link ops).closed ∨ link v = link w := by
          intro v hv
          rcases List.mem_append.1 hv with hv | hv
          · exact .inl hv
          · rw [List.mem_singleton.1 hv]; exact .inr rfl
        rw [e]
        by_cases hc : link w ∈ (pycRun link ops).down
        · have := aux_py_again link ops _ (link w) (.close w) _ h hc (.inr ⟨w, rfl, rfl⟩) hcl
          have e' : pycDown (pycRun link ops) (link w) = pycRun link ops := by simp [pycDown, hc]
          rw [e']; exact this
        · exact aux_py_downs link ops _ (link w) (.close w) _ h hc (.inr ⟨w, rfl, rfl⟩) hcl

/-- A program that removes handlers through their own connection and before it
falls uses no freed memory, and each handler is called once, with what was given
for it, when the connection falls, and never otherwise.  Missing: programs that
remove a handler later or through another connection; the references of a
handler given for a connection that had fallen. -/
theorem C140_calls_partial (link : Nat → Nat) (ops : List PycOp) (h : PycOrderly link ops) :
    (pycRun link ops).bad = false ∧ ∀ k f, PycFateOf link k ops f →
      (f = .called → ∃ e, (PycSets ops)[k]? = some e ∧ PycCallsOf (pycRun link ops) k = [e]) ∧
      (f ≠ .called → PycCallsOf (pycRun link ops) k = []) ∧
      (∀ c, f = .pending c → ¬ PycReleased (pycRun link ops) k) ∧
      (f = .called ∨ f = .removed → PycReleased (pycRun link ops) k) := by
  have hi := aux_py_all link ops h
  refine ⟨hi.bad, ?_⟩
  intro k f hf
  have hok := hi.fate k f hf
  cases f with
  | unset => exact ⟨by simp, fun _ => hok.2, by simp, by simp⟩
  | pending c =>
    obtain ⟨o, ho, h1, h2, h3, h4, h5, h6⟩ := hok
    refine ⟨by simp, fun _ => h6, ?_, by simp⟩
    rintro _ _ ⟨o', ho', hx⟩
    rw [ho] at ho'; cases ho'; rw [h1] at hx; cases hx
  | called =>
    obtain ⟨o, ho, h1, h5, h6⟩ := hok
    refine ⟨fun _ => ⟨_, ?_, h6⟩, by simp, by simp, fun _ => ⟨o, ho, h1⟩⟩
    rw [← hi.objs]; simp [ho]
  | removed => obtain ⟨o, ho, h1, h5, h6⟩ := hok; exact ⟨by simp, fun _ => h6, by simp, fun _ => ⟨o, ho, h1⟩⟩
  | late => obtain ⟨o, ho, h1, h2, h5, h6⟩ := hok; exact ⟨by simp, fun _ => h6, by simp, by simp⟩

theorem aux_py_timely (link : Nat → Nat) (k : Nat) : ∀ ops, PycTimely link ops → ¬ PycFateOf link k ops .late := by
  refine aux_py_snoc ?_ ?_
  · intro _ h
    have := (aux_py_unset link k [] _ h).2 (by simp [PycSets])
    cases this
  · intro ops op ih ht h
    have ht' : PycTimely link ops := by
      intro pre w fn data post e
      exact ht pre w fn data (post ++ [op]) (by rw [e]; simp)
    obtain ⟨f, hf, hn⟩ := aux_py_inv h
    cases hn with
    | late w fn data _ hd => exact ht ops w fn data [] rfl hd
    | other => exact ih ht' hf
    | lostElse => exact ih ht' hf
    | closeElse => exact ih ht' hf
    | removeElse => exact ih ht' hf

/-- With handlers given only for connections that have not fallen, all of C140
about calls and references.  Missing: the other programs. -/
theorem C140_handlers_partial (link : Nat → Nat) (ops : List PycOp) (h : PycOrderly link ops) (ht : PycTimely link ops) :
    (pycRun link ops).bad = false ∧ PycKept link ops := by
  obtain ⟨hb, hk⟩ := C140_calls_partial link ops h
  refine ⟨hb, ?_⟩
  intro k f hf
  obtain ⟨h1, h2, h3, h4⟩ := hk k f hf
  refine ⟨h1, h2, h3, ?_⟩
  intro hu hp
  cases f with
  | unset => exact absurd rfl hu
  | pending c => exact absurd rfl (hp c)
  | called => exact h4 (.inl rfl)
  | removed => exact h4 (.inr rfl)
  | late => exact absurd hf (aux_py_timely link k ops ht)

/-- Handlers of one connection are called in the order of their installation. -/
theorem C140_order_partial (link : Nat → Nat) (ops : List PycOp) (h : PycOrderly link ops) :
    (pycRun link ops).calls.Pairwise (fun a b => link a.2.1 = link b.2.1 → a.1 < b.1) :=
  (aux_py_all link ops h).order

/-- `remove_on_close` answers whether it removed the handler, in an orderly program. -/
theorem C140_answers_partial (link : Nat → Nat) (ops : List PycOp) (w k : Nat) (f : PycFate) (h : PycOrderly link (ops ++ [.remove w k]))
    (hf : PycFateOf link k ops f) (hu : f ≠ .unset) :
    ∃ b : Bool, (pycRun link (ops ++ [.remove w k])).results = (pycRun link ops).results ++ [b] ∧ (b = true ↔ f = .pending (link w)) := by
  have hi := aux_py_all link ops (aux_py_prefix link ops _ h)
  have hok := hi.fate k f hf
  rw [aux_py_run]
  rcases h ops w k [] rfl f hf with rfl | rfl | rfl
  · obtain ⟨o, ho', hfr, hl, hr, hd, hh, hcs⟩ := hok
    have hcl : w ∉ (pycRun link ops).closed := fun hx => hd (hi.closed w hx)
    exact ⟨true, by simp [pycStep, hh, hcl, hr, pycFree, ho', hfr], by simp⟩
  · obtain ⟨o, ho', hfr, hh, hcs⟩ := hok
    exact ⟨false, by simp [pycStep, hh], by simp⟩
  · exact absurd rfl hu

/-- Wherever an orderly program has come to, removing a handler that was called
already uses freed memory. -/
theorem C140_removeCalled (link : Nat → Nat) (ops : List PycOp) (w k : Nat) (h : PycOrderly link ops) (hf : PycFateOf link k ops .called) :
    (pycRun link (ops ++ [.remove w k])).bad = true := by
  obtain ⟨o, ho, h1, h5, h6⟩ := (aux_py_all link ops h).fate k _ hf
  rw [aux_py_run]
  simp [pycStep, h5, pycFree, ho, h1]

/-- Removing a handler through another connection answers false, and frees it:
when its connection falls, freed memory is used. -/
theorem C140_otherConnection (link : Nat → Nat) (ops : List PycOp) (w k c : Nat) (h : PycOrderly link ops) (hf : PycFateOf link k ops (.pending c)) (hw : link w ≠ c) :
    (pycRun link (ops ++ [.remove w k])).results = (pycRun link ops).results ++ [false] ∧
    (pycRun link (ops ++ [.remove w k] ++ [.lost c])).bad = true := by
  have hi := aux_py_all link ops h
  obtain ⟨o, ho, h1, h2, h3, h4, h5, h6⟩ := hi.fate k _ hf
  generalize hs : pycRun link ops = s at *
  have hnr : (link w, k) ∉ s.regs := by
    intro hx
    obtain ⟨o', ho', _, hl⟩ := hi.regs _ _ hx
    rw [ho] at ho'; cases ho'
    exact hw (hl.symm.trans h2)
  have hstep : pycStep link s (.remove w k) = { s with handles := s.handles.set k none, results := s.results ++ [false], objs := s.objs.set k { o with freed := true } } := by
    simp [pycStep, h5, hnr, pycFree, ho, h1]
  rw [aux_py_run link (ops ++ [PycOp.remove w k]) (.lost c), aux_py_run link ops (.remove w k), hs, hstep]
  refine ⟨rfl, ?_⟩
  have hklt : k < s.objs.length := (List.getElem?_eq_some_iff.1 ho).1
  -- a list of calls with a freed object ends badly
  have stay : ∀ (ks : List Nat) (t : PycState), t.bad = true → (ks.foldl pycCall t).bad = true := by
    intro ks
    induction ks with
    | nil => intro t ht; exact ht
    | cons a l ih =>
      intro t ht
      refine ih _ ?_
      simp only [pycCall, pycFree]
      repeat' split
      all_goals simp_all
  have ends : ∀ (ks : List Nat) (t : PycState), k ∈ ks → (∃ x, t.objs[k]? = some x ∧ x.freed = true) → (ks.foldl pycCall t).bad = true := by
    intro ks
    induction ks with
    | nil => intro t hk; simp at hk
    | cons a l ih =>
      rintro t hk ⟨x, hx, hxf⟩
      rcases List.mem_cons.1 hk with rfl | hk
      · refine stay l _ ?_
        simp [pycCall, hx, hxf]
      · by_cases hak : a = k
        · subst hak
          refine stay l _ ?_
          simp [pycCall, hx, hxf]
        · refine ih _ hk ⟨x, ?_, hxf⟩
          simp only [pycCall, pycFree]
          repeat' split
          all_goals simp_all [List.getElem?_set]
  simp only [pycStep, pycDown]
  rw [if_neg (by simpa using h4)]
  refine ends _ _ ?_ ⟨{ o with freed := true }, by simp [List.getElem?_set, hklt], rfl⟩
  simp [pycList, h3]

/-- A handler given for a connection that had fallen is never called and its
references are never dropped. -/
theorem C140_late (link : Nat → Nat) (ops : List PycOp) (k : Nat) (h : PycOrderly link ops) (hf : PycFateOf link k ops .late) :
    PycCallsOf (pycRun link ops) k = [] ∧ ¬ PycReleased (pycRun link ops) k := by
  obtain ⟨o, ho, h1, h2, h5, h6⟩ := (aux_py_all link ops h).fate k _ hf
  refine ⟨h6, ?_⟩
  rintro ⟨o', ho', hx⟩
  rw [ho] at ho'; cases ho'; rw [h1] at hx; cases hx

/-- C140 does not hold. -/
theorem C140_statement_false : ¬ C140_statement := by
  intro h
  exact absurd (h id [.set 0 1 2, .lost 0, .remove 0 0]).1 (by decide +kernel)

/-! Cases that meet the hypotheses -/

theorem aux_py_free (link : Nat → Nat) (ops : List PycOp) (h : ∀ op ∈ ops, ∀ w k, op ≠ .remove w k) : PycOrderly link ops := by
  rintro pre w k post rfl
  exact absurd rfl (h (.remove w k) (by simp) w k)

example : PycOrderly id [.set 0 1 2, .set 1 5 6, .lost 0] := aux_py_free _ _ (by simp)

example : PycFateOf id 0 [.set 0 1 2, .set 1 5 6, .lost 0] .called :=
  .snoc [.set 0 1 2, .set 1 5 6] _ _ _ (.snoc [.set 0 1 2] _ _ _ (.snoc [] _ _ _ .nil (.set 0 1 2 rfl (by simp [PycFell]))) (.other _ 1 5 6 (by simp [PycSets]))) (.lost 0)

example : PycFateOf id 1 [.set 0 1 2, .set 1 5 6, .lost 0] (.pending 1) :=
  .snoc [.set 0 1 2, .set 1 5 6] _ _ _ (.snoc [.set 0 1 2] _ _ _ (.snoc [] _ _ _ .nil (.other _ 0 1 2 (by simp [PycSets]))) (.set 1 5 6 rfl (by simp [PycFell]))) (.lostElse _ 0 (by simp))

example : (pycRun id [.set 0 1 2, .set 1 5 6, .lost 0]).calls = [(0, 0, 1, 2)] := by decide +kernel

/-- Orderly with a removal. -/
example : PycOrderly id [.set 0 1 2, .remove 0 0] := by
  intro pre w k post e f hf
  match pre, e with
  | [], e => simp at e
  | [a], e =>
    simp at e
    obtain ⟨rfl, ⟨rfl, rfl⟩, rfl⟩ := e
    obtain ⟨f', hf', hn⟩ := aux_py_inv (ops := []) hf
    have := (aux_py_unset id 0 [] _ hf').2 (by simp [PycSets])
    subst this
    cases hn with
    | set => exact .inl rfl
    | late _ _ _ _ hd => simp [PycFell] at hd
    | other => exact .inr (.inr rfl)
  | a :: b :: l, e => simp at e

example : PycTimely id [.set 0 1 2, .set 1 5 6, .lost 0] := by
  intro pre w fn data post e
  match pre, e with
  | [], e => simp [PycFell]
  | [a], e => simp at e; obtain ⟨rfl, _⟩ := e; simp [PycFell]
  | [a, b], e => simp at e
  | a :: b :: c :: l, e => simp at e

example : PycFateOf id 0 [.lost 0, .set 0 1 2] .late :=
  .snoc [.lost 0] _ _ _ (.snoc [] _ _ _ .nil (.lostElse _ 0 (by simp))) (.late 0 1 2 rfl (.inl (by simp)))

end Verif.Props
