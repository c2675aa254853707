import Verif.Spec.XmlRpcPool
/-!
# C118 — Channel pools of XML-RPC channels
-/
namespace Verif.Props
open Verif.Model Verif.Spec

/-- **C118**, the full statement: every call gets a pool whose channels are booted with its names, that stays until it is closed, and its id. -/
def C118_statement : Prop :=
  ∀ ops, (∀ c ∈ (PcState.init.run ops).calls, PoolKept c)

/-- The id a pool has or will have. -/
def aux_pc_slot (c : PcCall) : Option Nat :=
  match c.phase with
  | .reading v => some (v + 1)
  | .named id => some id
  | .booted id => some id
  | .installed id => some id
  | _ => none

structure aux_pc_G (n : Nat) (c : PcCall) : Prop where
  reading : ∀ v, c.phase = .reading v → v = n
  named : ∀ id, c.phase = .named id → 1 ≤ id ∧ id ≤ n
  booted : ∀ id, c.phase = .booted id → 1 ≤ id ∧ id ≤ n
  installed : ∀ id, c.phase = .installed id → 1 ≤ id ∧ id ≤ n
  replaced : c.replaced = false
  late : c.late = false
  hkey : c.handler = true → ∀ x, c.key = some x → x = -1
  skey : c.handler = false → ∀ x, c.key = some x → 1 ≤ x ∧ (c.phase = .gone ∨ ∃ id : Nat, c.phase = .installed id ∧ x = id)
  fresh : c.handler = false → c.phase ≠ .gone → c.freed = false
  over : c.handler = false → c.phase = .gone → c.key ≠ none ∨ c.freed = true
  boots : c.handler = false → ∀ b ∈ c.boots, b = some (c.server, c.resource)

structure aux_pc_I (s : PcState) : Prop where
  good : ∀ (i : Nat) (c : PcCall), s.calls[i]? = some c → aux_pc_G s.next c
  uniq : ∀ (i j : Nat) (c d : PcCall), s.calls[i]? = some c → s.calls[j]? = some d → aux_pc_slot c = aux_pc_slot d → aux_pc_slot c ≠ none → i = j

theorem aux_pc_set {l : List PcCall} {n m k : Nat} {c c' : PcCall} (h : aux_pc_I ⟨l, n⟩) (hk : l[k]? = some c) (hg : aux_pc_G m c')
    (hm : ∀ i d, i ≠ k → l[i]? = some d → aux_pc_G m d)
    (hs : ∀ i d, i ≠ k → l[i]? = some d → aux_pc_slot d = aux_pc_slot c' → aux_pc_slot d = none) : aux_pc_I ⟨l.set k c', m⟩ := by
  have lk : k < l.length := by
    rcases Nat.lt_or_ge k l.length with h | h
    · exact h
    · rw [List.getElem?_eq_none h] at hk; cases hk
  have at_k : ∀ d, (l.set k c')[k]? = some d → d = c' := by
    intro d hd; rw [List.getElem?_set_self lk] at hd; exact (Option.some.inj hd).symm
  have at_i : ∀ i, i ≠ k → (l.set k c')[i]? = l[i]? := fun i hi => List.getElem?_set_ne (Ne.symm hi)
  refine ⟨?_, ?_⟩
  · intro i d hd
    by_cases hi : i = k
    · subst hi; rw [at_k d hd]; exact hg
    · rw [at_i i hi] at hd; exact hm i d hi hd
  · intro i j d e hd he hde hn
    by_cases hi : i = k <;> by_cases hj : j = k
    · rw [hi, hj]
    · subst hi; rw [at_k d hd] at hde hn; rw [at_i j hj] at he
      exact absurd (hs j e hj he hde.symm) (by rw [← hde]; exact hn)
    · subst hj; rw [at_k e he] at hde; rw [at_i i hi] at hd
      exact absurd (hs i d hi hd hde) hn
    · rw [at_i i hi] at hd; rw [at_i j hj] at he; exact h.uniq i j d e hd he hde hn

theorem aux_pc_map {l : List PcCall} {n m : Nat} {f : PcCall → PcCall} (h : aux_pc_I ⟨l, n⟩) (hg : ∀ (i : Nat) (c : PcCall), l[i]? = some c → aux_pc_G m (f c))
    (hs : ∀ (i : Nat) (c : PcCall), l[i]? = some c → aux_pc_slot (f c) = aux_pc_slot c ∨ aux_pc_slot (f c) = none) : aux_pc_I ⟨l.map f, m⟩ := by
  have at_i : ∀ (i : Nat) (d : PcCall), (l.map f)[i]? = some d → ∃ c, l[i]? = some c ∧ d = f c := by
    intro i d hd
    rw [List.getElem?_map] at hd
    cases e : l[i]? with
    | none => rw [e] at hd; cases hd
    | some c => rw [e] at hd; exact ⟨c, rfl, (Option.some.inj hd).symm⟩
  refine ⟨?_, ?_⟩
  · intro i d hd; obtain ⟨c, hc, e⟩ := at_i i d hd; rw [e]; exact hg i c hc
  · intro i j d e hd he hde hn
    obtain ⟨c, hc, r⟩ := at_i i d hd; obtain ⟨c', hc', r'⟩ := at_i j e he
    subst r; subst r'
    rcases hs i c hc with h1 | h1
    · rcases hs j c' hc' with h2 | h2
      · exact h.uniq i j c c' hc hc' (by rw [← h1, ← h2]; exact hde) (by rw [← h1]; exact hn)
      · exact absurd (hde.trans h2) hn
    · exact absurd h1 hn

/-- Two different calls have different slots. -/
theorem aux_pc_diff {s : PcState} (h : aux_pc_I s) {i k : Nat} {c d : PcCall} (hk : s.calls[k]? = some c) (hi : i ≠ k) (hd : s.calls[i]? = some d)
    (e : aux_pc_slot d = aux_pc_slot c) : aux_pc_slot d = none := by
  cases hn : aux_pc_slot d with
  | none => rfl
  | some x => exact absurd (h.uniq i k d c hd hk e (by rw [hn]; simp)) hi

theorem aux_pc_step (s : PcState) (o : PcOp) (h : aux_pc_I s) (hc : PcCareful s o) : aux_pc_I (s.step o) := by
  obtain ⟨l, n⟩ := s
  have keepG : ∀ (k i : Nat) (d : PcCall), i ≠ k → l[i]? = some d → aux_pc_G n d := fun k i d _ hd => h.good i d hd
  cases o with
  | create hd sv r =>
    simp only [PcState.step]
    have at_i : ∀ (i : Nat) (d : PcCall), (l ++ [(⟨hd, sv, r, .queued, none, false, [], false, false⟩ : PcCall)])[i]? = some d →
        l[i]? = some d ∨ d = ⟨hd, sv, r, .queued, none, false, [], false, false⟩ := by
      intro i d hd
      rw [List.getElem?_append] at hd
      split at hd
      · exact Or.inl hd
      · right
        rw [List.getElem?_singleton] at hd
        split at hd
        · exact (Option.some.inj hd).symm
        · cases hd
    refine ⟨?_, ?_⟩
    · intro i d hd
      rcases at_i i d hd with h1 | h1
      · exact h.good i d h1
      · rw [h1]; constructor <;> simp
    · intro i j d e hd he hde hn
      rcases at_i i d hd with h1 | h1
      · rcases at_i j e he with h2 | h2
        · exact h.uniq i j d e h1 h2 hde hn
        · rw [h2] at hde; exact absurd hde hn
      · rw [h1] at hn; exact absurd rfl hn
  | readId k =>
    simp only [PcState.step]
    cases hk : l[k]? with
    | none => simpa [hk] using h
    | some c =>
      simp only
      by_cases hp : c.phase = .queued
      · rw [if_pos hp]
        have g := h.good k c hk
        refine aux_pc_set h hk ?_ (keepG k) ?_
        · refine { g with reading := ?_, named := ?_, booted := ?_, installed := ?_, skey := ?_, fresh := ?_, over := ?_ } <;> simp
          · intro hh x hx; have := (g.skey hh x hx).2; simp [hp] at this
          · intro hh; exact g.fresh hh (by simp [hp])
        · intro i d hi hd e
          cases ed : d.phase with
          | reading v => exact absurd ed (hc d (List.mem_of_getElem? hd) v)
          | named id => have := (h.good i d hd).named id ed; simp [aux_pc_slot, ed] at e; simp only at this; omega
          | booted id => have := (h.good i d hd).booted id ed; simp [aux_pc_slot, ed] at e; simp only at this; omega
          | installed id => have := (h.good i d hd).installed id ed; simp [aux_pc_slot, ed] at e; simp only at this; omega
          | queued => simp [aux_pc_slot, ed]
          | gone => simp [aux_pc_slot, ed]
      · rw [if_neg hp]; exact h
  | writeId k =>
    simp only [PcState.step]
    cases hk : l[k]? with
    | none => simpa [hk] using h
    | some c =>
      have g := h.good k c hk
      cases hp : c.phase with
      | reading v =>
        simp only [hp]
        have hv : v = n := g.reading v hp
        subst hv
        have others : ∀ i d, i ≠ k → l[i]? = some d → ∀ v, d.phase ≠ .reading v := by
          intro i d hi hd w hw
          have : w = v := (h.good i d hd).reading w hw
          have := aux_pc_diff h hk hi hd (by simp [aux_pc_slot, hw, hp, this])
          simp [aux_pc_slot, hw] at this
        refine aux_pc_set h hk ?_ ?_ ?_
        · refine { g with reading := ?_, named := ?_, booted := ?_, installed := ?_, skey := ?_, fresh := ?_, over := ?_ } <;> simp
          · intro hh x hx; have := (g.skey hh x hx).2; simp [hp] at this
          · intro hh; exact g.fresh hh (by simp [hp])
        · intro i d hi hd
          have gd := h.good i d hd
          refine { gd with reading := ?_, named := ?_, booted := ?_, installed := ?_ }
          · intro w hw; exact absurd hw (others i d hi hd w)
          · intro id e; have := gd.named id e; simp only at this; omega
          · intro id e; have := gd.booted id e; simp only at this; omega
          · intro id e; have := gd.installed id e; simp only at this; omega
        · intro i d hi hd e
          exact aux_pc_diff h hk hi hd (by rw [e]; simp [aux_pc_slot, hp])
      | _ => simpa [hk, hp] using h
  | first k =>
    simp only [PcState.step]
    cases hk : l[k]? with
    | none => simpa [hk] using h
    | some c =>
      have g := h.good k c hk
      cases hp : c.phase with
      | named id =>
        simp only [hp]
        refine aux_pc_set h hk ?_ (keepG k) ?_
        · refine { g with reading := ?_, named := ?_, booted := ?_, installed := ?_, skey := ?_, fresh := ?_, over := ?_, boots := ?_ } <;> simp [PcCall.boot]
          · exact g.named id hp
          · intro hh x hx; have := (g.skey hh x hx).2; simp [hp] at this
          · intro hh; exact g.fresh hh (by simp [hp])
          · intro hh
            refine ⟨g.fresh hh (by simp [hp]), ?_⟩
            intro b hb; exact g.boots hh b hb
        · intro i d hi hd e
          exact aux_pc_diff h hk hi hd (by rw [e]; simp [aux_pc_slot, hp])
      | _ => simpa [hk, hp] using h
  | install k =>
    simp only [PcState.step]
    cases hk : l[k]? with
    | none => simpa [hk] using h
    | some c =>
      have g := h.good k c hk
      cases hp : c.phase with
      | booted id =>
        simp only [hp]
        have same : l.map (fun d => d.replace id) = l := by
          apply List.ext_getElem?
          intro i
          rw [List.getElem?_map]
          cases hi : l[i]? with
          | none => rfl
          | some d =>
            simp only [Option.map_some, PcCall.replace, PcCall.hasId]
            by_cases e : d.phase = .installed id
            · exfalso
              by_cases ik : i = k
              · subst ik; rw [hk] at hi; cases hi; simp [hp] at e
              · have := aux_pc_diff h hk ik hi (by simp [aux_pc_slot, e, hp])
                simp [aux_pc_slot, e] at this
            · simp [e]
        rw [same]
        refine aux_pc_set h hk ?_ (keepG k) ?_
        · refine { g with reading := ?_, named := ?_, booted := ?_, installed := ?_, skey := ?_, fresh := ?_, over := ?_ } <;> simp
          · exact g.booted id hp
          · intro hh x hx; have := (g.skey hh x hx).2; simp [hp] at this
          · intro hh; exact g.fresh hh (by simp [hp])
        · intro i d hi hd e
          exact aux_pc_diff h hk hi hd (by rw [e]; simp [aux_pc_slot, hp])
      | _ => simpa [hk, hp] using h
  | keep k =>
    simp only [PcState.step]
    cases hk : l[k]? with
    | none => simpa [hk] using h
    | some c =>
      have g := h.good k c hk
      simp only
      by_cases hd0 : c.key ≠ none ∨ c.freed = true
      · rw [if_pos hd0]; exact h
      · rw [if_neg hd0]
        have hkey : c.key = none := Classical.byContradiction fun x => hd0 (Or.inl x)
        have hfr : c.freed = false := by cases e : c.freed; rfl; exact absurd (Or.inr e) hd0
        have rel : ∀ key : Int, (∀ i d, i ≠ k → l[i]? = some d → d.handler = false → d.phase ≠ .gone → d.key ≠ some key) →
            aux_pc_I ⟨l.map (fun d => d.release key), n⟩ := by
          intro key hrel
          apply aux_pc_map h
          · intro i d hd
            have gd := h.good i d hd
            simp only [PcCall.release]
            by_cases e : d.key = some key
            · rw [if_pos e]
              refine { gd with hkey := ?_, skey := ?_, fresh := ?_, over := ?_ } <;> simp
              intro hh
              by_cases ik : i = k
              · subst ik; rw [hk] at hd; cases hd; rw [hkey] at e; cases e
              · exact Classical.byContradiction fun hg => hrel i d ik hd hh hg e
            · rw [if_neg e]; exact gd
          · intro i d hd; left; simp only [PcCall.release]; split <;> rfl
        have lk : ∀ key : Int, (l.map (fun d => d.release key))[k]? = some c := by
          intro key; rw [List.getElem?_map, hk]; simp [PcCall.release, hkey]
        rcases Bool.eq_false_or_eq_true c.handler with hh | hh
        · have hr : c.resultId = some (-1) := by simp [PcCall.resultId, hh]
          rw [hr]
          have h2 := rel (-1) (by
            intro i d hi hd h1 h3 h4
            have := ((h.good i d hd).skey h1 _ h4).1; omega)
          refine aux_pc_set h2 (lk _) ?_ (fun i d _ hd => h2.good i d hd) (fun i d hi hd e => aux_pc_diff h2 (lk _) hi hd e)
          refine { g with hkey := ?_, skey := ?_, over := ?_ } <;> simp [hh]
        · obtain ⟨ph, hp⟩ : ∃ ph, c.phase = ph := ⟨_, rfl⟩
          cases ph with
          | installed id =>
            have hr : c.resultId = some (id : Int) := by simp [PcCall.resultId, hh, hp]
            rw [hr]
            have h2 := rel id (by
              intro i d hi hd h1 h3 h4
              rcases ((h.good i d hd).skey h1 _ h4).2 with e | ⟨id', e, e'⟩
              · exact h3 e
              · have e2 : id' = id := by omega
                have := aux_pc_diff h hk hi hd (by simp [aux_pc_slot, e, hp, e2])
                simp [aux_pc_slot, e] at this)
            refine aux_pc_set h2 (lk _) ?_ (fun i d _ hd => h2.good i d hd) (fun i d hi hd e => aux_pc_diff h2 (lk _) hi hd e)
            have := g.installed id hp
            refine { g with hkey := ?_, skey := ?_, over := ?_ } <;> simp [hh, hp]
            omega
          | gone =>
            exfalso
            rcases g.over hh hp with x | x
            · exact x hkey
            · rw [hfr] at x; cases x
          | _ =>
            have hr : c.resultId = none := by simp [PcCall.resultId, hh, hp]
            have hg : ¬ c.phase = .gone := by simp [hp]
            rw [hr]; simp only [if_neg hg]; exact h
  | getNext id =>
    simp only [PcState.step]
    cases id with
    | negSucc _ => exact h
    | ofNat m =>
      cases m with
      | zero => exact h
      | succ m =>
        apply aux_pc_map h
        · intro i d hd
          have gd := h.good i d hd
          simp only [PcCall.hasId, decide_eq_true_eq]
          by_cases e : d.phase = .installed (m + 1)
          · rw [if_pos e]
            refine { gd with boots := ?_ }
            intro hh b hb
            have := gd.fresh hh (by simp [e])
            simp [PcCall.boot, this] at hb
            rcases hb with hb | hb
            · exact hb
            · exact gd.boots hh b hb
          · rw [if_neg e]; exact gd
        · intro i d hd; left; split <;> rfl
  | close k =>
    simp only [PcState.step]
    cases hk : l[k]? with
    | none => simpa [hk] using h
    | some c =>
      have g := h.good k c hk
      cases hp : c.phase with
      | installed id =>
        simp only [hp]
        refine aux_pc_set h hk ?_ (keepG k) (fun i d hi hd e => by rw [e]; rfl)
        refine { g with reading := ?_, named := ?_, booted := ?_, installed := ?_, skey := ?_, fresh := ?_, over := ?_ } <;> simp
        · intro hh x hx; exact (g.skey hh x hx).1
        · intro hh
          rcases hc c hk with e | e
          · rw [hh] at e; cases e
          · exact Or.inl e
      | _ => simpa [hk, hp] using h
  | reconnect =>
    simp only [PcState.step]
    apply aux_pc_map h
    · intro i d hd
      have gd := h.good i d hd
      have hcd := hc d (List.mem_of_getElem? hd)
      have hover : d.handler = false → ¬d.key = none ∨ d.freed = true := fun hh => by
        rcases hcd.2 with e | e
        · rw [hh] at e; cases e
        · exact e
      rcases hcd.1 with e | ⟨id, e⟩
      · simp only [e]
        refine { gd with reading := ?_, named := ?_, booted := ?_, installed := ?_ } <;> simp [e]
      · simp only [e]
        refine { gd with reading := ?_, named := ?_, booted := ?_, installed := ?_, skey := ?_, fresh := ?_, over := ?_ } <;> simp
        · intro hh x hx; exact (gd.skey hh x hx).1
        · exact hover
    · intro i d hd
      rcases (hc d (List.mem_of_getElem? hd)).1 with e | ⟨id, e⟩
      · left; simp [e]
      · right; simp [e, aux_pc_slot]

theorem aux_pc_run : ∀ ops s, aux_pc_I s → PcObeys s ops → aux_pc_I (s.run ops)
  | [], _, h, _ => h
  | o :: os, s, h, ho => aux_pc_run os _ (aux_pc_step s o h ho.1) ho.2

theorem aux_pc_init : aux_pc_I PcState.init := ⟨by simp [PcState.init], by simp [PcState.init]⟩

/-- For an application that is careful: a call without handler gets a pool whose channels are all booted with the names given, that stays until it is closed, and it gets its
id — whatever pools with handlers do. -/
theorem C118_sync_partial (ops : List PcOp) (h : PcObeys PcState.init ops) (c : PcCall) (hm : c ∈ (PcState.init.run ops).calls)
    (hh : c.handler = false) : PoolKept c := by
  obtain ⟨i, hi⟩ := List.mem_iff_getElem?.mp hm
  have g := (aux_pc_run ops _ aux_pc_init h).good i c hi
  exact ⟨g.boots hh, g.replaced, g.late⟩

/-- For an application that is careful, ids tell the pools on the connection apart, start at 1, and no pool is closed by the creation of another. -/
theorem C118_ids_partial (ops : List PcOp) (h : PcObeys PcState.init ops) (i j id : Nat) (c d : PcCall)
    (hi : (PcState.init.run ops).calls[i]? = some c) (hj : (PcState.init.run ops).calls[j]? = some d) (hc : PoolOn c id) :
    1 ≤ id ∧ c.replaced = false ∧ (PoolOn d id → i = j) := by
  have I := aux_pc_run ops _ aux_pc_init h
  refine ⟨((I.good i c hi).installed id hc).1, (I.good i c hi).replaced, fun hd => ?_⟩
  exact I.uniq i j c d hi hj (by rw [PoolOn] at hc hd; simp [aux_pc_slot, hc, hd]) (by rw [PoolOn] at hc; simp [aux_pc_slot, hc])

example : PcObeys PcState.init
    [.create false 1 2, .create true 3 4, .keep 1, .readId 0, .writeId 0, .first 0, .install 0, .keep 0, .readId 1, .writeId 1, .first 1, .install 1,
     .getNext 1, .getNext 2, .close 0, .reconnect] ∧
    (PcState.init.run [.create false 1 2, .create true 3 4, .keep 1, .readId 0, .writeId 0, .first 0, .install 0, .keep 0, .readId 1, .writeId 1, .first 1, .install 1,
     .getNext 1, .getNext 2]).calls.map PcCall.boots = [[some (1, 2), some (1, 2)], [some (3, 4), some (3, 4)]] := by
  refine ⟨?_, by decide +kernel⟩
  simp [PcObeys, PcCareful, PcState.init, PcState.step, PcCall.boot, PcCall.replace, PcCall.release, PcCall.resultId, PcCall.hasId]

/-- What one call may become in a step: what matters for released data. -/
structure aux_pc_M (l : List PcCall) (i : Nat) (c c' : PcCall) : Prop where
  handler : c'.handler = c.handler
  server : c'.server = c.server
  resource : c'.resource = c.resource
  key : c'.key = c.key ∨ c'.key = none ∨ (c.handler = true ∧ c'.key = some (-1)) ∨ c.handler = false
  freed : c.freed = true → c'.freed = true
  newly : c.handler = true → c'.freed = true → c.freed = true ∨ ((∀ x, c.key = some x → x = -1) → ∃ (j : Nat) (d : PcCall), j ≠ i ∧ l[j]? = some d ∧ d.handler = true)
  boots : ∀ b ∈ c'.boots, b ∈ c.boots ∨ b = some (c.server, c.resource) ∨ c.freed = true

theorem aux_pc_M_same (l : List PcCall) (i : Nat) (c c' : PcCall) (h1 : c'.handler = c.handler) (h2 : c'.server = c.server) (h3 : c'.resource = c.resource)
    (h4 : c'.key = c.key) (h5 : c'.freed = c.freed) (h6 : c'.boots = c.boots) : aux_pc_M l i c c' :=
  ⟨h1, h2, h3, Or.inl h4, fun h => by rw [h5]; exact h, fun _ h => Or.inl (by rw [← h5]; exact h), fun b hb => Or.inl (by rw [← h6]; exact hb)⟩

theorem aux_pc_M_boot (l : List PcCall) (i : Nat) (c c' : PcCall) (h1 : c'.handler = c.handler) (h2 : c'.server = c.server) (h3 : c'.resource = c.resource)
    (h4 : c'.key = c.key) (h5 : c'.freed = c.freed) (h6 : c'.boots = c.boot.boots) : aux_pc_M l i c c' := by
  refine ⟨h1, h2, h3, Or.inl h4, fun h => by rw [h5]; exact h, fun _ h => Or.inl (by rw [← h5]; exact h), ?_⟩
  intro b hb
  rw [h6] at hb
  simp only [PcCall.boot, List.mem_cons] at hb
  rcases hb with hb | hb
  · cases hf : c.freed
    · right; left; simpa [hf] using hb
    · right; right; rfl
  · exact Or.inl hb

structure aux_pc_H (s : PcState) : Prop where
  hkey : ∀ (i : Nat) (c : PcCall), s.calls[i]? = some c → c.handler = true → ∀ x, c.key = some x → x = -1
  freed : ∀ (i : Nat) (c : PcCall), s.calls[i]? = some c → c.handler = true → c.freed = true → ∃ (j : Nat) (d : PcCall), j ≠ i ∧ s.calls[j]? = some d ∧ d.handler = true
  boots : ∀ (i : Nat) (c : PcCall), s.calls[i]? = some c → ∀ b ∈ c.boots, b = some (c.server, c.resource) ∨ c.freed = true

/-- Every call after a step is one from before, moved, or a new one. -/
def aux_pc_S (l l' : List PcCall) : Prop :=
  (∀ (i : Nat) (c' : PcCall), l'[i]? = some c' → (∃ c, l[i]? = some c ∧ aux_pc_M l i c c') ∨ (c'.key = none ∧ c'.freed = false ∧ c'.boots = [])) ∧
  (∀ (j : Nat) (d : PcCall), l[j]? = some d → ∃ d', l'[j]? = some d' ∧ d'.handler = d.handler)

theorem aux_pc_S_refl (l : List PcCall) : aux_pc_S l l :=
  ⟨fun i c h => Or.inl ⟨c, h, aux_pc_M_same l i c c rfl rfl rfl rfl rfl rfl⟩, fun _ d h => ⟨d, h, rfl⟩⟩

theorem aux_pc_S_set {l : List PcCall} {k : Nat} {c c' : PcCall} (hk : l[k]? = some c) (hm : aux_pc_M l k c c') : aux_pc_S l (l.set k c') := by
  have lk : k < l.length := by
    rcases Nat.lt_or_ge k l.length with h | h
    · exact h
    · rw [List.getElem?_eq_none h] at hk; cases hk
  refine ⟨?_, ?_⟩
  · intro i d hd
    left
    by_cases hi : i = k
    · subst hi; rw [List.getElem?_set_self lk] at hd; cases hd; exact ⟨c, hk, hm⟩
    · rw [List.getElem?_set_ne (Ne.symm hi)] at hd; exact ⟨d, hd, aux_pc_M_same l i d d rfl rfl rfl rfl rfl rfl⟩
  · intro j d hd
    by_cases hj : j = k
    · subst hj; rw [hk] at hd; cases hd; exact ⟨c', List.getElem?_set_self lk, hm.handler⟩
    · exact ⟨d, by rw [List.getElem?_set_ne (Ne.symm hj)]; exact hd, rfl⟩

theorem aux_pc_S_map {l : List PcCall} {f : PcCall → PcCall} (hm : ∀ (i : Nat) (c : PcCall), l[i]? = some c → aux_pc_M l i c (f c)) : aux_pc_S l (l.map f) := by
  refine ⟨?_, ?_⟩
  · intro i d hd
    left
    rw [List.getElem?_map] at hd
    cases e : l[i]? with
    | none => rw [e] at hd; cases hd
    | some c => rw [e] at hd; cases hd; exact ⟨c, rfl, hm i c e⟩
  · intro j d hd
    exact ⟨f d, by rw [List.getElem?_map, hd]; rfl, (hm j d hd).handler⟩

/-- A change of call `k` after a change of the others. -/
theorem aux_pc_S_map_set {l : List PcCall} {f : PcCall → PcCall} {k : Nat} {c c' : PcCall} (hk : l[k]? = some c)
    (hm : ∀ (i : Nat) (d : PcCall), i ≠ k → l[i]? = some d → aux_pc_M l i d (f d)) (hc : aux_pc_M l k c c') : aux_pc_S l ((l.map f).set k c') := by
  have lk : k < (l.map f).length := by
    rcases Nat.lt_or_ge k l.length with h | h
    · rw [List.length_map]; exact h
    · rw [List.getElem?_eq_none h] at hk; cases hk
  refine ⟨?_, ?_⟩
  · intro i d hd
    left
    by_cases hi : i = k
    · subst hi; rw [List.getElem?_set_self lk] at hd; cases hd; exact ⟨c, hk, hc⟩
    · rw [List.getElem?_set_ne (Ne.symm hi), List.getElem?_map] at hd
      cases e : l[i]? with
      | none => rw [e] at hd; cases hd
      | some b => rw [e] at hd; cases hd; exact ⟨b, rfl, hm i b hi e⟩
  · intro j d hd
    by_cases hj : j = k
    · subst hj; rw [hk] at hd; cases hd; exact ⟨c', List.getElem?_set_self lk, hc.handler⟩
    · exact ⟨f d, by rw [List.getElem?_set_ne (Ne.symm hj), List.getElem?_map, hd]; rfl, (hm j d hj hd).handler⟩

theorem aux_pc_S_step (s : PcState) (o : PcOp) : aux_pc_S s.calls (s.step o).calls := by
  obtain ⟨l, n⟩ := s
  cases o with
  | create hd sv r =>
    simp only [PcState.step]
    refine ⟨?_, ?_⟩
    · intro i d hd
      rw [List.getElem?_append] at hd
      split at hd
      · exact Or.inl ⟨d, hd, aux_pc_M_same l i d d rfl rfl rfl rfl rfl rfl⟩
      · right
        rw [List.getElem?_singleton] at hd
        split at hd
        · cases hd; simp
        · cases hd
    · intro j d hd
      have lj : j < l.length := by
        rcases Nat.lt_or_ge j l.length with h | h
        · exact h
        · rw [List.getElem?_eq_none h] at hd; cases hd
      exact ⟨d, by rw [List.getElem?_append_left lj]; exact hd, rfl⟩
  | readId k =>
    simp only [PcState.step]
    cases hk : l[k]? with
    | none => exact aux_pc_S_refl l
    | some c =>
      by_cases hp : c.phase = .queued
      · simp only [if_pos hp]; exact aux_pc_S_set hk (aux_pc_M_same _ _ _ _ rfl rfl rfl rfl rfl rfl)
      · simp only [if_neg hp]; exact aux_pc_S_refl l
  | writeId k =>
    simp only [PcState.step]
    cases hk : l[k]? with
    | none => exact aux_pc_S_refl l
    | some c =>
      cases hp : c.phase with
      | reading v => simp only [hp]; exact aux_pc_S_set hk (aux_pc_M_same _ _ _ _ rfl rfl rfl rfl rfl rfl)
      | _ => simp only [hp]; exact aux_pc_S_refl l
  | first k =>
    simp only [PcState.step]
    cases hk : l[k]? with
    | none => exact aux_pc_S_refl l
    | some c =>
      cases hp : c.phase with
      | named v => simp only [hp]; exact aux_pc_S_set hk (aux_pc_M_boot _ _ _ _ rfl rfl rfl rfl rfl rfl)
      | _ => simp only [hp]; exact aux_pc_S_refl l
  | install k =>
    simp only [PcState.step]
    cases hk : l[k]? with
    | none => exact aux_pc_S_refl l
    | some c =>
      cases hp : c.phase with
      | booted v =>
        simp only [hp]
        refine aux_pc_S_map_set hk ?_ (aux_pc_M_same _ _ _ _ rfl rfl rfl rfl rfl rfl)
        intro i d _ _
        simp only [PcCall.replace]
        split <;> exact aux_pc_M_same _ _ _ _ rfl rfl rfl rfl rfl rfl
      | _ => simp only [hp]; exact aux_pc_S_refl l
  | keep k =>
    simp only [PcState.step]
    cases hk : l[k]? with
    | none => exact aux_pc_S_refl l
    | some c =>
      simp only
      by_cases hd0 : c.key ≠ none ∨ c.freed = true
      · rw [if_pos hd0]; exact aux_pc_S_refl l
      · rw [if_neg hd0]
        have rel : ∀ key : Int, (key = -1 → c.handler = true) → ∀ (i : Nat) (d : PcCall), i ≠ k → l[i]? = some d → aux_pc_M l i d (d.release key) := by
          intro key hkey i d hi hd
          simp only [PcCall.release]
          by_cases e : d.key = some key
          · rw [if_pos e]
            refine ⟨rfl, rfl, rfl, Or.inr (Or.inl rfl), fun _ => rfl, fun hh _ => Or.inr fun hx => ?_, fun b hb => Or.inl hb⟩
            exact ⟨k, c, Ne.symm hi, hk, hkey (hx key e)⟩
          · rw [if_neg e]; exact aux_pc_M_same _ _ _ _ rfl rfl rfl rfl rfl rfl
        cases hh : c.handler with
        | true =>
          simp only [PcCall.resultId, hh, if_true]
          refine aux_pc_S_map_set hk (rel (-1) fun _ => hh) ⟨hh.symm, rfl, rfl, Or.inr (Or.inr (Or.inl ⟨hh, rfl⟩)), id, fun _ h => Or.inl h, fun b hb => Or.inl hb⟩
        | false =>
          simp only [PcCall.resultId, hh, Bool.false_eq_true, if_false]
          cases hp : c.phase with
          | installed id =>
            simp only
            exact aux_pc_S_map_set hk (rel id (by omega)) ⟨hh.symm, rfl, rfl, Or.inr (Or.inr (Or.inr hh)), fun h => h, fun _ h => Or.inl h, fun b hb => Or.inl hb⟩
          | gone => simp only [if_true]; exact aux_pc_S_set hk (aux_pc_M_same _ _ _ _ hh.symm rfl rfl rfl rfl rfl)
          | _ => exact aux_pc_S_refl l
  | getNext id =>
    simp only [PcState.step]
    cases id with
    | negSucc _ => exact aux_pc_S_refl l
    | ofNat m =>
      cases m with
      | zero => exact aux_pc_S_refl l
      | succ m =>
        apply aux_pc_S_map
        intro i c _
        split
        · exact aux_pc_M_boot _ _ _ _ rfl rfl rfl rfl rfl rfl
        · exact aux_pc_M_same _ _ _ _ rfl rfl rfl rfl rfl rfl
  | close k =>
    simp only [PcState.step]
    cases hk : l[k]? with
    | none => exact aux_pc_S_refl l
    | some c =>
      cases hp : c.phase with
      | installed v => simp only [hp]; exact aux_pc_S_set hk (aux_pc_M_same _ _ _ _ rfl rfl rfl rfl rfl rfl)
      | _ => simp only [hp]; exact aux_pc_S_refl l
  | reconnect =>
    simp only [PcState.step]
    apply aux_pc_S_map
    intro i c _
    split <;> exact aux_pc_M_same _ _ _ _ rfl rfl rfl rfl rfl rfl

theorem aux_pc_H_step (s : PcState) (o : PcOp) (h : aux_pc_H s) : aux_pc_H (s.step o) := by
  obtain ⟨S1, S2⟩ := aux_pc_S_step s o
  refine ⟨?_, ?_, ?_⟩
  · intro i c' hc' hh x hx
    rcases S1 i c' hc' with ⟨c, hc, m⟩ | ⟨e, _, _⟩
    · have hch : c.handler = true := by rw [← m.handler]; exact hh
      rcases m.key with e | e | ⟨_, e⟩ | e
      · exact h.hkey i c hc hch x (by rw [← e]; exact hx)
      · rw [e] at hx; cases hx
      · rw [e] at hx; exact (Option.some.inj hx).symm
      · rw [hch] at e; cases e
    · rw [e] at hx; cases hx
  · intro i c' hc' hh hf
    rcases S1 i c' hc' with ⟨c, hc, m⟩ | ⟨_, e, _⟩
    · have hch : c.handler = true := by rw [← m.handler]; exact hh
      have ⟨j, d, hj, hd, hdh⟩ : ∃ (j : Nat) (d : PcCall), j ≠ i ∧ s.calls[j]? = some d ∧ d.handler = true := by
        rcases m.newly hch hf with e | e
        · exact h.freed i c hc hch e
        · exact e (h.hkey i c hc hch)
      obtain ⟨d', hd', e⟩ := S2 j d hd
      exact ⟨j, d', hj, hd', by rw [e]; exact hdh⟩
    · rw [e] at hf; cases hf
  · intro i c' hc' b hb
    rcases S1 i c' hc' with ⟨c, hc, m⟩ | ⟨_, _, e⟩
    · rw [m.server, m.resource]
      rcases m.boots b hb with e | e | e
      · rcases h.boots i c hc b e with e | e
        · exact Or.inl e
        · exact Or.inr (m.freed e)
      · exact Or.inl e
      · exact Or.inr (m.freed e)
    · rw [e] at hb; cases hb

theorem aux_pc_H_run : ∀ ops s, aux_pc_H s → aux_pc_H (s.run ops)
  | [], _, h => h
  | o :: os, s, h => aux_pc_H_run os _ (aux_pc_H_step s o h)

/-- With at most one call that has a handler, in every history and schedule: the channels of its pool are booted with its names. -/
theorem C118_one_handler_partial (ops : List PcOp) (h1 : OneHandler (PcState.init.run ops)) (c : PcCall) (hm : c ∈ (PcState.init.run ops).calls)
    (hh : c.handler = true) : ∀ b ∈ c.boots, b = some (c.server, c.resource) := by
  obtain ⟨i, hi⟩ := List.mem_iff_getElem?.mp hm
  have H := aux_pc_H_run ops PcState.init ⟨by simp [PcState.init], by simp [PcState.init], by simp [PcState.init]⟩
  intro b hb
  rcases H.boots i c hi b hb with e | e
  · exact e
  · obtain ⟨j, d, hj, hd, hdh⟩ := H.freed i c hi hh e
    exact absurd (h1 j i d c hd hi hdh hh) hj

example : OneHandler (PcState.init.run [.create false 1 2, .create true 3 4, .keep 1, .readId 1, .writeId 1, .first 1, .install 1]) := by
  have : (PcState.init.run [.create false 1 2, .create true 3 4, .keep 1, .readId 1, .writeId 1, .first 1, .install 1]).calls =
      [⟨false, 1, 2, .queued, none, false, [], false, false⟩, ⟨true, 3, 4, .installed 1, some (-1), false, [some (3, 4)], false, false⟩] := by decide +kernel
  intro i j c d hi hj hc hd
  rw [this] at hi hj
  have one : ∀ (i : Nat) (c : PcCall), ([⟨false, 1, 2, .queued, none, false, [], false, false⟩, ⟨true, 3, 4, .installed 1, some (-1), false, [some (3, 4)], false, false⟩] : List PcCall)[i]? = some c →
      c.handler = true → i = 1 := by
    intro i c hi hc
    match i with
    | 0 => simp at hi; rw [← hi] at hc; cases hc
    | 1 => rfl
    | n + 2 => simp at hi
  rw [one i c hi hc, one j d hj hd]

theorem C118_statement_false : ¬ C118_statement := by
  intro h
  have := (h [.create true 1 2, .keep 0, .create true 3 4, .keep 1, .readId 0, .writeId 0, .first 0] ⟨true, 1, 2, .booted 1, none, true, [none], false, false⟩
    (by decide +kernel)).names none (by decide)
  cases this

/-- Violation: two pools are asked for with a handler. The second call releases the names of the first: when its task boots the channel it reads released memory. -/
theorem C118_second_handler : ∃ ops c, PcObeys PcState.init ops ∧ (PcState.init.run ops).calls[0]? = some c ∧ none ∈ c.boots :=
  ⟨[.create true 1 2, .keep 0, .create true 3 4, .keep 1, .readId 0, .writeId 0, .first 0], ⟨true, 1, 2, .booted 1, none, true, [none], false, false⟩,
    by simp [PcObeys, PcCareful, PcState.init, PcState.step, PcCall.release, PcCall.resultId],
    by decide +kernel, by decide⟩

/-- Violation: the same for a pool that was long in use. -/
theorem C118_second_handler_later : ∃ ops c, PcObeys PcState.init ops ∧ (PcState.init.run ops).calls[0]? = some c ∧
    c.boots = [none, some (1, 2), some (1, 2)] :=
  ⟨[.create true 1 2, .keep 0, .readId 0, .writeId 0, .first 0, .install 0, .getNext 1, .create true 3 4, .keep 1, .getNext 1], 
    ⟨true, 1, 2, .installed 1, none, true, [none, some (1, 2), some (1, 2)], false, false⟩,
    by simp [PcObeys, PcCareful, PcState.init, PcState.step, PcCall.release, PcCall.resultId],
    by decide +kernel, rfl⟩

/-- Violation: two threads create a pool at the same time and get the same id: the first pool is closed under its call, which then reads it. -/
theorem C118_same_id : ∃ ops c d, (PcState.init.run ops).calls[0]? = some c ∧ (PcState.init.run ops).calls[1]? = some d ∧ c.handler = false ∧ d.handler = false ∧
    c.replaced = true ∧ c.late = true ∧ PoolOn d 1 :=
  ⟨[.create false 1 2, .create false 3 4, .readId 0, .readId 1, .writeId 0, .writeId 1, .first 0, .first 1, .install 0, .install 1, .keep 1, .keep 0],
    ⟨false, 1, 2, .gone, none, false, [some (1, 2)], true, true⟩, ⟨false, 3, 4, .installed 1, some 1, false, [some (3, 4)], false, false⟩,
    by decide +kernel, by decide +kernel, rfl, rfl, rfl, rfl, rfl⟩

/-- Violation: the documentation says that `-1` can be used when there is one pool; nothing is found with it. -/
theorem C118_default (s : PcState) : s.step (.getNext (-1)) = s := rfl

end Verif.Props
