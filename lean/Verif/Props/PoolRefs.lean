import Verif.Spec.PoolRefs
/-! C90: channel pools and the references to their channels. -/
namespace Verif.Props
open Verif.Model Verif.Spec

/-- C90, full: calls with pools never use a pool that was released and never block; every channel has as many references as there are
holders. False of the code. -/
def C90_statement : Prop :=
  ∀ ops, ∃ s, PoolRefs.init.run ops = .ok s ∧ ∀ c, c < s.chans → (s.chan c).refs = poolHolders s c

/-- C90 is violated: a channel given away by its pool keeps the pointer to it, and uses it when it is closed after the pool. -/
theorem C90_released : PoolRefs.init.run [.newPool, .add 0 3, .deattach 0 0, .closePool 0 [], .close 0] = .error .released := by rfl

/-- C90 is violated: the peer closed the channel, so the pool has the last reference; giving the channel away blocks for ever. -/
theorem C90_blocked : PoolRefs.init.run [.newPool, .add 0 3, .close 0, .deattach 0 0] = .error .blocked := by rfl

/-- C90 is violated: a channel given away and closed is released when the pool has a new channel with its number; the pool loses the new one
and does not give back its reference. -/
theorem C90_wrong_channel : ∃ s, PoolRefs.init.run [.newPool, .add 0 3, .deattach 0 0, .ref 0, .close 0, .add 0 3, .unref 0] = .ok s ∧
    (s.pool 0).list = [] ∧ (s.chan 1).refs = 2 ∧ poolHolders s 1 = 1 := ⟨_, rfl, rfl, rfl, rfl⟩

theorem C90_statement_false : ¬ C90_statement := by
  intro h
  obtain ⟨s, hs, _⟩ := h [.newPool, .add 0 3, .close 0, .deattach 0 0]
  rw [C90_blocked] at hs
  cases hs

structure aux_pr_inv (s : PoolRefs) (debt : Nat → Nat) : Prop where
  fresh : ∀ c, s.chans ≤ c → (s.chan c).refs = 0 ∧ (s.chan c).pool = none ∧ (s.chan c).inTable = false ∧ (s.chan c).user = 0
  nums : ∀ c d, c < s.chans → d < s.chans → (s.chan c).num = (s.chan d).num → c = d
  lists : ∀ p, (s.pool p).list.Nodup ∧ ∀ c, c ∈ (s.pool p).list → c < s.chans
  dead : ∀ p, (s.pool p).alive = false → (s.pool p).list = []
  pools : ∀ p, s.pools ≤ p → (s.pool p).alive = false
  ptr : ∀ c p, (s.chan c).pool = some p → ((s.pool p).alive = true ∧ c ∈ (s.pool p).list) ∨ 0 < debt c
  refs : ∀ c, (s.chan c).refs = (poolHolders s c : Int) + debt c

theorem aux_pr_sum (n p : Nat) (f g : Nat → Nat) (hp : p < n) (hf : ∀ k, k ≠ p → f k = g k) :
    ((List.range n).map f).sum + g p = ((List.range n).map g).sum + f p := by
  induction n with
  | zero => omega
  | succ n ih =>
    simp only [List.range_succ, List.map_append, List.map_cons, List.map_nil, List.sum_append, List.sum_cons, List.sum_nil]
    by_cases hpn : p = n
    · subst hpn
      have : (List.range p).map f = (List.range p).map g := by
        apply List.map_congr_left
        intro k hk
        exact hf k (by have := List.mem_range.1 hk; omega)
      rw [this]
      omega
    · have := ih (by omega)
      have := hf n (fun h => hpn h.symm)
      omega

theorem aux_pr_held_setP (s : PoolRefs) (p : Nat) (r : PoolRec) (hp : p < s.pools) (c : Nat) :
    poolHeld (s.setP p r) c + (s.pool p).list.count c = poolHeld s c + r.list.count c := by
  have := aux_pr_sum s.pools p (fun k => ((s.setP p r).pool k).list.count c) (fun k => (s.pool k).list.count c) hp
    (fun k hk => by simp [PoolRefs.setP, hk])
  simpa [poolHeld, PoolRefs.setP] using this

theorem aux_pr_held_pos (s : PoolRefs) (p c : Nat) (hp : p < s.pools) (hc : c ∈ (s.pool p).list) : 0 < poolHeld s c := by
  have h1 : 0 < (s.pool p).list.count c := List.count_pos_iff.2 hc
  have h2 : ∀ n, p < n → (s.pool p).list.count c ≤ ((List.range n).map (fun p => (s.pool p).list.count c)).sum := by
    intro n
    induction n with
    | zero => omega
    | succ n ih =>
      intro hn
      simp only [List.range_succ, List.map_append, List.map_cons, List.map_nil, List.sum_append, List.sum_cons, List.sum_nil]
      by_cases hpn : p = n
      · subst hpn; omega
      · have := ih (by omega); omega
  have := h2 s.pools hp
  simp only [poolHeld]
  omega

theorem aux_pr_alive (s : PoolRefs) (debt : Nat → Nat) (h : aux_pr_inv s debt) (p : Nat) (ha : (s.pool p).alive = true) : p < s.pools := by
  apply Classical.byContradiction
  intro hp
  have := h.pools p (by omega)
  rw [this] at ha
  cases ha

/-- Giving back a reference to a channel that is in its pool, or has none. -/
theorem aux_pr_unref (s : PoolRefs) (debt : Nat → Nat) (locked : Bool) (c : Nat) (h : aux_pr_inv s debt) (hd : 0 < debt c)
    (hc : c < s.chans) (hp : ∀ p, (s.chan c).pool = some p → (s.pool p).alive = true ∧ c ∈ (s.pool p).list) :
    s.unref locked c = .ok (s.setC c { s.chan c with refs := (s.chan c).refs - 1 }) ∧
    aux_pr_inv (s.setC c { s.chan c with refs := (s.chan c).refs - 1 }) (fun k => if k = c then debt c - 1 else debt k) := by
  constructor
  · simp only [PoolRefs.unref]
    split
    · next h0 =>
      simp only [PoolRefs.setC, if_true] at h0
      simp only [PoolRefs.free, PoolRefs.setC, if_true]
      cases hpool : (s.chan c).pool with
      | none => rfl
      | some p =>
        have hin := hp p hpool
        have := aux_pr_held_pos s p c (aux_pr_alive s debt h p hin.1) hin.2
        have := h.refs c
        simp only [poolHolders] at this
        omega
    · rfl
  · obtain ⟨h1, h2, h3, h4, h5, h6, h7⟩ := h
    refine ⟨?_, ?_, h3, h4, h5, ?_, ?_⟩
    · intro k hk
      simp only [PoolRefs.setC]
      split
      · next e => subst e; simp only [PoolRefs.setC] at hk; omega
      · exact h1 k hk
    · intro k l hk hl hkl
      simp only [PoolRefs.setC] at hkl
      apply h2 k l hk hl
      split at hkl <;> split at hkl <;> simp_all
    · intro k p hk
      simp only [PoolRefs.setC] at hk ⊢
      split at hk
      · next e => subst e; exact .inl (hp p hk)
      · next e => simp only [e, if_false]; exact h6 k p hk
    · intro k
      have := h7 k
      simp only [poolHolders, poolHeld, PoolRefs.setC] at this ⊢
      split
      · next e => subst e; simp only [if_true]; omega
      · exact this

/-- A change of one channel that leaves its number. -/
theorem aux_pr_setC (s : PoolRefs) (debt debt' : Nat → Nat) (c : Nat) (x : PoolChan) (h : aux_pr_inv s debt) (hc : c < s.chans)
    (hn : x.num = (s.chan c).num) (hk : ∀ k, k ≠ c → debt' k = debt k)
    (hp : ∀ p, x.pool = some p → ((s.pool p).alive = true ∧ c ∈ (s.pool p).list) ∨ 0 < debt' c)
    (hr : x.refs = (if x.inTable then 1 else 0) + (x.user : Int) + poolHeld s c + debt' c) : aux_pr_inv (s.setC c x) debt' := by
  obtain ⟨h1, h2, h3, h4, h5, h6, h7⟩ := h
  refine ⟨?_, ?_, h3, h4, h5, ?_, ?_⟩
  · intro k hk
    simp only [PoolRefs.setC]
    split
    · next e => subst e; simp only [PoolRefs.setC] at hk; omega
    · exact h1 k hk
  · intro k l hk hl hkl
    simp only [PoolRefs.setC] at hkl
    apply h2 k l hk hl
    split at hkl <;> split at hkl <;> simp_all
  · intro k p hkp
    simp only [PoolRefs.setC] at hkp ⊢
    split at hkp
    · next e => subst e; exact hp p hkp
    · next e => rw [hk k e]; exact h6 k p hkp
  · intro k
    have := h7 k
    simp only [poolHolders, poolHeld, PoolRefs.setC] at this hr ⊢
    split
    · next e => subst e; rw [hr]; split <;> simp
    · next e => rw [hk k e]; exact this

/-- The table gives back its reference. -/
theorem aux_pr_leave (s : PoolRefs) (debt : Nat → Nat) (locked : Bool) (c : Nat) (h : aux_pr_inv s debt)
    (hp : ∀ p, (s.chan c).pool = some p → (s.pool p).alive = true ∧ c ∈ (s.pool p).list) :
    ∃ s', s.leave locked c = .ok s' ∧ aux_pr_inv s' debt ∧ s'.pool = s.pool ∧ s'.pools = s.pools ∧ s'.chans = s.chans ∧
      (∀ k, (s'.chan k).pool = (s.chan k).pool) := by
  simp only [PoolRefs.leave]
  split
  · next hin =>
    have hc : c < s.chans := by
      apply Classical.byContradiction
      intro hc
      have := (h.fresh c (by omega)).2.2.1
      rw [this] at hin
      cases hin
    have h0 := h.refs c
    simp only [poolHolders, hin, if_true] at h0
    have h1 : aux_pr_inv (s.setC c { s.chan c with inTable := false }) (fun k => if k = c then debt c + 1 else debt k) := by
      refine aux_pr_setC s debt _ c _ h hc rfl (fun k e => by simp [e]) (fun p hpp => .inl (hp p hpp)) ?_
      simp only [if_true]
      simp
      omega
    have h2 := aux_pr_unref _ _ locked c h1 (by simp) hc (by simpa [PoolRefs.setC] using hp)
    refine ⟨_, h2.1, ?_, rfl, rfl, rfl, ?_⟩
    · have he : (fun k => if k = c then (if c = c then debt c + 1 else debt c) - 1 else if k = c then debt c + 1 else debt k) = debt := by
        funext k
        by_cases hk : k = c <;> simp [hk]
      have := h2.2
      rw [he] at this
      exact this
    · intro k
      simp only [PoolRefs.setC]
      by_cases hk : k = c
      · subst hk; simp
      · simp [hk]
  · exact ⟨s, rfl, h, rfl, rfl, rfl, fun _ => rfl⟩

theorem aux_pr_letGo (s : PoolRefs) (debt : Nat → Nat) (ready : Bool) (c : Nat) (h : aux_pr_inv s debt) (hd : 0 < debt c)
    (hc : c < s.chans) :
    ∃ s', s.letGo ready c = .ok s' ∧ aux_pr_inv s' (fun k => if k = c then debt c - 1 else debt k) ∧ s'.pool = s.pool ∧
      s'.pools = s.pools ∧ s'.chans = s.chans := by
  have h0 := h.refs c
  simp only [poolHolders] at h0
  have h1 : aux_pr_inv (s.setC c { s.chan c with pool := none }) debt := by
    refine aux_pr_setC s debt debt c _ h hc rfl (fun _ _ => rfl) (fun p hp => by cases hp) ?_
    simp only
    rw [h0]
    split <;> simp
  have hnone : ∀ p, ((s.setC c { s.chan c with pool := none }).chan c).pool = some p →
      ((s.setC c { s.chan c with pool := none }).pool p).alive = true ∧ c ∈ ((s.setC c { s.chan c with pool := none }).pool p).list := fun p hp => by
    simp [PoolRefs.setC] at hp
  simp only [PoolRefs.letGo]
  cases ready with
  | false =>
    simp only [Bool.false_eq_true, if_false]
    have h2 := aux_pr_unref _ debt true c h1 hd hc hnone
    exact ⟨_, h2.1, h2.2, rfl, rfl, rfl⟩
  | true =>
    simp only [if_true]
    obtain ⟨s2, e2, i2, p2, n2, c2, q2⟩ := aux_pr_leave _ debt true c h1 hnone
    rw [e2]
    have h3 := aux_pr_unref s2 debt true c i2 hd (by rw [c2]; exact hc) (fun p hp => by
      rw [q2] at hp
      simp [PoolRefs.setC] at hp)
    exact ⟨_, h3.1, h3.2, p2, n2, c2⟩

theorem aux_pr_letGoAll (ready : Bool) (l : List Nat) : ∀ (s : PoolRefs) (debt : Nat → Nat), aux_pr_inv s debt → l.Nodup →
    (∀ c, c ∈ l → 0 < debt c ∧ c < s.chans) →
    ∃ s', s.letGoAll ready l = .ok s' ∧ aux_pr_inv s' (fun k => if k ∈ l then debt k - 1 else debt k) ∧ s'.pool = s.pool ∧
      s'.pools = s.pools ∧ s'.chans = s.chans := by
  induction l with
  | nil => intro s debt h _ _; exact ⟨s, rfl, by simpa using h, rfl, rfl, rfl⟩
  | cons c l ih =>
    intro s debt h hn hd
    have hn' := List.nodup_cons.1 hn
    obtain ⟨s1, e1, i1, p1, n1, c1⟩ := aux_pr_letGo s debt ready c h (hd c (by simp)).1 (hd c (by simp)).2
    obtain ⟨s2, e2, i2, p2, n2, c2⟩ := ih s1 _ i1 hn'.2 (fun k hk => by
      have hkc : k ≠ c := fun e => hn'.1 (e ▸ hk)
      simp only [hkc, if_false]
      rw [c1]
      exact hd k (List.mem_cons_of_mem _ hk))
    refine ⟨s2, ?_, ?_, by rw [p2, p1], by rw [n2, n1], by rw [c2, c1]⟩
    · simp only [PoolRefs.letGoAll, e1]
      exact e2
    · have he : (fun k => if k ∈ l then (if k = c then debt c - 1 else debt k) - 1 else if k = c then debt c - 1 else debt k) =
          (fun k => if k ∈ c :: l then debt k - 1 else debt k) := by
        funext k
        by_cases hk : k = c
        · subst hk; simp [hn'.1]
        · by_cases hl : k ∈ l <;> simp [hk, hl]
      rw [he] at i2
      exact i2

/-- A change of the list of one pool. -/
theorem aux_pr_setP (s : PoolRefs) (debt debt' : Nat → Nat) (p : Nat) (r : PoolRec) (h : aux_pr_inv s debt) (hp : p < s.pools)
    (hl : r.list.Nodup ∧ ∀ c, c ∈ r.list → c < s.chans) (hdead : r.alive = false → r.list = [])
    (hptr : ∀ c, (s.chan c).pool = some p → (r.alive = true ∧ c ∈ r.list) ∨ 0 < debt' c)
    (hmono : ∀ c, debt c ≤ debt' c ∨ ∀ q, (s.chan c).pool = some q → q = p ∨ ((s.pool q).alive = true ∧ c ∈ (s.pool q).list))
    (hcnt : ∀ c, debt c + (s.pool p).list.count c = debt' c + r.list.count c) : aux_pr_inv (s.setP p r) debt' := by
  obtain ⟨h1, h2, h3, h4, h5, h6, h7⟩ := h
  refine ⟨h1, h2, ?_, ?_, ?_, ?_, ?_⟩
  · intro q
    simp only [PoolRefs.setP]
    split
    · exact hl
    · exact h3 q
  · intro q
    simp only [PoolRefs.setP]
    split
    · exact hdead
    · exact h4 q
  · intro q hq
    simp only [PoolRefs.setP] at hq ⊢
    split
    · next e => subst e; omega
    · exact h5 q hq
  · intro c q hc
    simp only [PoolRefs.setP] at hc ⊢
    split
    · next e => subst e; exact hptr c hc
    · next e =>
      rcases hmono c with hm | hm
      · rcases h6 c q hc with h | h
        · exact .inl h
        · exact .inr (by omega)
      · rcases hm q hc with h | h
        · exact absurd h e
        · exact .inl h
  · intro c
    have h := h7 c
    have hh := aux_pr_held_setP s p r hp c
    have := hcnt c
    have e : poolHolders (s.setP p r) c + (s.pool p).list.count c = poolHolders s c + r.list.count c := by
      show (if (s.chan c).inTable then 1 else 0) + (s.chan c).user + poolHeld (s.setP p r) c + _ =
        (if (s.chan c).inTable then 1 else 0) + (s.chan c).user + poolHeld s c + _
      omega
    show (s.chan c).refs = _
    omega

theorem aux_pr_same (s : PoolRefs) (debt : Nat → Nat) (h : aux_pr_inv s debt) (p c d : Nat) (hc : c < s.chans) (hs : s.same p c = some d) :
    d = c ∧ c ∈ (s.pool p).list := by
  simp only [PoolRefs.same] at hs
  have h1 := List.mem_of_find?_eq_some hs
  have h2 := List.find?_some hs
  have := h.nums d c ((h.lists p).2 d h1) hc (by simpa using h2)
  subst this
  exact ⟨rfl, h1⟩

theorem aux_pr_count (l : List Nat) (h : l.Nodup) (c : Nat) : l.count c = if c ∈ l then 1 else 0 := by
  split
  · next hc =>
    have h1 := List.nodup_iff_count.1 h c
    have h2 := List.count_pos_iff.2 hc
    omega
  · next hc => exact List.count_eq_zero.2 hc

theorem aux_pr_erase (l : List Nat) (h : l.Nodup) (c k : Nat) (hc : c ∈ l) :
    l.count k = (if k = c then 1 else 0) + (l.erase c).count k := by
  by_cases hk : k = c
  · subst hk
    rw [List.count_erase_self, aux_pr_count l h]
    simp [hc]
  · rw [List.count_erase_of_ne (by simpa using hk)]
    simp [hk]

theorem aux_pr_live (s : PoolRefs) (h : aux_pr_inv s (fun _ => 0)) (c : Nat) (hr : 0 < (s.chan c).refs) : c < s.chans := by
  apply Classical.byContradiction
  intro hc
  have := (h.fresh c (by omega)).1
  omega

theorem aux_pr_step (s : PoolRefs) (op : PoolRefsOp) (h : aux_pr_inv s (fun _ => 0)) (ho : poolPlainOp s op) :
    ∃ s', s.step op = .ok s' ∧ aux_pr_inv s' (fun _ => 0) := by
  have hptr0 : ∀ c p, (s.chan c).pool = some p → (s.pool p).alive = true ∧ c ∈ (s.pool p).list := fun c p hp => by
    rcases h.ptr c p hp with h | h
    · exact h
    · simp at h
  have hheld0 : ∀ c, s.chans ≤ c → poolHeld s c = 0 := by
    intro c hc
    have h1 := h.refs c
    have h2 := h.fresh c hc
    simp only [poolHolders, h2.1, h2.2.2.1, h2.2.2.2] at h1
    simp at h1
    omega
  cases op with
  | newPool =>
    refine ⟨_, rfl, ?_⟩
    obtain ⟨h1, h2, h3, h4, h5, h6, h7⟩ := h
    have hd := h5 s.pools (Nat.le_refl _)
    have hl := h4 _ hd
    refine ⟨h1, h2, ?_, ?_, ?_, ?_, ?_⟩
    · intro p
      simp only [PoolRefs.setP]
      split
      · simp
      · exact h3 p
    · intro p
      simp only [PoolRefs.setP]
      split
      · simp
      · exact h4 p
    · intro p hp
      simp only [PoolRefs.setP] at hp ⊢
      rw [if_neg (by omega)]
      exact h5 p (by omega)
    · intro c p hp
      left
      have := hptr0 c p hp
      simp only [PoolRefs.setP]
      split
      · next e => subst e; rw [hd] at this; simp at this
      · exact this
    · intro c
      have h7c := h7 c
      have e : poolHeld { s.setP s.pools ⟨true, []⟩ with pools := s.pools + 1 } c = poolHeld s c := by
        simp only [poolHeld, PoolRefs.setP, List.range_succ, List.map_append, List.map_cons, List.map_nil, List.sum_append, List.sum_cons,
          List.sum_nil, if_true, List.count_nil, Nat.add_zero]
        congr 1
        apply List.map_congr_left
        intro k hk
        have := List.mem_range.1 hk
        rw [if_neg (by omega)]
      have e2 : poolHolders { s.setP s.pools ⟨true, []⟩ with pools := s.pools + 1 } c = poolHolders s c := by
        show (if (s.chan c).inTable then 1 else 0) + (s.chan c).user + _ = _
        rw [e]
        rfl
      rw [e2]
      exact h7c
  | make num =>
    simp only [PoolRefs.step]
    split
    · refine ⟨_, rfl, ?_⟩
      obtain ⟨h1, h2, h3, h4, h5, h6, h7⟩ := h
      refine ⟨?_, ?_, ?_, h4, h5, ?_, ?_⟩
      · intro c hc
        simp only [PoolRefs.setC] at hc ⊢
        rw [if_neg (by omega)]
        exact h1 c (by omega)
      · intro c d hc hd hcd
        simp only [PoolRefs.setC] at hc hd hcd
        have ho' := ho
        simp only [poolPlainOp] at ho'
        split at hcd <;> split at hcd
        · omega
        · exact absurd hcd.symm (ho' d (by omega))
        · exact absurd hcd (ho' c (by omega))
        · exact h2 c d (by omega) (by omega) hcd
      · intro p
        refine ⟨(h3 p).1, fun c hc => ?_⟩
        have := (h3 p).2 c hc
        simp only [PoolRefs.setC]
        omega
      · intro c p hp
        simp only [PoolRefs.setC] at hp
        split at hp
        · cases hp
        · exact h6 c p hp
      · intro c
        have h7c := h7 c
        simp only [poolHolders, PoolRefs.setC] at h7c ⊢
        have hh := hheld0 c
        simp only [poolHeld] at h7c hh ⊢
        split
        · next e => subst e; simp [hh (Nat.le_refl _)]
        · exact h7c
    · exact ⟨s, rfl, h⟩
  | add p num =>
    simp only [PoolRefs.step]
    split
    · next hal =>
      have hp := aux_pr_alive s _ h p hal.2
      refine ⟨_, rfl, ?_⟩
      have hnot : s.chans ∉ (s.pool p).list := fun hm => by have := (h.lists p).2 _ hm; omega
      have hset : ∀ k, ((s.setC s.chans ⟨num, 2, some p, true, 0⟩).setP p { s.pool p with list := (s.pool p).list ++ [s.chans] }).pool k =
          if k = p then { s.pool p with list := (s.pool p).list ++ [s.chans] } else s.pool k := fun k => rfl
      have hcs : ∀ k, ((s.setC s.chans ⟨num, 2, some p, true, 0⟩).setP p { s.pool p with list := (s.pool p).list ++ [s.chans] }).chan k =
          if k = s.chans then ⟨num, 2, some p, true, 0⟩ else s.chan k := fun k => rfl
      have hheld : ∀ k, poolHeld (s.setP p { s.pool p with list := (s.pool p).list ++ [s.chans] }) k = poolHeld s k + (if k = s.chans then 1 else 0) := by
        intro k
        have this : poolHeld (s.setP p { s.pool p with list := (s.pool p).list ++ [s.chans] }) k + (s.pool p).list.count k =
            poolHeld s k + ((s.pool p).list ++ [s.chans]).count k :=
          aux_pr_held_setP s p { s.pool p with list := (s.pool p).list ++ [s.chans] } hp k
        rw [List.count_append] at this
        have hcc : [s.chans].count k = if k = s.chans then 1 else 0 := by
          by_cases hk : k = s.chans
          · subst hk; simp
          · simp [List.count_cons, hk, Ne.symm hk]
        rw [hcc] at this
        omega
      obtain ⟨h1, h2, h3, h4, h5, h6, h7⟩ := h
      refine ⟨?_, ?_, ?_, ?_, ?_, ?_, ?_⟩
      · intro c hc
        simp only [hcs] at hc ⊢
        rw [if_neg (by omega)]
        exact h1 c (by omega)
      · intro c d hc hd hcd
        simp only [hcs] at hc hd hcd
        have ho' := ho
        simp only [poolPlainOp] at ho'
        split at hcd <;> split at hcd
        · omega
        · exact absurd hcd.symm (ho' d (by omega))
        · exact absurd hcd (ho' c (by omega))
        · exact h2 c d (by omega) (by omega) hcd
      · intro q
        simp only [hset]
        split
        · refine ⟨?_, fun c hc => ?_⟩
          · rw [List.nodup_append]
            refine ⟨(h3 p).1, by simp, fun a ha b hb => ?_⟩
            simp only [List.mem_singleton] at hb
            rw [hb]
            exact fun e => hnot (e ▸ ha)
          · simp only [List.mem_append, List.mem_singleton] at hc
            rcases hc with hc | rfl
            · have := (h3 p).2 c hc; omega
            · omega
        · refine ⟨(h3 q).1, fun c hc => ?_⟩
          have := (h3 q).2 c hc
          omega
      · intro q
        simp only [hset]
        split
        · simp [hal.2]
        · exact h4 q
      · intro q hq
        simp only [hset]
        have hq' : s.pools ≤ q := hq
        rw [if_neg (by omega)]
        exact h5 q hq'
      · intro c q hq
        left
        simp only [hcs] at hq
        simp only [hset]
        split at hq
        · next e => cases hq; simp [e, hal.2]
        · have := hptr0 c q hq
          split
          · next e => subst e; exact ⟨this.1, List.mem_append_left _ this.2⟩
          · exact this
      · intro c
        have h7c := h7 c
        have e : poolHolders { (s.setC s.chans ⟨num, 2, some p, true, 0⟩).setP p { s.pool p with list := (s.pool p).list ++ [s.chans] } with chans := s.chans + 1 } c =
            (if (if c = s.chans then ⟨num, 2, some p, true, 0⟩ else s.chan c : PoolChan).inTable then 1 else 0) +
            (if c = s.chans then ⟨num, 2, some p, true, 0⟩ else s.chan c : PoolChan).user + (poolHeld s c + (if c = s.chans then 1 else 0)) := by
          rw [← hheld c]
          rfl
        rw [e]
        simp only [hcs]
        have := hheld0 c
        by_cases hc : c = s.chans
        · simp only [hc, if_true]; rw [hheld0 _ (Nat.le_refl _)]; rfl
        · simp only [hc, if_false]; exact h7c
    · exact ⟨s, rfl, h⟩
  | attach p c =>
    simp only [PoolRefs.step]
    split
    · next hal =>
      refine ⟨_, rfl, ?_⟩
      have hp := aux_pr_alive s _ h p hal.1
      have hc := aux_pr_live s h c hal.2.1
      have hnot : c ∉ (s.pool p).list := fun hm => by
        have := hal.2.2
        simp only [PoolRefs.same, List.find?_eq_none] at this
        exact this c hm (by simp)
      have h0 := h.refs c
      simp only [poolHolders] at h0
      have i1 : aux_pr_inv (s.setC c { s.chan c with refs := (s.chan c).refs + 1 }) (fun k => if k = c then 1 else 0) := by
        refine aux_pr_setC s _ _ c _ h hc rfl (fun k e => by simp [e]) (fun p hp => .inl (hptr0 c p hp)) ?_
        simp only [if_true]
        rw [h0]
        split <;> simp <;> omega
      refine aux_pr_setP _ _ _ p _ i1 hp ?_ ?_ ?_ ?_ ?_
      · refine ⟨?_, fun d hd => ?_⟩
        · rw [List.nodup_append]
          refine ⟨(h.lists p).1, by simp, fun a ha b hb => ?_⟩
          simp only [List.mem_singleton] at hb
          rw [hb]
          exact fun e => hnot (e ▸ ha)
        · simp only [List.mem_append, List.mem_singleton] at hd
          rcases hd with hd | rfl
          · exact (h.lists p).2 d hd
          · exact hc
      · intro ha
        rw [hal.1] at ha
        cases ha
      · intro d hd
        left
        have : (s.chan d).pool = some p := by
          simp only [PoolRefs.setC] at hd
          split at hd
          · next e => rw [e]; exact hd
          · exact hd
        exact ⟨hal.1, List.mem_append_left _ (hptr0 d p this).2⟩
      · intro d
        right
        intro q hq
        right
        refine hptr0 d q ?_
        simp only [PoolRefs.setC] at hq
        split at hq
        · next e => rw [e]; exact hq
        · exact hq
      · intro d
        show (if d = c then 1 else 0) + (s.pool p).list.count d = 0 + ((s.pool p).list ++ [c]).count d
        rw [List.count_append]
        by_cases hd : d = c
        · subst hd; simp; omega
        · simp [List.count_cons, hd, Ne.symm hd]
    · exact ⟨s, rfl, h⟩
  | deattach p c =>
    simp only [PoolRefs.step]
    split
    · next hal =>
      cases hs : s.same p c with
      | none => exact ⟨s, rfl, h⟩
      | some d =>
        have hc := aux_pr_live s h c hal.2
        have hp := aux_pr_alive s _ h p hal.1
        obtain ⟨rfl, hm⟩ := aux_pr_same s _ h p c d hc hs
        simp only [poolPlainOp] at ho
        -- first the list, then the reference
        have i1 : aux_pr_inv (s.setP p { s.pool p with list := (s.pool p).list.erase d }) (fun k => if k = d then 1 else 0) := by
          refine aux_pr_setP s _ _ p _ h hp ⟨(h.lists p).1.erase d, fun k hk => (h.lists p).2 k (List.mem_of_mem_erase hk)⟩ ?_ ?_ ?_ ?_
          · intro ha; rw [hal.1] at ha; cases ha
          · intro k hk
            by_cases hkd : k = d
            · subst hkd; exact absurd hk ho
            · left
              refine ⟨hal.1, ?_⟩
              exact (List.mem_erase_of_ne hkd).2 (hptr0 k p hk).2
          · intro k; left; simp
          · intro k
            have := aux_pr_erase (s.pool p).list (h.lists p).1 d k hm
            simp only
            omega
        have hpp : ∀ q, ((s.setP p { s.pool p with list := (s.pool p).list.erase d }).chan d).pool = some q →
            ((s.setP p { s.pool p with list := (s.pool p).list.erase d }).pool q).alive = true ∧
            d ∈ ((s.setP p { s.pool p with list := (s.pool p).list.erase d }).pool q).list := by
          intro q hq
          have hq' : (s.chan d).pool = some q := hq
          have hqp : q ≠ p := fun e => ho (e ▸ hq')
          simp only [PoolRefs.setP, hqp, if_false]
          exact hptr0 d q hq'
        have i2 := aux_pr_unref _ _ true d i1 (by simp) hc hpp
        have hun : s.unref true d = .ok (s.setC d { s.chan d with refs := (s.chan d).refs - 1 }) := by
          simp only [PoolRefs.unref]
          split
          · next h0 =>
            simp only [PoolRefs.setC, if_true] at h0
            simp only [PoolRefs.free, PoolRefs.setC, if_true]
            cases hpool : (s.chan d).pool with
            | none => rfl
            | some q =>
              have hin := hpp q hpool
              have h1 := aux_pr_held_pos _ q d (aux_pr_alive _ _ i1 q hin.1) hin.2
              have h2 : poolHeld (s.setP p { s.pool p with list := (s.pool p).list.erase d }) d + (s.pool p).list.count d =
                  poolHeld s d + ((s.pool p).list.erase d).count d :=
                aux_pr_held_setP s p { s.pool p with list := (s.pool p).list.erase d } hp d
              have h3 := aux_pr_erase (s.pool p).list (h.lists p).1 d d hm
              have h4 := h.refs d
              simp only [poolHolders] at h4
              simp only [if_true] at h3
              omega
          · rfl
        simp only
        rw [hun]
        refine ⟨_, rfl, ?_⟩
        have he : (fun k => if k = d then (if d = d then 1 else 0) - 1 else if k = d then 1 else 0) = (fun _ : Nat => 0) := by
          funext k
          by_cases hk : k = d <;> simp [hk]
        have := i2.2
        rw [he] at this
        exact this
    · exact ⟨s, rfl, h⟩
  | remove p c =>
    simp only [PoolRefs.step]
    split
    · next hal =>
      have hp := aux_pr_alive s _ h p hal.1
      have hc := (h.lists p).2 c hal.2
      have i1 : aux_pr_inv (s.setP p { s.pool p with list := (s.pool p).list.erase c }) (fun k => if k = c then 1 else 0) := by
        refine aux_pr_setP s _ _ p _ h hp ⟨(h.lists p).1.erase c, fun k hk => (h.lists p).2 k (List.mem_of_mem_erase hk)⟩ ?_ ?_ ?_ ?_
        · intro ha; rw [hal.1] at ha; cases ha
        · intro k hk
          by_cases hkc : k = c
          · right; simp [hkc]
          · left
            exact ⟨hal.1, (List.mem_erase_of_ne hkc).2 (hptr0 k p hk).2⟩
        · intro k; left; simp
        · intro k
          have := aux_pr_erase (s.pool p).list (h.lists p).1 c k hal.2
          simp only
          omega
      obtain ⟨s2, e2, i2, _⟩ := aux_pr_letGo _ _ true c i1 (by simp) hc
      refine ⟨s2, e2, ?_⟩
      have he : (fun k => if k = c then (if c = c then 1 else 0) - 1 else if k = c then 1 else 0) = (fun _ : Nat => 0) := by
        funext k
        by_cases hk : k = c <;> simp [hk]
      rw [he] at i2
      exact i2
    · exact ⟨s, rfl, h⟩
  | closePool p ready =>
    simp only [PoolRefs.step]
    split
    · next hal =>
      have hp := aux_pr_alive s _ h p hal
      have hnd := (h.lists p).1
      have hlt := (h.lists p).2
      have i1 : aux_pr_inv (s.setP p { s.pool p with list := [] }) (fun k => if k ∈ (s.pool p).list then 1 else 0) := by
        refine aux_pr_setP s _ _ p _ h hp ⟨by simp, by simp⟩ (fun _ => rfl) ?_ ?_ ?_
        · intro k hk
          right
          simp [(hptr0 k p hk).2]
        · intro k; left; simp
        · intro k
          rw [aux_pr_count _ hnd]
          simp
      obtain ⟨s2, e2, i2, p2, n2, c2⟩ := aux_pr_letGoAll true ((s.pool p).list.filter (· ∈ ready)) _ _ i1 (hnd.filter _) (fun c hc => by
        have := (List.mem_filter.1 hc).1
        exact ⟨by simp [this], hlt c this⟩)
      obtain ⟨s3, e3, i3, p3, n3, c3⟩ := aux_pr_letGoAll false ((s.pool p).list.filter (· ∉ ready)) _ _ i2 (hnd.filter _) (fun c hc => by
        have h1 := List.mem_filter.1 hc
        have h2 : c ∉ ready := by simpa using h1.2
        refine ⟨by simp [h1.1, h2], ?_⟩
        rw [c2]
        exact hlt c h1.1)
      simp only [e2, e3]
      refine ⟨_, rfl, ?_⟩
      have he : (fun k => if k ∈ (s.pool p).list.filter (· ∉ ready) then
            (if k ∈ (s.pool p).list.filter (· ∈ ready) then (if k ∈ (s.pool p).list then 1 else 0) - 1 else if k ∈ (s.pool p).list then 1 else 0) - 1
          else if k ∈ (s.pool p).list.filter (· ∈ ready) then (if k ∈ (s.pool p).list then 1 else 0) - 1 else if k ∈ (s.pool p).list then 1 else 0) =
          (fun _ : Nat => 0) := by
        funext k
        by_cases hk : k ∈ (s.pool p).list <;> by_cases hr : k ∈ ready <;> simp [hk, hr]
      rw [he] at i3
      have hlist : (s3.pool p).list = [] := by
        rw [p3, p2]
        simp [PoolRefs.setP]
      refine aux_pr_setP s3 _ _ p _ i3 (by rw [n3, n2]; exact hp) ⟨by simp, by simp⟩ (fun _ => rfl) ?_ (fun k => .inl (Nat.le_refl _)) ?_
      · intro k hk
        rcases i3.ptr k p hk with h | h
        · rw [hlist] at h; simp at h
        · simp at h
      · intro k
        rw [hlist]
    · exact ⟨s, rfl, h⟩
  | close c =>
    obtain ⟨s2, e2, i2, _⟩ := aux_pr_leave s _ false c h (hptr0 c)
    exact ⟨s2, e2, i2⟩
  | ref c =>
    simp only [PoolRefs.step]
    split
    · next hr =>
      have hc := aux_pr_live s h c hr
      have h0 := h.refs c
      simp only [poolHolders] at h0
      refine ⟨_, rfl, ?_⟩
      refine aux_pr_setC s _ _ c _ h hc rfl (fun _ _ => rfl) (fun p hp => .inl (hptr0 c p hp)) ?_
      simp only
      rw [h0]
      split <;> simp <;> omega
    · exact ⟨s, rfl, h⟩
  | unref c =>
    simp only [PoolRefs.step]
    split
    · next hu =>
      have hc : c < s.chans := by
        apply Classical.byContradiction
        intro hc
        have := (h.fresh c (by omega)).2.2.2
        omega
      have h0 := h.refs c
      simp only [poolHolders] at h0
      have i1 : aux_pr_inv (s.setC c { s.chan c with user := (s.chan c).user - 1 }) (fun k => if k = c then 1 else 0) := by
        refine aux_pr_setC s _ _ c _ h hc rfl (fun k e => by simp [e]) (fun p hp => .inl (hptr0 c p hp)) ?_
        simp only [if_true]
        rw [h0]
        split <;> simp <;> omega
      have i2 := aux_pr_unref _ _ false c i1 (by simp) hc (by simpa [PoolRefs.setC] using hptr0 c)
      refine ⟨_, i2.1, ?_⟩
      have he : (fun k => if k = c then (if c = c then 1 else 0) - 1 else if k = c then 1 else 0) = (fun _ : Nat => 0) := by
        funext k
        by_cases hk : k = c <;> simp [hk]
      have := i2.2
      rw [he] at this
      exact this
    · exact ⟨s, rfl, h⟩

theorem aux_pr_run (ops : List PoolRefsOp) : ∀ s, aux_pr_inv s (fun _ => 0) → poolPlain s ops → ∃ s', s.run ops = .ok s' ∧ aux_pr_inv s' (fun _ => 0) := by
  induction ops with
  | nil => intro s h _; exact ⟨s, rfl, h⟩
  | cons op rest ih =>
    intro s h hp
    obtain ⟨s1, e1, i1⟩ := aux_pr_step s op h hp.1
    obtain ⟨s2, e2, i2⟩ := ih s1 i1 (hp.2 s1 e1)
    exact ⟨s2, by simp only [PoolRefs.run, e1]; exact e2, i2⟩

theorem aux_pr_inv_init : aux_pr_inv PoolRefs.init (fun _ => 0) := by
  refine ⟨?_, ?_, ?_, ?_, ?_, ?_, ?_⟩ <;> simp [PoolRefs.init, poolHolders, poolHeld]

/-- C90: if channel numbers are not used again and no pool is asked to give away a channel it created, no call blocks or uses a released pool,
every channel has exactly as many references as there are holders, and a channel that points to a pool is in that pool. Missing: the
calls of `vortex_channel_pool_deattach` for the pool that created the channel, and numbers used again. -/
theorem C90_partial (ops : List PoolRefsOp) (h : poolPlain PoolRefs.init ops) :
    ∃ s, PoolRefs.init.run ops = .ok s ∧ (∀ c, (s.chan c).refs = poolHolders s c) ∧
      (∀ c p, (s.chan c).pool = some p → (s.pool p).alive = true ∧ c ∈ (s.pool p).list) := by
  obtain ⟨s, e, i⟩ := aux_pr_run ops _ aux_pr_inv_init h
  refine ⟨s, e, fun c => by simpa using i.refs c, fun c p hp => ?_⟩
  rcases i.ptr c p hp with h | h
  · exact h
  · simp at h

/-- Two pools share a channel of the application; one of the pools is closed. -/
example : poolPlain PoolRefs.init [.newPool, .add 0 3, .make 5, .newPool, .attach 0 1, .attach 1 1, .ref 0, .deattach 1 1, .close 1,
    .remove 0 1, .closePool 0 [0], .unref 0] := by
  simp [poolPlain, poolPlainOp, PoolRefs.init, PoolRefs.step, PoolRefs.setP, PoolRefs.setC, PoolRefs.unused, PoolRefs.same, PoolRefs.leave,
    PoolRefs.unref, PoolRefs.letGo, PoolRefs.letGoAll, PoolRefs.free]

end Verif.Props
