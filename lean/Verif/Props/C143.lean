import Verif.Spec.PyPools
/-!
# C143: channel pools of the Python bindings
-/
namespace Verif.Props
open Verif.Model Verif.Spec

theorem aux_yp_run (ops : List PypOp) (op : PypOp) : pypRun (ops ++ [op]) = pypStep (pypRun ops) op := by
  simp [pypRun, List.foldl_append]

theorem aux_yp_snoc {P : List PypOp → Prop} (h0 : P []) (h1 : ∀ l a, P l → P (l ++ [a])) (l : List PypOp) : P l := by
  have : ∀ r : List PypOp, P r.reverse := by
    intro r
    induction r with
    | nil => exact h0
    | cons a r ih => rw [List.reverse_cons]; exact h1 _ _ ih
  simpa using this l.reverse

theorem aux_yp_alive (l : List PypObj) : ∀ (o : Nat) (x y : PypObj), l[o]? = some x → 
    ((l.set o y).filter (·.alive)).length + (if x.alive then 1 else 0) = (l.filter (·.alive)).length + (if y.alive then 1 else 0) := by
  induction l with
  | nil => intro o x y h; simp at h
  | cons a r ih =>
    intro o x y h
    cases o with
    | zero => simp at h; subst h; simp only [List.set_cons_zero, List.filter_cons]; split <;> split <;> simp
    | succ o =>
      simp at h
      have := ih o x y h
      simp only [List.set_cons_succ, List.filter_cons]
      split
      · simp only [List.length_cons]; omega
      · exact this

/-- What holds in every state. -/
structure aux_yp_inv (s : PypState) : Prop where
  kept : s.refs = PypObjects s
  rel : PypReleased s
  first : ∀ (p : Nat) (q : PypPool), s.pools[p]? = some q → ∃ z, s.objs[q.first]? = some z ∧ z.handler = q.handler
  pend : ∀ (o : Nat) (x : PypObj), s.objs[o]? = some x → x.pending = true → x.alive = true ∧ x.pool = none
  pool : ∀ (o : Nat) (x : PypObj), s.objs[o]? = some x → x.pending = false → ∃ p, x.pool = some p ∧ p < s.pools.length

theorem aux_yp_channel (s : PypState) (p : PypPool) (x : Option Nat) :
    ∃ c b, pypChannel s p x = { s with calls := c, bad := b } := by
  unfold pypChannel
  split
  · exact ⟨s.calls, s.bad, rfl⟩
  · split
    · exact ⟨s.calls, true, rfl⟩
    · split
      · split
        · exact ⟨_, s.bad, rfl⟩
        · exact ⟨s.calls, s.bad, rfl⟩
      · exact ⟨s.calls, true, rfl⟩

theorem aux_yp_channels (n : Nat) (p : PypPool) : ∀ s : PypState, ∃ c b, pypChannels s p n = { s with calls := c, bad := b } := by
  induction n with
  | zero => intro s; exact ⟨s.calls, s.bad, rfl⟩
  | succ n ih =>
    intro s
    obtain ⟨c, b, e⟩ := aux_yp_channel s p none
    obtain ⟨c', b', e'⟩ := ih { s with calls := c, bad := b }
    refine ⟨c', b', ?_⟩
    rw [pypChannels, e, e']

theorem aux_yp_same (s : PypState) (c : List (Nat × Option Nat)) (b : Bool) (h : aux_yp_inv s) : aux_yp_inv { s with calls := c, bad := b } :=
  ⟨h.kept, h.rel, h.first, h.pend, h.pool⟩

theorem aux_yp_append (s : PypState) (x : PypObj) (hx : x.alive = true) (hs : s.session = true) (h : aux_yp_inv s) (ps : List PypPool)
    (hp : x.pending = true → x.pool = none) (hq : x.pending = false → ∃ p, x.pool = some p ∧ p < (s.pools ++ ps).length)
    (hf : ∀ q ∈ ps, q.first = s.objs.length ∧ q.handler = x.handler) :
    aux_yp_inv { s with objs := s.objs ++ [x], refs := s.refs + 1, pools := s.pools ++ ps } := by
  have hr := h.rel
  unfold PypReleased at hr
  rw [if_neg (by simp [hs])] at hr
  refine ⟨?_, ?_, ?_, ?_, ?_⟩
  · have := h.kept
    simp only [PypObjects, List.filter_append, List.length_append] at this ⊢
    simp [hx, this]
  · unfold PypReleased; simp [hs, hr]
  · intro p q hpq
    rw [List.getElem?_append] at hpq
    split at hpq
    · obtain ⟨z, hz, e⟩ := h.first p q hpq
      have hlt : q.first < s.objs.length := by
        by_cases hl : q.first < s.objs.length
        · exact hl
        · rw [List.getElem?_eq_none (by omega)] at hz; cases hz
      exact ⟨z, by dsimp only; rw [List.getElem?_append_left hlt]; exact hz, e⟩
    · obtain ⟨e1, e2⟩ := hf q (List.mem_of_getElem? hpq)
      exact ⟨x, by simp [e1], e2.symm⟩
  · intro o y hy hpend
    dsimp only at hy
    rw [List.getElem?_append] at hy
    split at hy
    · exact h.pend o y hy hpend
    · have := List.mem_of_getElem? hy
      simp at this; subst this
      exact ⟨hx, hp hpend⟩
  · intro o y hy hpend
    dsimp only at hy
    rw [List.getElem?_append] at hy
    split at hy
    · obtain ⟨p, e, l⟩ := h.pool o y hy hpend
      exact ⟨p, e, by simp; omega⟩
    · have := List.mem_of_getElem? hy
      simp at this; subst this
      exact hq hpend

theorem aux_yp_collect (s : PypState) (o : Nat) (x : PypObj) (h : aux_yp_inv s) (hx : s.objs[o]? = some x) (ha : x.alive = true) (hp : x.pending = false) :
    aux_yp_inv (pypCollect s o x) ∧ (pypCollect s o x).bad = s.bad := by
  obtain ⟨p, e, l⟩ := h.pool o x hx hp
  obtain ⟨xp, xh, xa, xn⟩ := x
  dsimp only at e ha hp
  subst e ha hp
  have hc := aux_yp_alive s.objs o ⟨some p, xh, true, false⟩ ⟨some p, xh, false, false⟩ hx
  simp only [ if_true, Bool.false_eq_true, if_false] at hc
  have hk := h.kept
  unfold PypObjects at hk
  have h0 : s.refs ≠ 0 := by omega
  have hlt : o < s.objs.length := by
    by_cases hl : o < s.objs.length
    · exact hl
    · rw [List.getElem?_eq_none (by omega)] at hx; cases hx
  have hset : ∀ a, (s.objs.set o a)[o]? = some a := fun a => by rw [List.getElem?_set_self hlt]
  have hr := h.rel
  unfold PypReleased at hr
  have hne : ¬ (s.session = false ∧ PypObjects s = 0) := by unfold PypObjects; omega
  rw [if_neg hne] at hr
  have base : (∀ (r : Nat) (q : PypPool), s.pools[r]? = some q → ∃ z, (s.objs.set o ⟨some p, xh, false, false⟩)[q.first]? = some z ∧ z.handler = q.handler) ∧
      (∀ (i : Nat) (y : PypObj), (s.objs.set o ⟨some p, xh, false, false⟩)[i]? = some y → y.pending = true → y.alive = true ∧ y.pool = none) ∧
      (∀ (i : Nat) (y : PypObj), (s.objs.set o ⟨some p, xh, false, false⟩)[i]? = some y → y.pending = false → ∃ p, y.pool = some p ∧ p < s.pools.length) := by
    refine ⟨?_, ?_, ?_⟩
    · intro r q hq
      obtain ⟨z, hz, ez⟩ := h.first r q hq
      by_cases hi : q.first = o
      · rw [hi] at hz ⊢; rw [hset]; rw [hx] at hz; injection hz with hz; exact ⟨_, rfl, by rw [← ez, ← hz]⟩
      · rw [List.getElem?_set_ne (Ne.symm hi)]; exact ⟨z, hz, ez⟩
    · intro i y hy hpy
      by_cases hi : i = o
      · rw [hi, hset] at hy; injection hy with hy; subst hy; cases hpy
      · rw [List.getElem?_set_ne (Ne.symm hi)] at hy; exact h.pend i y hy hpy
    · intro i y hy hpy
      by_cases hi : i = o
      · rw [hi, hset] at hy; injection hy with hy; subst hy; exact ⟨p, rfl, l⟩
      · rw [List.getElem?_set_ne (Ne.symm hi)] at hy; exact h.pool i y hy hpy
  simp only [pypCollect, if_neg h0]
  unfold pypFree
  split
  · rename_i hz
    dsimp only at hz
    refine ⟨⟨?_, ?_, fun p q hq => base.1 p q hq, fun i y hy => base.2.1 i y hy, fun i y hy => base.2.2 i y hy⟩, rfl⟩
    · show s.refs - 1 = PypObjects _
      unfold PypObjects; dsimp only; omega
    · unfold PypReleased PypObjects
      dsimp only
      rw [if_pos ⟨hz.2, by omega⟩, hr]; simp
  · rename_i hz
    dsimp only at hz
    refine ⟨⟨?_, ?_, fun p q hq => base.1 p q hq, fun i y hy => base.2.1 i y hy, fun i y hy => base.2.2 i y hy⟩, rfl⟩
    · show s.refs - 1 = PypObjects _
      unfold PypObjects; dsimp only; omega
    · unfold PypReleased PypObjects
      dsimp only
      rw [if_neg (fun hh => hz ⟨by omega, hh.1⟩), hr]

theorem aux_yp_step (s : PypState) (op : PypOp) (h : aux_yp_inv s) : aux_yp_inv (pypStep s op) := by
  cases op with
  | make a n =>
    simp only [pypStep]
    split
    · rename_i hs
      have hi := aux_yp_append s ⟨some s.pools.length, a, true, false⟩ rfl hs h [⟨s.objs.length, a⟩] (by simp) (by simp) (by simp)
      obtain ⟨c, b, e⟩ := aux_yp_channels n ⟨(s.objs ++ [(⟨some s.pools.length, a, true, false⟩ : PypObj)]).length - 1, a⟩
        { s with objs := s.objs ++ [⟨some s.pools.length, a, true, false⟩], refs := s.refs + 1, pools := s.pools ++ [⟨s.objs.length, a⟩] }
      rw [e]; exact aux_yp_same _ _ _ hi
    · exact h
  | start a =>
    simp only [pypStep]
    split
    · rename_i hs
      have hi := aux_yp_append s ⟨none, a, true, true⟩ rfl hs h [] (by simp) (by simp) (by simp)
      simpa using hi
    · exact h
  | made o n kept =>
    simp only [pypStep]
    split
    · exact h
    · rename_i x hx
      split
      · rename_i hp
        obtain ⟨c, b, e⟩ := aux_yp_channels n ⟨o, x.handler⟩ s
        rw [e]
        dsimp only
        obtain ⟨ha, hnone⟩ := h.pend o x hx hp
        have hlt : o < s.objs.length := by
          by_cases hl : o < s.objs.length
          · exact hl
          · rw [List.getElem?_eq_none (by omega)] at hx; cases hx
        have hset : ∀ a, (s.objs.set o a)[o]? = some a := fun a => by rw [List.getElem?_set_self hlt]
        have hc := aux_yp_alive s.objs o x { x with pool := some s.pools.length, pending := false } hx
        dsimp only at hc
        have hk := h.kept
        have hr := h.rel
        unfold PypObjects at hk
        have hpos : (s.objs.filter (·.alive)).length ≠ 0 := by
          intro h0
          have h1 : s.objs.filter (·.alive) = [] := List.length_eq_zero_iff.1 h0
          have : x ∈ s.objs.filter (·.alive) := List.mem_filter.2 ⟨List.mem_of_getElem? hx, ha⟩
          rw [h1] at this; cases this
        have hi : aux_yp_inv { s with calls := c, bad := b, pools := s.pools ++ [⟨o, x.handler⟩], objs := s.objs.set o { x with pool := some s.pools.length, pending := false } } := by
          refine ⟨?_, ?_, ?_, ?_, ?_⟩
          · unfold PypObjects; dsimp only; omega
          · unfold PypReleased PypObjects at hr ⊢
            dsimp only
            rw [if_neg (by omega)] at hr
            rw [if_neg (by omega), hr]
          · intro p q hq
            dsimp only at hq ⊢
            rw [List.getElem?_append] at hq
            split at hq
            · obtain ⟨z, hz, ez⟩ := h.first p q hq
              by_cases hi : q.first = o
              · rw [hi] at hz ⊢; rw [hset]; rw [hx] at hz; injection hz with hz; exact ⟨_, rfl, by rw [← ez, ← hz]⟩
              · rw [List.getElem?_set_ne (Ne.symm hi)]; exact ⟨z, hz, ez⟩
            · have := List.mem_of_getElem? hq
              simp at this; subst this
              exact ⟨_, hset _, rfl⟩
          · intro i y hy hpy
            dsimp only at hy
            by_cases hi : i = o
            · rw [hi, hset] at hy; injection hy with hy; subst hy; simp at hpy
            · rw [List.getElem?_set_ne (Ne.symm hi)] at hy; exact h.pend i y hy hpy
          · intro i y hy hpy
            dsimp only at hy
            by_cases hi : i = o
            · rw [hi, hset] at hy; injection hy with hy; subst hy; exact ⟨s.pools.length, rfl, by simp⟩
            · rw [List.getElem?_set_ne (Ne.symm hi)] at hy
              obtain ⟨p, e, l⟩ := h.pool i y hy hpy
              exact ⟨p, e, by simp; omega⟩
        split
        · exact hi
        · exact (aux_yp_collect _ o _ hi (hset _) ha rfl).1
      · exact h
  | find p =>
    simp only [pypStep]
    split
    · exact h
    · rename_i q hq
      split
      · rename_i hs
        have hlt : p < s.pools.length := by
          by_cases hl : p < s.pools.length
          · exact hl
          · rw [List.getElem?_eq_none (by omega)] at hq; cases hq
        have hi := aux_yp_append s ⟨some p, q.handler, true, false⟩ rfl hs h [] (by simp) (by simp [hlt]) (by simp)
        simpa using hi
      · exact h
  | collect o =>
    simp only [pypStep]
    split
    · exact h
    · rename_i x hx
      split
      · rename_i hh; exact (aux_yp_collect s o x h hx hh.1 hh.2).1
      · exact h
  | next o ready auto x =>
    simp only [pypStep]
    split
    · exact h
    · split
      · exact h
      · split
        · exact h
        · split
          · rename_i q _ _
            obtain ⟨c, b, e⟩ := aux_yp_channel s q x
            rw [e]; exact aux_yp_same _ _ _ h
          · exact h
  | leave locked =>
    simp only [pypStep]
    split
    · rename_i hs
      have hr := h.rel
      unfold PypReleased at hr
      rw [if_neg (by simp [hs])] at hr
      have hk := h.kept
      unfold pypFree
      split
      · rename_i hz
        refine ⟨h.kept, ?_, h.first, h.pend, h.pool⟩
        unfold PypReleased
        dsimp only at hz ⊢
        rw [if_pos ⟨rfl, by unfold PypObjects at hk ⊢; dsimp only; omega⟩, hr]; simp
      · rename_i hz
        refine ⟨h.kept, ?_, h.first, h.pend, h.pool⟩
        unfold PypReleased
        dsimp only at hz ⊢
        rw [if_neg (fun hh => hz ⟨by have := hh.2; unfold PypObjects at hk this; dsimp only at this; omega, rfl⟩), hr]
    · exact h

theorem aux_yp_runInv (ops : List PypOp) : aux_yp_inv (pypRun ops) := by
  induction ops using aux_yp_snoc with
  | h0 => exact ⟨rfl, rfl, fun p q h => (by simp [pypRun] at h), fun o x h => (by simp [pypRun] at h), fun o x h => (by simp [pypRun] at h)⟩
  | h1 l a ih => rw [aux_yp_run]; exact aux_yp_step _ _ ih

/-- **C143, the connection.** Every object of a pool keeps the connection, and one that is collected drops its reference. -/
theorem C143_kept_partial (ops : List PypOp) : PypKept (pypRun ops) := (aux_yp_runInv ops).kept

/-- **C143, handlers and data.** The references kept for the pools are dropped once, when neither the session nor an object of a pool needs the connection. -/
theorem C143_released_partial (ops : List PypOp) : PypReleased (pypRun ops) := (aux_yp_runInv ops).rel

example : (pypRun [.make (some 5) 2, .find 0, .start none, .leave true, .collect 0, .made 2 1 false, .collect 1]).released = [0, 1] ∧
    (pypRun [.make (some 5) 2, .find 0, .start none, .leave true, .collect 0, .made 2 1 false, .collect 1]).bad = false ∧
    (pypRun [.make (some 5) 2, .find 0, .start none, .leave true, .collect 0, .made 2 1 false]).released = [] := by decide +kernel

/-- **C143, calls.** While the object that made the pool exists, a request for a channel of a pool that has none ready calls the handler given for the pool with the data of the request. -/
theorem C143_called_partial (ops : List PypOp) (o h : Nat) (x : Option Nat) (ha : PypAsks (pypRun ops) o h) (hn : ¬ PypOrphan (pypRun ops) o) :
    (pypRun (ops ++ [.next o false true x])).calls = (pypRun ops).calls ++ [(h, x)] ∧
    (pypRun (ops ++ [.next o false true x])).bad = (pypRun ops).bad := by
  obtain ⟨y, p, q, e1, e2, e3, e4, e5⟩ := ha
  obtain ⟨z, hz, ez⟩ := (aux_yp_runInv ops).first p q e4
  have hza : z.alive = true := by
    by_cases hza : z.alive = true
    · exact hza
    · exact absurd ⟨y, p, q, z, e1, e3, e4, hz, by simpa using hza⟩ hn
  rw [aux_yp_run]
  simp [pypStep, e1, e2, e3, e4, pypChannel, e5, hz, hza, ez]

example : PypAsks (pypRun [.make (some 5) 2, .find 0]) 1 5 ∧ ¬ PypOrphan (pypRun [.make (some 5) 2, .find 0]) 1 := by
  refine ⟨⟨⟨some 0, some 5, true, false⟩, 0, ⟨0, some 5⟩, by decide +kernel, rfl, rfl, by decide +kernel, rfl⟩, ?_⟩
  rintro ⟨y, p, q, z, e1, e2, e3, e4, e5⟩
  have h1 : (pypRun [.make (some 5) 2, .find 0]).objs[1]? = some ⟨some 0, some 5, true, false⟩ := by decide +kernel
  rw [h1] at e1; injection e1 with e1; subst e1
  injection e2 with e2; subst e2
  have h2 : (pypRun [.make (some 5) 2, .find 0]).pools[0]? = some ⟨0, some 5⟩ := by decide +kernel
  rw [h2] at e3; injection e3 with e3; subst e3
  have h3 : (pypRun [.make (some 5) 2, .find 0]).objs[0]? = some ⟨some 0, some 5, true, false⟩ := by decide +kernel
  rw [h3] at e4; injection e4 with e4; subst e4
  cases e5

/-- **C143 is violated**: after the object that made a pool was collected, a request through another object of the pool that needs a new channel uses freed memory. -/
theorem C143_freed (ops : List PypOp) (o h : Nat) (x : Option Nat) (ha : PypAsks (pypRun ops) o h) (hn : PypOrphan (pypRun ops) o) :
    (pypRun (ops ++ [.next o false true x])).bad = true := by
  obtain ⟨y, p, q, e1, e2, e3, e4, e5⟩ := ha
  obtain ⟨y', p', q', z, f1, f2, f3, f4, f5⟩ := hn
  rw [e1] at f1; injection f1 with f1; subst f1
  rw [e3] at f2; injection f2 with f2; subst f2
  rw [e4] at f3; injection f3 with f3; subst f3
  rw [aux_yp_run]
  simp [pypStep, e1, e2, e3, e4, pypChannel, e5, f4, f5]

/-- This is what becomes of every pool made with `on_created` if the handler does not keep the object: `conn.pool ()` gives another one. -/
example : (pypRun [.start (some 5), .made 0 1 false, .find 0, .next 1 false true none]).bad = true ∧
    (pypRun [.start (some 5), .made 0 1 false, .find 0]).bad = false := by decide +kernel

theorem aux_yp_channelGood (s : PypState) (p : PypPool) (x : Option Nat) (z : PypObj) (hz : s.objs[p.first]? = some z) (ha : z.alive = true) :
    (pypChannel s p x).bad = s.bad := by
  unfold pypChannel
  split
  · rfl
  · simp only [hz, ha, if_true]; split <;> rfl

theorem aux_yp_channelsGood (n : Nat) (p : PypPool) (z : PypObj) (ha : z.alive = true) : ∀ s : PypState, s.objs[p.first]? = some z →
    (pypChannels s p n).bad = s.bad := by
  induction n with
  | zero => intro s _; rfl
  | succ n ih =>
    intro s hz
    have h1 := aux_yp_channelGood s p none z hz ha
    obtain ⟨c, b, e⟩ := aux_yp_channel s p none
    rw [pypChannels, ih _ (by rw [e]; exact hz), h1]

theorem aux_yp_freeBad (s : PypState) (l : Bool) : (pypFree s l).bad = s.bad := by unfold pypFree; split <;> rfl

/-- **C143, memory.** No freed memory is used if no channel is asked for through an object of a pool whose first object was collected. -/
theorem C143_safe_partial (ops : List PypOp) (hc : PypCareful ops) : (pypRun ops).bad = false := by
  induction ops using aux_yp_snoc with
  | h0 => rfl
  | h1 l op ih =>
    have hb : (pypRun l).bad = false := ih (fun pre o r a x post e => hc pre o r a x (post ++ [op]) (by rw [e]; simp))
    have hi := aux_yp_runInv l
    rw [aux_yp_run]
    cases op with
    | make a n =>
      simp only [pypStep]
      split
      · rw [aux_yp_channelsGood n _ ⟨some (pypRun l).pools.length, a, true, false⟩ rfl _ (by simp)]; exact hb
      · exact hb
    | start a => simp only [pypStep]; split <;> exact hb
    | made o n kept =>
      simp only [pypStep]
      split
      · exact hb
      · rename_i x hx
        split
        · rename_i hp
          obtain ⟨ha, hnone⟩ := hi.pend o x hx hp
          have hg := aux_yp_channelsGood n ⟨o, x.handler⟩ x ha (pypRun l) hx
          obtain ⟨c, b, e⟩ := aux_yp_channels n ⟨o, x.handler⟩ (pypRun l)
          rw [e] at hg ⊢
          dsimp only at hg ⊢
          rw [hb] at hg
          have hpos : (pypRun l).refs ≠ 0 := by
            intro h0
            have hk := hi.kept
            unfold PypObjects at hk
            rw [h0] at hk
            have h1 : (pypRun l).objs.filter (·.alive) = [] := List.length_eq_zero_iff.1 hk.symm
            have : x ∈ (pypRun l).objs.filter (·.alive) := List.mem_filter.2 ⟨List.mem_of_getElem? hx, ha⟩
            rw [h1] at this; cases this
          split
          · exact hg
          · simp only [pypCollect, if_neg hpos, aux_yp_freeBad]; exact hg
        · exact hb
    | find p =>
      simp only [pypStep]
      split
      · exact hb
      · split <;> exact hb
    | collect o =>
      simp only [pypStep]
      split
      · exact hb
      · rename_i x hx
        split
        · rename_i hh; rw [(aux_yp_collect _ o x hi hx hh.1 hh.2).2]; exact hb
        · exact hb
    | next o ready auto x =>
      have hno := hc l o ready auto x [] rfl
      simp only [pypStep]
      split
      · exact hb
      · rename_i y hy
        split
        · exact hb
        · rename_i p hp
          split
          · exact hb
          · rename_i q hq
            split
            · obtain ⟨z, hz, ez⟩ := hi.first p q hq
              have hza : z.alive = true := by
                by_cases hza : z.alive = true
                · exact hza
                · exact absurd ⟨y, p, q, z, hy, hp, hq, hz, by simpa using hza⟩ hno
              rw [aux_yp_channelGood _ q x z hz hza]; exact hb
            · exact hb
    | leave locked =>
      simp only [pypStep]
      split
      · rw [aux_yp_freeBad]; exact hb
      · exact hb

/-- **C143 is violated**: if the last reference to the connection is dropped by a thread of the library, the references to Python objects kept for its pools are dropped
without the lock of the interpreter, whatever happened before. -/
theorem C143_unlocked (ops : List PypOp) (hs : (pypRun ops).session = true) (h0 : PypObjects (pypRun ops) = 0) (hp : (pypRun ops).pools ≠ []) :
    (pypRun (ops ++ [.leave false])).unlocked = true := by
  have hk := C143_kept_partial ops
  unfold PypKept at hk
  rw [h0] at hk
  rw [aux_yp_run]
  simp [pypStep, hs, pypFree, hk, hp]

example : (pypRun [.make (some 5) 2, .collect 0]).session = true ∧ PypObjects (pypRun [.make (some 5) 2, .collect 0]) = 0 ∧
    (pypRun [.make (some 5) 2, .collect 0]).pools ≠ [] := by decide +kernel

theorem aux_yp_channelsLock (s : PypState) (p : PypPool) (n : Nat) : (pypChannels s p n).unlocked = s.unlocked := by
  obtain ⟨c, b, e⟩ := aux_yp_channels n p s; rw [e]

theorem aux_yp_collectLock (s : PypState) (o : Nat) (x : PypObj) : (pypCollect s o x).unlocked = s.unlocked := by
  unfold pypCollect
  split
  · rfl
  · split
    · rfl
    · unfold pypFree; split <;> simp

/-- **C143, the lock.** Otherwise they are dropped with the lock: when an object is collected, or when the program forgets the connection. -/
theorem C143_locked_partial (ops : List PypOp) (h : .leave false ∉ ops) : (pypRun ops).unlocked = false := by
  induction ops using aux_yp_snoc with
  | h0 => rfl
  | h1 l op ih =>
    simp only [List.mem_append, List.mem_singleton, not_or] at h
    have hu := ih h.1
    rw [aux_yp_run]
    cases op with
    | make a n =>
      simp only [pypStep]
      split
      · rw [aux_yp_channelsLock]; exact hu
      · exact hu
    | start a => simp only [pypStep]; split <;> exact hu
    | made o n kept =>
      simp only [pypStep]
      split
      · exact hu
      · split
        · split
          · simp only [aux_yp_channelsLock]; exact hu
          · rw [aux_yp_collectLock]; simp only [aux_yp_channelsLock]; exact hu
        · exact hu
    | find p =>
      simp only [pypStep]
      split
      · exact hu
      · split <;> exact hu
    | collect o =>
      simp only [pypStep]
      split
      · exact hu
      · split
        · rw [aux_yp_collectLock]; exact hu
        · exact hu
    | next o ready auto x =>
      simp only [pypStep]
      split
      · exact hu
      · split
        · exact hu
        · split
          · exact hu
          · split
            · rename_i q _ _
              obtain ⟨c, b, e⟩ := aux_yp_channel (pypRun l) q x
              rw [e]; exact hu
            · exact hu
    | leave locked =>
      cases locked with
      | false => exact absurd rfl h.2
      | true =>
        simp only [pypStep]
        split
        · unfold pypFree; split <;> simp [hu]
        · exact hu

theorem aux_yp_calls (s : PypState) (b : Bool) : (pypFree s b).calls = s.calls := by unfold pypFree; split <;> rfl

theorem aux_yp_collectCalls (s : PypState) (o : Nat) (x : PypObj) : (pypCollect s o x).calls = s.calls := by
  unfold pypCollect
  split
  · rfl
  · split
    · rfl
    · rw [aux_yp_calls]

/-- **C143, no other calls.** Handlers are called only when a pool is made or when a program asks for a channel, none is ready, and it allows the pool to grow. -/
theorem C143_only_partial (ops : List PypOp) (op : PypOp) (hm : ∀ h n, op ≠ .make h n) (hd : ∀ o n k, op ≠ .made o n k)
    (hn : ∀ o x, op ≠ .next o false true x) : (pypRun (ops ++ [op])).calls = (pypRun ops).calls := by
  rw [aux_yp_run]
  generalize pypRun ops = s
  cases op with
  | make h n => exact absurd rfl (hm h n)
  | made o n k => exact absurd rfl (hd o n k)
  | start h => simp only [pypStep]; split <;> rfl
  | find p =>
    simp only [pypStep]
    split
    · rfl
    · split <;> rfl
  | collect o =>
    simp only [pypStep]
    split
    · rfl
    · split
      · exact aux_yp_collectCalls ..
      · rfl
  | next o ready auto x =>
    simp only [pypStep]
    split
    · rfl
    · split
      · rfl
      · split
        · rfl
        · split
          · rename_i hc
            exact absurd (by rw [hc.2.1, hc.2.2]) (hn o x)
          · rfl
  | leave b =>
    simp only [pypStep]
    split
    · rw [aux_yp_calls]
    · rfl

example : (pypRun ([.make (some 5) 1, .find 0] ++ [.next 1 true true (some 7)])).calls = [(5, none)] ∧
    (pypRun ([.make (some 5) 1, .find 0] ++ [.next 1 false false (some 7)])).calls = [(5, none)] := by decide +kernel

/-- C143 does not hold as stated. -/
theorem C143_statement_false : ¬ C143_statement := by
  intro h
  have := (h [.start (some 5), .made 0 1 false, .find 0, .next 1 false true none]).1
  revert this; decide +kernel

end Verif.Props
