import Verif.Spec.Timeouts
/-! C91: the timeouts of a context. -/
namespace Verif.Props
open Verif.Model Verif.Spec

/-- C91, full: whatever was done before, in any threads, the timeouts that a context tells are those set last for it, or the defaults. False
of the code. -/
def C91_statement : Prop :=
  ∀ (acts : List ToutAct) (c : Nat),
    (Touts.init.run acts).get c = toutInForce c 60000000 acts ∧
    ((Touts.init.run acts).getConnect c).1 = toutConnectInForce c 0 acts

/-- C91 is violated: after the timeout was set and used, setting it back to its default leaves it as it is. -/
theorem C91_no_reset (v : Int) (hv : v ≠ 0) (hs : toutSmall v) :
    (Touts.init.run [.set 0 v, .begin 0 0, .end 0, .set 0 0]).get 0 = v := by
  have hi : i32 v = v := by simp only [i32, toutSmall] at *; omega
  by_cases h6 : v = 60000000
  · subst h6; rfl
  · simp [Touts.run, Touts.step, Touts.set, Touts.begin, Touts.locked, Touts.get, Touts.init, Touts.setCtx, toutGetenv, hv, hi, h6]

/-- C91 is violated: a timeout set for one context is the timeout of the others. -/
theorem C91_other_context (v : Int) (hv : v ≠ 0) (hs : toutSmall v) (c c' : Nat) :
    (Touts.init.run [.set c v]).get c' = v ∧ ((Touts.init.run [.setConnect c v]).getConnect c').1 = v := by
  have hi : i32 v = v := by simp only [i32, toutSmall] at *; omega
  constructor
  · simp only [Touts.run, Touts.step, Touts.set, Touts.locked, Touts.get, Touts.init, Touts.setCtx, toutGetenv, hv, List.foldl, if_false, hi]
    have h1 : ∀ p : Prop, [Decidable p] → (if p then (⟨60000000, false, 0, false⟩ : ToutCtx) else ⟨60000000, false, 0, false⟩) = ⟨60000000, false, 0, false⟩ := by
      intro p _; split <;> rfl
    simp only [h1, Bool.false_eq_true, if_false, hv]
    split
    · rfl
    · next h => simpa using h
  · simp only [Touts.run, Touts.step, Touts.setConnect, Touts.getConnect, Touts.init, Touts.setCtx, toutGetenv, hv, List.foldl, if_false, hi]
    split <;> simp

/-- C91 is violated: one hour, in microseconds, is not an `int`. -/
theorem C91_too_long : (Touts.init.run [.set 0 3600000000]).get 0 = -694967296 ∧
    ((Touts.init.run [.setConnect 0 3600000000]).getConnect 0).1 = -694967296 := ⟨rfl, rfl⟩

/-- C91 is violated: two threads read the timeout at the same time after it was set; the second writes the old value back, for ever. -/
theorem C91_race : (Touts.init.run [.set 0 5000000, .begin 0 0, .begin 1 0, .end 0, .end 1]).get 0 = 60000000 := rfl

theorem C91_statement_false : ¬ C91_statement := by
  intro h
  have := (h [.set 0 5000000, .begin 0 0, .begin 1 0, .end 0, .end 1] 0).1
  rw [C91_race] at this
  simp [toutInForce] at this

structure aux_to_inv (s : Touts) (c : Nat) (v w : Int) : Prop where
  idle : ∀ t, s.reading t = none
  small : toutSmall v ∧ toutSmall w
  pos : v ≠ 0
  sync : (s.ctx c).std ≠ 0 ∧ (if (s.ctx c).checked then (s.ctx c).std = v else (s.env = none → (s.ctx c).std = v) ∧ ∀ e, s.env = some e → e = v)
  conn : if (s.ctx c).cchecked then (s.ctx c).cstd = w else toutGetenv s.cenv = w

theorem aux_to_i32 (v : Int) (h : toutSmall v) : i32 v = v := by simp only [i32, toutSmall] at *; omega

theorem aux_to_locked (s : Touts) (c c' : Nat) (v w : Int) (h : aux_to_inv s c v w) :
    (c' = c → (s.locked c' (s.ctx c').std).1 = v) ∧ aux_to_inv (s.locked c' (s.ctx c').std).2 c v w := by
  obtain ⟨h1, h2, h3, h4, h5⟩ := h
  have hi := aux_to_i32 v h2.1
  have key : ∀ x : ToutCtx, (c' = c → x.std = v ∧ x.checked = true ∧ x.cstd = (s.ctx c).cstd ∧ x.cchecked = (s.ctx c).cchecked) →
      aux_to_inv (s.setCtx c' x) c v w := by
    intro x hx
    refine ⟨h1, h2, h3, ?_, ?_⟩
    · simp only [Touts.setCtx]
      split
      · next e => obtain ⟨e1, e2, _⟩ := hx e.symm; simp [e1, e2, h3]
      · exact h4
    · simp only [Touts.setCtx]
      split
      · next e => obtain ⟨_, _, e3, e4⟩ := hx e.symm; rw [e3, e4]; exact h5
      · exact h5
  have hv : c' = c → (if (s.ctx c').checked then (s.ctx c').std else toutGetenv s.env) = v ∨
      ((if (s.ctx c').checked then (s.ctx c').std else toutGetenv s.env) = 0 ∧ (s.ctx c').std = v) := by
    intro e
    subst e
    cases hc : (s.ctx c').checked with
    | true => rw [hc] at h4; left; simpa using h4.2
    | false =>
      rw [hc] at h4
      simp only [Bool.false_eq_true, if_false] at h4 ⊢
      cases he : s.env with
      | none => right; exact ⟨rfl, h4.2.1 he⟩
      | some e => left; rw [h4.2.2 e he]; exact hi
  simp only [Touts.locked]
  generalize (if (s.ctx c').checked then (s.ctx c').std else toutGetenv s.env) = d at hv ⊢
  split
  · next h0 =>
    have hv' : c' = c → (s.ctx c').std = v := fun e => by
      rcases hv e with h | h
      · rw [h] at h0; exact absurd h0 h3
      · exact h.2
    exact ⟨hv', key _ (fun e => ⟨hv' e, rfl, by rw [← e], by rw [← e]⟩)⟩
  · next h0 =>
    have hv' : c' = c → d = v := fun e => by
      rcases hv e with h | h
      · exact h
      · exact absurd h.1 h0
    split
    · exact ⟨hv', key _ (fun e => ⟨hv' e, rfl, by rw [← e], by rw [← e]⟩)⟩
    · next hd =>
      simp only [ne_eq, Decidable.not_not] at hd
      exact ⟨hv', key _ (fun e => ⟨hd ▸ hv' e, rfl, by rw [← e], by rw [← e]⟩)⟩

theorem aux_to_get (s : Touts) (c : Nat) (v w : Int) (h : aux_to_inv s c v w) : s.get c = v := (aux_to_locked s c c v w h).1 rfl

theorem aux_to_getConnect (s : Touts) (c c' : Nat) (v w : Int) (h : aux_to_inv s c v w) :
    (c' = c → (s.getConnect c').1 = w) ∧ aux_to_inv (s.getConnect c').2 c v w := by
  obtain ⟨h1, h2, h3, h4, h5⟩ := h
  simp only [Touts.getConnect]
  cases hc : (s.ctx c').cchecked with
  | true =>
    simp only [if_true]
    constructor
    · intro e; rw [e] at hc ⊢; rw [hc] at h5; simpa using h5
    · have e : s.setCtx c' (s.ctx c') = s := by
        simp only [Touts.setCtx]
        congr 1
        funext k
        split
        · next e => rw [e]
        · rfl
      rw [e]
      exact ⟨h1, h2, h3, h4, h5⟩
  | false =>
    simp only [Bool.false_eq_true, if_false]
    constructor
    · intro e; rw [e] at hc; rw [hc] at h5; simpa using h5
    · refine ⟨h1, h2, h3, ?_, ?_⟩
      · simp only [Touts.setCtx]
        split
        · next e => rw [← e]; exact h4
        · exact h4
      · simp only [Touts.setCtx]
        split
        · next e => rw [e, hc] at h5; simpa using h5
        · exact h5

theorem aux_to_run (c : Nat) : ∀ (n : Nat) (acts : List ToutAct), acts.length ≤ n → ∀ (s : Touts) (v w : Int), aux_to_inv s c v w →
    toutPlain c acts → toutApart acts → aux_to_inv (s.run acts) c (toutInForce c v acts) (toutConnectInForce c w acts) := by
  intro n
  induction n with
  | zero =>
    intro acts hn s v w h _ _
    have : acts = [] := List.length_eq_zero_iff.1 (by omega)
    subst this
    exact h
  | succ n ih =>
    intro acts hn s v w h hp ha
    match acts, hn, hp, ha with
    | [], _, _, _ => exact h
    | .set c' x :: rest, hn, hp, ha =>
      obtain ⟨e, hx, hsm⟩ := hp (.set c' x) (by simp)
      subst e
      have hp' : toutPlain c' rest := fun a ha => hp a (List.mem_cons_of_mem _ ha)
      simp only [toutInForce, toutConnectInForce, if_true, hx, if_false]
      refine ih rest (by simpa using hn) (s.step (.set c' x)) x w ?_ hp' ha
      obtain ⟨h1, h2, h3, h4, h5⟩ := h
      refine ⟨h1, ⟨hsm, h2.2⟩, hx, ?_, ?_⟩
      · simp [Touts.step, Touts.set, Touts.setCtx, hx, h4.1]
      · simpa [Touts.step, Touts.set, Touts.setCtx] using h5
    | .setConnect c' x :: rest, hn, hp, ha =>
      obtain ⟨e, hsm⟩ := hp (.setConnect c' x) (by simp)
      subst e
      have hp' : toutPlain c' rest := fun a ha => hp a (List.mem_cons_of_mem _ ha)
      simp only [toutInForce, toutConnectInForce, if_true]
      refine ih rest (by simpa using hn) (s.step (.setConnect c' x)) v x ?_ hp' ha
      obtain ⟨h1, h2, h3, h4, h5⟩ := h
      refine ⟨h1, ⟨h2.1, hsm⟩, h3, ?_, ?_⟩
      · simpa [Touts.step, Touts.setConnect, Touts.setCtx] using h4
      · by_cases hx : x = 0
        · simp [Touts.step, Touts.setConnect, Touts.setCtx, toutGetenv, hx]
        · simp [Touts.step, Touts.setConnect, Touts.setCtx, toutGetenv, hx, aux_to_i32 x hsm]
    | .getConnect c' :: rest, hn, hp, ha =>
      have hp' : toutPlain c rest := fun a ha => hp a (List.mem_cons_of_mem _ ha)
      simp only [toutInForce, toutConnectInForce]
      exact ih rest (by simpa using hn) (s.step (.getConnect c')) v w (aux_to_getConnect s c c' v w h).2 hp' ha
    | .begin t c' :: .end t' :: rest, hn, hp, ha =>
      have hp' : toutPlain c rest := fun a ha => hp a (List.mem_cons_of_mem _ (List.mem_cons_of_mem _ ha))
      obtain ⟨e, ha⟩ := ha
      subst e
      simp only [toutInForce, toutConnectInForce]
      have e2 : s.run (.begin t c' :: .end t :: rest) = ((s.step (.begin t c')).step (.end t)).run rest := rfl
      rw [e2]
      refine ih rest (by simp at hn; omega) _ v w ?_ hp' ha
      have hl := (aux_to_locked s c c' v w h).2
      have hb : s.step (.begin t c') = s.begin t c' := by simp only [Touts.step, h.idle t]
      rw [hb]
      have he : (s.begin t c').step (.end t) = (s.locked c' (s.ctx c').std).2 := by
        simp only [Touts.step, Touts.begin, if_true]
        have hr : (fun k => if k = t then none else (if k = t then some (c', (s.ctx c').std) else s.reading k)) = s.reading := by
          funext k
          by_cases hk : k = t
          · simp [hk, h.idle]
          · simp [hk]
        simp only [Touts.locked, Touts.setCtx, hr]
        generalize (if (s.ctx c').checked then (s.ctx c').std else toutGetenv s.env) = d
        split
        · rfl
        · split <;> rfl
      rw [he]
      exact hl
    | [.begin t c'], _, _, ha => exact absurd ha (by simp [toutApart])
    | .begin t c' :: .set _ _ :: _, _, _, ha => exact absurd ha (by simp [toutApart])
    | .begin t c' :: .setConnect _ _ :: _, _, _, ha => exact absurd ha (by simp [toutApart])
    | .begin t c' :: .begin _ _ :: _, _, _, ha => exact absurd ha (by simp [toutApart])
    | .begin t c' :: .getConnect _ :: _, _, _, ha => exact absurd ha (by simp [toutApart])
    | .end t :: _, _, _, ha => exact absurd ha (by simp [toutApart])

/-- C91: if only one context is used, the values are in the range of `int`, the timeout is not set back to its default, and reading it does
not overlap, the timeouts told are those set last. Missing: those four cases, in which the code is wrong. -/
theorem C91_partial (acts : List ToutAct) (c : Nat) (hp : toutPlain c acts) (ha : toutApart acts) :
    (Touts.init.run acts).get c = toutInForce c 60000000 acts ∧
    ((Touts.init.run acts).getConnect c).1 = toutConnectInForce c 0 acts := by
  have h := aux_to_run c acts.length acts (Nat.le_refl _) Touts.init 60000000 0
    ⟨fun _ => rfl, by simp [toutSmall], by simp, by simp [Touts.init], by simp [Touts.init, toutGetenv]⟩ hp ha
  exact ⟨aux_to_get _ _ _ _ h, (aux_to_getConnect _ c c _ _ h).1 rfl⟩

/-- Both timeouts are set and read, some of them again. -/
example : toutPlain 2 [.begin 0 2, .end 0, .set 2 5000000, .setConnect 2 1000000, .begin 1 2, .end 1, .getConnect 2, .setConnect 2 0, .set 2 7] ∧
    toutApart [.begin 0 2, .end 0, .set 2 5000000, .setConnect 2 1000000, .begin 1 2, .end 1, .getConnect 2, .setConnect 2 0, .set 2 7] := by
  simp [toutPlain, toutApart, toutSmall]

end Verif.Props
