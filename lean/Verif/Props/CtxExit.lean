import Verif.Spec.CtxExit
/-! C79: a context is ended once, with its cleanup functions. C80: giving back references to a context. -/
namespace Verif.Props
open Verif.Model Verif.Spec

/-- C79, full: whatever the threads do, no destroyed mutex is used, the engine is stopped at most once, and when the context was ended
every cleanup function that was installed before and not removed was called. False of the code. -/
def C79_statement : Prop :=
  ∀ acts, ∃ s, CtxExit.init.run acts = some s ∧ s.stops ≤ 1 ∧
    (exitDone s → ∀ before after, acts = before ++ after → onlyCleanups before → ∀ f ∈ cleanupsAfter [] before, .remove f ∉ after → f ∈ s.called)

/-- One thread at most ends the context. -/
structure aux_ce_inv (s : CtxExit) : Prop where
  fresh : s.flag = false → s.stops = 0 ∧ s.mutexGone = false ∧ ∀ i, endsCtx (s.pc i) = false
  one : ∀ i j, endsCtx (s.pc i) = true → endsCtx (s.pc j) = true → i = j
  before : ∀ i, s.pc i = .stopping → s.stops = 0
  after : ∀ i, (∃ k, s.pc i = .cleaning k ∨ s.pc i = .inFunc k) → s.stops = 1
  le : s.stops ≤ 1

theorem aux_ce_init : aux_ce_inv CtxExit.init := by
  constructor <;> simp [CtxExit.init, endsCtx]

theorem aux_ce_at (s : CtxExit) (i j : Nat) (p : ExitPc) : (s.at i p).pc j = if j = i then p else s.pc j := rfl

theorem aux_ce_step (s r : CtxExit) (a : ExitAct) (h : aux_ce_inv s) (hr : s.step a = some r) : aux_ce_inv r := by
  obtain ⟨h1, h2, h3, h4, h5⟩ := h
  cases a with
  | call i =>
    simp only [CtxExit.step] at hr
    cases hp : s.pc i <;> rw [hp] at hr <;> simp only [Option.some.injEq] at hr <;> subst hr
    case out =>
      have hn : endsCtx (if s.flag then ExitPc.returned else .checked) = false := by split <;> rfl
      have he : ∀ j, endsCtx ((s.at i (if s.flag then .returned else .checked)).pc j) = true → endsCtx (s.pc j) = true := by
        intro j; rw [aux_ce_at]; split
        · rw [hn]; simp
        · exact id
      have hn' : ∀ j, endsCtx ((s.at i (if s.flag then .returned else .checked)).pc j) = true →
          (s.at i (if s.flag then .returned else .checked)).pc j = s.pc j := by
        intro j; rw [aux_ce_at]; split
        · rw [hn]; simp
        · simp
      constructor
      · intro hf; refine ⟨(h1 hf).1, (h1 hf).2.1, fun j => ?_⟩
        cases hc : endsCtx ((s.at i (if s.flag then .returned else .checked)).pc j) with
        | false => rfl
        | true => have := he j hc; rw [(h1 hf).2.2 j] at this; simp at this
      · intro j k hj hk; exact h2 j k (he j hj) (he k hk)
      · intro j hj; refine h3 j ?_; rw [← hn' j (by rw [hj]; rfl)]; exact hj
      · intro j ⟨k, hj⟩; refine h4 j ⟨k, ?_⟩; rw [← hn' j (by rcases hj with hj | hj <;> rw [hj] <;> rfl)]; exact hj
      · exact h5
    all_goals exact ⟨h1, h2, h3, h4, h5⟩
  | go i =>
    simp only [CtxExit.step] at hr
    cases hp : s.pc i with
    | out => rw [hp] at hr; simp only [Option.some.injEq] at hr; subst hr; exact ⟨h1, h2, h3, h4, h5⟩
    | returned => rw [hp] at hr; simp only [Option.some.injEq] at hr; subst hr; exact ⟨h1, h2, h3, h4, h5⟩
    | checked =>
      rw [hp] at hr; simp only at hr
      split at hr
      · simp at hr
      · split at hr
        · next hf =>
          simp only [Option.some.injEq] at hr; subst hr
          constructor
          · intro h0; simp only [CtxExit.at] at h0; rw [hf] at h0; simp at h0
          · intro j k; simp only [aux_ce_at]; intro hj hk
            split at hj
            · simp [endsCtx] at hj
            · split at hk
              · simp [endsCtx] at hk
              · exact h2 j k hj hk
          · intro j; rw [aux_ce_at]; split
            · simp
            · exact h3 j
          · intro j; rw [aux_ce_at]; split
            · simp
            · exact h4 j
          · exact h5
        · next hf =>
          simp only [Option.some.injEq] at hr; subst hr
          have hf : s.flag = false := by simpa using hf
          obtain ⟨g1, g2, g3⟩ := h1 hf
          constructor
          · intro h0; simp [CtxExit.at] at h0
          · intro j k; simp only [aux_ce_at, g3]; intro hj hk
            split at hj
            · split at hk
              · next a b => rw [a, b]
              · rw [g3] at hk; simp at hk
            · rw [g3] at hj; simp at hj
          · intro j _; exact g1
          · intro j; rw [aux_ce_at]; split
            · simp
            · rintro ⟨k, hk⟩
              have := g3 j; rcases hk with hk | hk <;> rw [hk] at this <;> simp [endsCtx] at this
          · exact h5
    | stopping =>
      rw [hp] at hr; simp only at hr
      have hs := h3 i hp
      have hf : s.flag = true := by
        cases hf : s.flag with
        | true => rfl
        | false => have := (h1 hf).2.2 i; rw [hp] at this; simp [endsCtx] at this
      have hother : ∀ j, j ≠ i → endsCtx (s.pc j) = false := by
        intro j hj
        cases hc : endsCtx (s.pc j) with
        | false => rfl
        | true => exact absurd (h2 j i hc (by rw [hp]; rfl)) hj
      have hgen : ∀ p, p ≠ .stopping → aux_ce_inv ({ s with stops := s.stops + 1, mutexGone := true }.at i p) := by
        intro p hpn
        constructor
        · intro h0; simp only [CtxExit.at] at h0; rw [hf] at h0; simp at h0
        · intro j k; simp only [aux_ce_at]; intro hj hk
          split at hj
          · split at hk
            · next a b => rw [a, b]
            · next _ b => rw [hother k b] at hk; simp at hk
          · next b => rw [hother j b] at hj; simp at hj
        · intro j; rw [aux_ce_at]; split
          · exact fun e => absurd e hpn
          · next b => intro e; have := hother j b; dsimp only at e; rw [e] at this; simp [endsCtx] at this
        · intro j _; simp [CtxExit.at, hs]
        · simp [CtxExit.at, hs]
      split at hr <;> (simp only [Option.some.injEq] at hr; subst hr; exact hgen _ (by simp))
    | cleaning k =>
      rw [hp] at hr; simp only at hr
      have hs := h4 i ⟨k, Or.inl hp⟩
      have hf : s.flag = true := by
        cases hf : s.flag with
        | true => rfl
        | false => have := (h1 hf).1; omega
      have hother : ∀ j, j ≠ i → endsCtx (s.pc j) = false := by
        intro j hj
        cases hc : endsCtx (s.pc j) with
        | false => rfl
        | true => exact absurd (h2 j i hc (by rw [hp]; rfl)) hj
      have hgen : ∀ p (t : CtxExit), t.flag = s.flag → t.stops = s.stops → t.pc = s.pc → p ≠ .stopping → aux_ce_inv (t.at i p) := by
        intro p t e1 e2 e3 hpn
        constructor
        · intro h0; simp only [CtxExit.at] at h0; rw [e1, hf] at h0; simp at h0
        · intro j k; simp only [aux_ce_at, e3]; intro hj hk
          split at hj
          · split at hk
            · next a b => rw [a, b]
            · next _ b => rw [hother k b] at hk; simp at hk
          · next b => rw [hother j b] at hj; simp at hj
        · intro j; rw [aux_ce_at, e3]; split
          · exact fun e => absurd e hpn
          · next b => intro e; have := hother j b; rw [e] at this; simp [endsCtx] at this
        · intro j _; simp [CtxExit.at, hs, e2]
        · simp [CtxExit.at, hs, e2]
      split at hr <;> (simp only [Option.some.injEq] at hr; subst hr; exact hgen _ _ rfl rfl rfl (by simp))
    | inFunc k =>
      rw [hp] at hr; simp only [Option.some.injEq] at hr; subst hr
      have hs := h4 i ⟨k, Or.inr hp⟩
      have hother : ∀ j, j ≠ i → endsCtx (s.pc j) = false := by
        intro j hj
        cases hc : endsCtx (s.pc j) with
        | false => rfl
        | true => exact absurd (h2 j i hc (by rw [hp]; rfl)) hj
      constructor
      · intro h0; simp only [CtxExit.at] at h0; have := (h1 h0).1; omega
      · intro j k; simp only [aux_ce_at]; intro hj hk
        split at hj
        · split at hk
          · next a b => rw [a, b]
          · next _ b => rw [hother k b] at hk; simp at hk
        · next b => rw [hother j b] at hj; simp at hj
      · intro j; rw [aux_ce_at]; split
        · simp
        · next b => intro e; have := hother j b; rw [e] at this; simp [endsCtx] at this
      · intro j _; exact hs
      · exact h5
  | install f => simp only [CtxExit.step, Option.some.injEq] at hr; subst hr; exact ⟨h1, h2, h3, h4, h5⟩
  | remove f =>
    simp only [CtxExit.step] at hr
    split at hr <;> (simp only [Option.some.injEq] at hr; subst hr; exact ⟨h1, h2, h3, h4, h5⟩)

theorem aux_ce_run (acts : List ExitAct) : ∀ (s r : CtxExit), aux_ce_inv s → s.run acts = some r → aux_ce_inv r := by
  induction acts with
  | nil => intro s r h hr; simp only [CtxExit.run, Option.some.injEq] at hr; subst hr; exact h
  | cons a acts ih =>
    intro s r h hr
    simp only [CtxExit.run] at hr
    cases hs : s.step a with
    | none => rw [hs] at hr; simp at hr
    | some q => rw [hs] at hr; exact ih q r (aux_ce_step s q a h hs) hr

/-- Whatever the threads do: the engine is stopped once at most, and one thread at most is ending the context. -/
theorem C79_once (acts : List ExitAct) (s : CtxExit) (h : CtxExit.init.run acts = some s) :
    s.stops ≤ 1 ∧ ∀ i j, endsCtx (s.pc i) = true → endsCtx (s.pc j) = true → i = j :=
  ⟨(aux_ce_run acts _ _ aux_ce_init h).le, (aux_ce_run acts _ _ aux_ce_init h).one⟩

/-- If no thread is between its look at the flag and the mutex when the mutex is destroyed, no destroyed mutex is used.
Missing: such threads. -/
theorem C79_safe_partial (acts : List ExitAct) (hp : politeExit CtxExit.init acts) : ∃ s, CtxExit.init.run acts = some s := by
  have key : ∀ (acts : List ExitAct) (s : CtxExit), politeExit s acts → (s.mutexGone = true → s.flag = true ∧ ∀ j, s.pc j ≠ .checked) →
      aux_ce_inv s → ∃ r, s.run acts = some r := by
    intro acts
    induction acts with
    | nil => intro s _ _ _; exact ⟨s, rfl⟩
    | cons a acts ih =>
      intro s hp hm hi
      have hstep : ∃ r, s.step a = some r ∧ (r.mutexGone = true → r.flag = true ∧ ∀ j, r.pc j ≠ .checked) := by
        cases a with
        | call i =>
          simp only [CtxExit.step]
          cases hpc : s.pc i
          case out =>
            refine ⟨_, rfl, fun hg => ⟨(hm hg).1, fun j => ?_⟩⟩
            rw [aux_ce_at]; split
            · have := (hm hg).1; simp [this]
            · exact (hm hg).2 j
          all_goals exact ⟨_, rfl, hm⟩
        | go i =>
          simp only [CtxExit.step]
          cases hpc : s.pc i with
          | out => exact ⟨_, rfl, hm⟩
          | returned => exact ⟨_, rfl, hm⟩
          | checked =>
            have hg : s.mutexGone = false := by
              cases hg : s.mutexGone with
              | false => rfl
              | true => exact absurd hpc ((hm hg).2 i)
            simp only [hg, Bool.false_eq_true, if_false]
            cases hf : s.flag <;> refine ⟨_, rfl, fun h0 => ?_⟩ <;> simp [CtxExit.at, hg] at h0
          | stopping =>
            have hno := hp.1 i rfl hpc
            have hf : s.flag = true := by
              cases hf : s.flag with
              | true => rfl
              | false => have := (hi.fresh hf).2.2 i; rw [hpc] at this; simp [endsCtx] at this
            dsimp only
            split <;> (refine ⟨_, rfl, fun _ => ⟨hf, fun j => ?_⟩⟩; rw [aux_ce_at]; split <;> first | (intro e; simp at e; done) | exact hno j)
          | cleaning k =>
            dsimp only
            split <;> (refine ⟨_, rfl, fun hg => ⟨(hm hg).1, fun j => ?_⟩⟩; rw [aux_ce_at]; split <;> first | (intro e; simp at e; done) | exact (hm hg).2 j)
          | inFunc k =>
            refine ⟨_, rfl, fun hg => ⟨(hm hg).1, fun j => ?_⟩⟩; rw [aux_ce_at]; split <;> first | (intro e; simp at e; done) | exact (hm hg).2 j
        | install f => exact ⟨_, rfl, hm⟩
        | remove f => simp only [CtxExit.step]; split <;> exact ⟨_, rfl, hm⟩
      obtain ⟨r, hr, hmr⟩ := hstep
      obtain ⟨q, hq⟩ := ih r (hp.2 r hr) hmr (aux_ce_step s r a hi hr)
      exact ⟨q, by simp only [CtxExit.run, hr, hq]⟩
  exact key acts _ hp (by simp [CtxExit.init]) aux_ce_init

theorem aux_ce_before (acts : List ExitAct) (h : onlyCleanups acts) : ∀ (s : CtxExit), ∃ c : Option (List Nat),
    s.run acts = some { s with cleanups := c } ∧ c.getD [] = cleanupsAfter (s.cleanups.getD []) acts := by
  induction acts with
  | nil => intro s; exact ⟨s.cleanups, rfl, rfl⟩
  | cons a acts ih =>
    intro s
    have ih := ih (fun b hb => h b (List.mem_cons_of_mem _ hb))
    rcases h a (List.mem_cons_self ..) with ⟨f, rfl⟩ | ⟨f, rfl⟩
    · obtain ⟨c, hc, hl⟩ := ih { s with cleanups := some (s.cleanups.getD [] ++ [f]) }
      exact ⟨c, hc, hl⟩
    · cases hs : s.cleanups with
      | none =>
        obtain ⟨c, hc, hl⟩ := ih s
        refine ⟨c, ?_, ?_⟩
        · simp only [CtxExit.run, CtxExit.step, hs]; exact hc
        · rw [hl, hs]; rfl
      | some l =>
        obtain ⟨c, hc, hl⟩ := ih { s with cleanups := some (l.erase f) }
        refine ⟨c, ?_, ?_⟩
        · simp only [CtxExit.run, CtxExit.step, hs]; exact hc
        · rw [hl]; rfl

/-- How far the cleanups are, when `l` are those installed before the end and `p` those since. -/
structure aux_ce_prog (l p : List Nat) (s : CtxExit) : Prop where
  none : s.stops = 0 → s.called = [] ∧ s.cleanups.getD [] = l ++ p
  loop : ∀ i k, s.pc i = .cleaning k → s.cleanups.getD [] = l ++ p ∧ s.called = (l ++ p).take k ∧ k ≤ (l ++ p).length
  func : ∀ i k, s.pc i = .inFunc k → s.cleanups.getD [] = l ++ p ∧ s.called = (l ++ p).take (k + 1) ∧ k < (l ++ p).length
  done : s.stops ≠ 0 → (∀ i, endsCtx (s.pc i) = false) → ∃ n, n ≤ p.length ∧ s.called = l ++ p.take n

/-- Cleanup functions installed before the end are called once each, in the order of installation, followed by some of those installed
meanwhile. Missing: removals during the end. -/
theorem C79_cleanups_partial (before after : List ExitAct) (hb : onlyCleanups before) (ha : ∀ f, .remove f ∉ after) (s : CtxExit)
    (h : CtxExit.init.run (before ++ after) = some s) (hd : exitDone s) :
    ∃ n, s.called = cleanupsAfter [] before ++ (installsOf after).take n := by
  have happ : ∀ (as bs : List ExitAct) (s r : CtxExit), s.run as = some r → s.run (as ++ bs) = r.run bs := by
    intro as
    induction as with
    | nil => intro bs s r hr; simp only [CtxExit.run, Option.some.injEq] at hr; subst hr; rfl
    | cons a as ih =>
      intro bs s r hr
      simp only [CtxExit.run, List.cons_append] at hr ⊢
      cases hs : s.step a with
      | none => rw [hs] at hr; simp at hr
      | some q => rw [hs] at hr; exact ih bs q r hr
  obtain ⟨c, hc, hl⟩ := aux_ce_before before hb CtxExit.init
  rw [happ before after _ _ hc] at h
  have key : ∀ (l : List Nat) (acts : List ExitAct) (p : List Nat) (s r : CtxExit), (∀ f, .remove f ∉ acts) → aux_ce_inv s → aux_ce_prog l p s →
      s.run acts = some r → aux_ce_prog l (p ++ installsOf acts) r := by
    intro l acts
    induction acts with
    | nil => intro p s r _ _ hp hr; simp only [CtxExit.run, Option.some.injEq] at hr; subst hr; simpa [installsOf] using hp
    | cons a acts ih =>
      intro p s r hno hi hp hr
      simp only [CtxExit.run] at hr
      cases hs : s.step a with
      | none => rw [hs] at hr; simp at hr
      | some q =>
        rw [hs] at hr
        have hno' : ∀ f, ExitAct.remove f ∉ acts := fun f hf => hno f (List.mem_cons_of_mem _ hf)
        have hi' := aux_ce_step s q a hi hs
        have hgoal : aux_ce_prog l (p ++ installsOf [a]) q → aux_ce_prog l (p ++ installsOf (a :: acts)) r := by
          intro hq
          have := ih _ q r hno' hi' hq hr
          rw [List.append_assoc] at this
          have he : installsOf [a] ++ installsOf acts = installsOf (a :: acts) := by
            simp only [installsOf, ← List.filterMap_append]; rfl
          rwa [he] at this
        refine hgoal ?_
        obtain ⟨p1, p2, p3, p4⟩ := hp
        cases a with
        | install f =>
          simp only [CtxExit.step, Option.some.injEq] at hs; subst hs
          have he : installsOf [ExitAct.install f] = [f] := rfl
          rw [he]
          refine ⟨fun h0 => ?_, fun i k hk => ?_, fun i k hk => ?_, fun h0 hn => ?_⟩
          · have := p1 h0; refine ⟨this.1, ?_⟩; simp [this.2]
          · obtain ⟨a1, a2, a3⟩ := p2 i k hk
            refine ⟨by simp [a1], ?_, by simp at a3 ⊢; omega⟩
            rw [← List.append_assoc, List.take_append_of_le_length a3]; exact a2
          · obtain ⟨a1, a2, a3⟩ := p3 i k hk
            refine ⟨by simp [a1], ?_, by simp at a3 ⊢; omega⟩
            rw [← List.append_assoc, List.take_append_of_le_length a3]; exact a2
          · obtain ⟨n, n1, n2⟩ := p4 h0 hn
            exact ⟨n, by simp; omega, by rw [List.take_append_of_le_length n1]; exact n2⟩
        | remove f => exact absurd (List.mem_cons_self ..) (hno f)
        | call i =>
          have he : installsOf [ExitAct.call i] = [] := rfl
          rw [he, List.append_nil]
          simp only [CtxExit.step] at hs
          cases hpc : s.pc i <;> rw [hpc] at hs <;> simp only [Option.some.injEq] at hs <;> subst hs
          case out =>
            have hx : ∀ j, (s.at i (if s.flag then .returned else .checked)).pc j = s.pc j ∨
                endsCtx ((s.at i (if s.flag then .returned else .checked)).pc j) = false := by
              intro j; rw [aux_ce_at]; split
              · right; split <;> rfl
              · left; rfl
            refine ⟨p1, fun j k hk => ?_, fun j k hk => ?_, fun h0 hn => p4 h0 fun j => ?_⟩
            · rcases hx j with e | e
              · rw [e] at hk; exact p2 j k hk
              · rw [hk] at e; simp [endsCtx] at e
            · rcases hx j with e | e
              · rw [e] at hk; exact p3 j k hk
              · rw [hk] at e; simp [endsCtx] at e
            · by_cases hj : j = i
              · subst hj; rw [hpc]; rfl
              · have := hn j; rw [aux_ce_at, if_neg hj] at this; exact this
          all_goals exact ⟨p1, p2, p3, p4⟩
        | go i =>
          have he : installsOf [ExitAct.go i] = [] := rfl
          rw [he, List.append_nil]
          simp only [CtxExit.step] at hs
          have hother : endsCtx (s.pc i) = true → ∀ j, j ≠ i → endsCtx (s.pc j) = false := by
            intro hii j hj
            cases hc : endsCtx (s.pc j) with
            | false => rfl
            | true => exact absurd (hi.one j i hc hii) hj
          cases hpc : s.pc i with
          | out => rw [hpc] at hs; simp only [Option.some.injEq] at hs; subst hs; exact ⟨p1, p2, p3, p4⟩
          | returned => rw [hpc] at hs; simp only [Option.some.injEq] at hs; subst hs; exact ⟨p1, p2, p3, p4⟩
          | checked =>
            rw [hpc] at hs; simp only at hs
            have hgen : ∀ (t : CtxExit) (x : ExitPc), (x = .returned ∨ x = .stopping ∧ s.stops = 0) → t.stops = s.stops → t.called = s.called → t.cleanups = s.cleanups →
                t.pc = s.pc → aux_ce_prog l p (t.at i x) := by
              intro t x hx e1 e2 e3 e4
              refine ⟨fun h0 => ?_, fun j k hk => ?_, fun j k hk => ?_, fun h0 hn => ?_⟩
              · simp only [CtxExit.at] at h0 ⊢; rw [e2, e3]; exact p1 (e1 ▸ h0)
              · rw [aux_ce_at, e4] at hk
                split at hk
                · rcases hx with hx | hx
                  · rw [hx] at hk; simp at hk
                  · rw [hx.1] at hk; simp at hk
                · simp only [CtxExit.at]; rw [e2, e3]; exact p2 j k hk
              · rw [aux_ce_at, e4] at hk
                split at hk
                · rcases hx with hx | hx
                  · rw [hx] at hk; simp at hk
                  · rw [hx.1] at hk; simp at hk
                · simp only [CtxExit.at]; rw [e2, e3]; exact p3 j k hk
              · simp only [CtxExit.at] at h0 ⊢
                rw [e1] at h0; rw [e2]
                rcases hx with hx | hx
                · refine p4 h0 fun j => ?_
                  by_cases hj : j = i
                  · subst hj; rw [hpc]; rfl
                  · have := hn j; rw [aux_ce_at, if_neg hj, e4] at this; exact this
                · exact absurd hx.2 h0
            split at hs
            · simp at hs
            · split at hs
              · simp only [Option.some.injEq] at hs; subst hs; exact hgen _ _ (Or.inl rfl) rfl rfl rfl rfl
              · next hf =>
                simp only [Option.some.injEq] at hs; subst hs
                exact hgen _ _ (Or.inr ⟨rfl, (hi.fresh (by simpa using hf)).1⟩) rfl rfl rfl rfl
          | stopping =>
            have ho := hother (by rw [hpc]; rfl)
            rw [hpc] at hs; simp only at hs
            obtain ⟨c1, c2⟩ := p1 (hi.before i hpc)
            have hnk : ∀ j x, j ≠ i → s.pc j = x → endsCtx x = false := fun j x hj e => e ▸ ho j hj
            cases hcl : s.cleanups <;> rw [hcl] at hs <;> simp only [Option.some.injEq] at hs <;> subst hs
            · rw [hcl] at c2
              have hnil : l ++ p = [] := by simpa using c2.symm
              refine ⟨fun h0 => by simp [CtxExit.at] at h0, fun j k hk => ?_, fun j k hk => ?_, fun h0 hn => ⟨0, Nat.zero_le _, ?_⟩⟩
              · rw [aux_ce_at] at hk; split at hk
                · simp at hk
                · next hj => have := hnk j _ hj hk; simp [endsCtx] at this
              · rw [aux_ce_at] at hk; split at hk
                · simp at hk
                · next hj => have := hnk j _ hj hk; simp [endsCtx] at this
              · have : l = [] := (List.append_eq_nil_iff.1 hnil).1
                simp [CtxExit.at, c1, this]
            · refine ⟨fun h0 => by simp [CtxExit.at] at h0, fun j k hk => ?_, fun j k hk => ?_, fun h0 hn => ?_⟩
              · rw [aux_ce_at] at hk; split at hk
                · simp only [ExitPc.cleaning.injEq] at hk; subst hk
                  exact ⟨by simp only [CtxExit.at]; rw [← hcl]; exact c2, by simp [CtxExit.at, c1], Nat.zero_le _⟩
                · next hj => have := hnk j _ hj hk; simp [endsCtx] at this
              · rw [aux_ce_at] at hk; split at hk
                · simp at hk
                · next hj => have := hnk j _ hj hk; simp [endsCtx] at this
              · have := hn i; rw [aux_ce_at, if_pos rfl] at this; simp [endsCtx] at this
          | cleaning k =>
            have ho := hother (by rw [hpc]; rfl)
            have hnk : ∀ j x, j ≠ i → s.pc j = x → endsCtx x = false := fun j x hj e => e ▸ ho j hj
            have hst := hi.after i ⟨k, Or.inl hpc⟩
            obtain ⟨c1, c2, c3⟩ := p2 i k hpc
            rw [hpc] at hs; simp only [c1] at hs
            cases hcl : (l ++ p)[k]? <;> rw [hcl] at hs <;> simp only [Option.some.injEq] at hs <;> subst hs
            rotate_left
            · next f =>
              obtain ⟨hlt, hf⟩ := List.getElem?_eq_some_iff.1 hcl
              refine ⟨fun h0 => by simp [CtxExit.at] at h0; omega, fun j m hk => ?_, fun j m hk => ?_, fun h0 hn => ?_⟩
              · rw [aux_ce_at] at hk; split at hk
                · simp at hk
                · next hj => have := hnk j _ hj hk; simp [endsCtx] at this
              · rw [aux_ce_at] at hk; split at hk
                · simp only [ExitPc.inFunc.injEq] at hk; subst hk
                  refine ⟨c1, ?_, hlt⟩
                  simp only [CtxExit.at, c2]
                  rw [List.take_add_one, hcl]; rfl
                · next hj => have := hnk j _ hj hk; simp [endsCtx] at this
              · have := hn i; rw [aux_ce_at, if_pos rfl] at this; simp [endsCtx] at this
            · have hle := List.getElem?_eq_none_iff.1 hcl
              refine ⟨fun h0 => by simp [CtxExit.at] at h0; omega, fun j m hk => ?_, fun j m hk => ?_, fun h0 hn => ⟨p.length, Nat.le_refl _, ?_⟩⟩
              · rw [aux_ce_at] at hk; split at hk
                · simp at hk
                · next hj => have := hnk j _ hj hk; simp [endsCtx] at this
              · rw [aux_ce_at] at hk; split at hk
                · simp at hk
                · next hj => have := hnk j _ hj hk; simp [endsCtx] at this
              · simp only [CtxExit.at, c2, List.take_length]
                exact List.take_of_length_le hle
          | inFunc k =>
            have ho := hother (by rw [hpc]; rfl)
            have hnk : ∀ j x, j ≠ i → s.pc j = x → endsCtx x = false := fun j x hj e => e ▸ ho j hj
            have hst := hi.after i ⟨k, Or.inr hpc⟩
            obtain ⟨c1, c2, c3⟩ := p3 i k hpc
            rw [hpc] at hs; simp only [Option.some.injEq] at hs; subst hs
            refine ⟨fun h0 => by simp [CtxExit.at] at h0; omega, fun j m hk => ?_, fun j m hk => ?_, fun h0 hn => ?_⟩
            · rw [aux_ce_at] at hk; split at hk
              · simp only [ExitPc.cleaning.injEq] at hk; subst hk
                exact ⟨c1, c2, c3⟩
              · next hj => have := hnk j _ hj hk; simp [endsCtx] at this
            · rw [aux_ce_at] at hk; split at hk
              · simp at hk
              · next hj => have := hnk j _ hj hk; simp [endsCtx] at this
            · have := hn i; rw [aux_ce_at, if_pos rfl] at this; simp [endsCtx] at this
  have hinit : aux_ce_inv { CtxExit.init with cleanups := c } := by
    obtain ⟨h1, h2, h3, h4, h5⟩ := aux_ce_init; exact ⟨h1, h2, h3, h4, h5⟩
  have hprog : aux_ce_prog (cleanupsAfter [] before) [] { CtxExit.init with cleanups := c } :=
    ⟨fun _ => ⟨rfl, by rw [List.append_nil]; exact hl⟩, fun i k hk => by simp [CtxExit.init] at hk, fun i k hk => by simp [CtxExit.init] at hk,
      fun h0 => absurd rfl h0⟩
  have hfin := key _ after [] _ s ha hinit hprog h
  obtain ⟨n, _, hn⟩ := hfin.done hd.1 (fun i => by rcases hd.2 i with e | e <;> rw [e] <;> rfl)
  exact ⟨n, by simpa using hn⟩

/-- The thread that ends the context can always go on until it returns, and calls all cleanup functions left. -/
theorem C79_ends (s : CtxExit) (i : Nat) (h : endsCtx (s.pc i) = true) :
    ∃ n r, s.run (List.replicate n (.go i)) = some r ∧ r.pc i = .returned := by
  have key : ∀ (m k : Nat) (s : CtxExit), s.pc i = .cleaning k → (s.cleanups.getD []).length - k = m →
      ∃ n r, s.run (List.replicate n (.go i)) = some r ∧ r.pc i = .returned := by
    intro m
    induction m with
    | zero =>
      intro k s hp hm
      refine ⟨1, { s with cleanups := none }.at i .returned, ?_, by simp [aux_ce_at]⟩
      simp only [List.replicate, CtxExit.run, CtxExit.step, hp]
      rw [List.getElem?_eq_none (by omega)]
    | succ m ih =>
      intro k s hp hm
      have hlt : k < (s.cleanups.getD []).length := by omega
      have hg : (s.cleanups.getD [])[k]? = some ((s.cleanups.getD [])[k]) := List.getElem?_eq_getElem hlt
      obtain ⟨n, r, hr, hrp⟩ := ih (k + 1) (({ s with called := s.called ++ [(s.cleanups.getD [])[k]] }.at i (.inFunc k)).at i (.cleaning (k + 1)))
        (by simp [aux_ce_at]) (by simp only [CtxExit.at]; omega)
      refine ⟨n + 2, r, ?_, hrp⟩
      simp only [List.replicate_succ, CtxExit.run, CtxExit.step, hp, hg, aux_ce_at, if_true]
      exact hr
  cases hp : s.pc i with
  | out => rw [hp] at h; simp [endsCtx] at h
  | returned => rw [hp] at h; simp [endsCtx] at h
  | checked => rw [hp] at h; simp [endsCtx] at h
  | cleaning k => exact key _ k s hp rfl
  | inFunc k =>
    obtain ⟨n, r, hr, hrp⟩ := key _ (k + 1) (s.at i (.cleaning (k + 1))) (by simp [aux_ce_at]) rfl
    refine ⟨n + 1, r, ?_, hrp⟩
    simp only [List.replicate_succ, CtxExit.run, CtxExit.step, hp]
    exact hr
  | stopping =>
    cases hc : s.cleanups with
    | none =>
      refine ⟨1, { s with stops := s.stops + 1, mutexGone := true }.at i .returned, ?_, by simp [aux_ce_at]⟩
      simp only [List.replicate, CtxExit.run, CtxExit.step, hp, hc]
    | some l =>
      obtain ⟨n, r, hr, hrp⟩ := key _ 0 ({ s with stops := s.stops + 1, mutexGone := true }.at i (.cleaning 0)) (by simp [aux_ce_at]) rfl
      refine ⟨n + 1, r, ?_, hrp⟩
      simp only [List.replicate_succ, CtxExit.run, CtxExit.step, hp, hc]
      rw [hc] at hr; exact hr

/-- Two threads end a context with two cleanup functions. -/
example : ∃ s, CtxExit.init.run ([.install 1, .install 2] ++ [.call 0, .call 1, .go 0, .go 1, .go 0, .go 0, .install 3, .go 0, .go 0, .go 0, .go 0, .go 0, .go 0]) = some s ∧
    exitDone s ∧ s.called = [1, 2, 3] := by
  refine ⟨_, rfl, ⟨by show (1 : Nat) ≠ 0; decide, fun i => ?_⟩, rfl⟩
  simp only [aux_ce_at, CtxExit.init]
  repeat' split
  all_goals simp

example : politeExit CtxExit.init [.install 1, .call 0, .call 1, .go 0, .go 1, .go 0] := by
  simp [politeExit, CtxExit.init, CtxExit.step, CtxExit.at]
  intro j; split <;> (try split) <;> simp

/-- A thread that saw the flag clear locks the mutex after the other thread destroyed it. -/
theorem C79_destroyed_mutex : CtxExit.init.run [.call 0, .call 1, .go 0, .go 0, .go 1] = none := rfl

/-- A cleanup function that removes itself makes the next one be skipped. -/
theorem C79_skipped : ∃ s, CtxExit.init.run ([.install 1, .install 2] ++ [.call 0, .go 0, .go 0, .go 0, .remove 1, .go 0, .go 0]) = some s ∧
    exitDone s ∧ s.called = [1] := by
  refine ⟨_, rfl, ⟨by show (1 : Nat) ≠ 0; decide, fun i => ?_⟩, rfl⟩
  simp only [aux_ce_at, CtxExit.init]
  repeat' split
  all_goals simp

theorem C79_statement_false : ¬ C79_statement := by
  intro h
  obtain ⟨s, hr, _⟩ := h [.call 0, .call 1, .go 0, .go 0, .go 1]
  rw [C79_destroyed_mutex] at hr
  simp at hr

/-! ## C80 -/

/-- C80, full: threads that only use their own references never use a released context, and `vortex_ctx_unref` sets the pointer of the
caller to `NULL` exactly if it released the context. False of the code. -/
def C80_statement : Prop :=
  ∀ acts, ∃ s, CtxRefs.init.run acts = some s ∧ ∀ i b, s.pc i = .gave b → (b = true ↔ s.releasedBy = some i)

/-- The thread has a reference. -/
def aux_ce_holds : UnrefPc → Bool
  | .has => true
  | .looked _ => true
  | _ => false

/-- References are counted exactly. -/
structure aux_ce_refs (s : CtxRefs) : Prop where
  count : ∃ L : List Nat, L.Nodup ∧ (∀ i, i ∈ L ↔ aux_ce_holds (s.pc i) = true) ∧ s.refs = L.length
  rel : s.releasedBy.isSome ↔ s.refs = 0
  null : ∀ i, s.pc i = .looked true → s.refs = 1
  gave : ∀ i, s.pc i = .gave true → s.releasedBy = some i

theorem aux_ce_uat (s : CtxRefs) (i j : Nat) (p : UnrefPc) : (s.at i p).pc j = if j = i then p else s.pc j := rfl

theorem aux_ce_ustep (s : CtxRefs) (a : UnrefAct) (h : aux_ce_refs s) : ∃ r, s.step a = some r ∧ aux_ce_refs r := by
  obtain ⟨⟨L, l1, l2, l3⟩, h2, h3, h4⟩ := h
  have hlive : ∀ i, aux_ce_holds (s.pc i) = true → s.releasedBy = none ∧ s.refs ≠ 0 := by
    intro i hi
    have := List.length_pos_of_mem ((l2 i).2 hi)
    refine ⟨?_, by omega⟩
    cases hr : s.releasedBy with
    | none => rfl
    | some _ => rw [hr] at h2; simp at h2; omega
  have hsame : aux_ce_refs s := ⟨⟨L, l1, l2, l3⟩, h2, h3, h4⟩
  cases a with
  | ref i j =>
    simp only [CtxRefs.step]
    split
    · next hi hj =>
      obtain ⟨e1, e2⟩ := hlive i (by rw [hi]; rfl)
      simp only [e1, Option.isSome_none, Bool.false_eq_true, if_false]
      have hjL : j ∉ L := by rw [l2, hj]; simp [aux_ce_holds]
      refine ⟨_, rfl, ⟨⟨j :: L, List.nodup_cons.2 ⟨hjL, l1⟩, fun k => ?_, ?_⟩, ?_, ?_, ?_⟩⟩
      · rw [aux_ce_uat, List.mem_cons]
        by_cases hk : k = j
        · simp [hk, aux_ce_holds]
        · simp only [hk, false_or, if_false]; exact l2 k
      · simp [CtxRefs.at, l3]
      · simp [CtxRefs.at, e1]
      · intro k hk
        rw [aux_ce_uat] at hk
        split at hk
        · simp at hk
        · have hr := h3 k hk
          have hiL : i ∈ L := (l2 i).2 (by rw [hi]; rfl)
          have hkL : k ∈ L := (l2 k).2 (by dsimp only at hk; rw [hk]; rfl)
          have hik : i = k := by
            rw [l3] at hr
            obtain ⟨x, hx⟩ := List.length_eq_one_iff.1 hr
            rw [hx] at hiL hkL; simp at hiL hkL; rw [hiL, hkL]
          dsimp only at hk
          rw [← hik, hi] at hk; simp at hk
      · intro k hk
        rw [aux_ce_uat] at hk
        split at hk
        · simp at hk
        · have := h4 k hk; rw [e1] at this; simp at this
    · exact ⟨_, rfl, hsame⟩
  | go i =>
    simp only [CtxRefs.step]
    cases hp : s.pc i with
    | without => exact ⟨_, rfl, hsame⟩
    | gave b => exact ⟨_, rfl, hsame⟩
    | has =>
      obtain ⟨e1, e2⟩ := hlive i (by rw [hp]; rfl)
      simp only [e1, e2, Option.isSome_none, Bool.false_eq_true, if_false]
      refine ⟨_, rfl, ⟨⟨L, l1, fun k => ?_, l3⟩, h2, ?_, ?_⟩⟩
      · rw [aux_ce_uat]
        by_cases hk : k = i
        · subst hk; rw [l2, hp]; simp [aux_ce_holds]
        · simp only [hk, if_false]; exact l2 k
      · intro k hk
        rw [aux_ce_uat] at hk
        split at hk
        · simp only [UnrefPc.looked.injEq, beq_iff_eq] at hk; exact hk
        · exact h3 k hk
      · intro k hk
        rw [aux_ce_uat] at hk
        split at hk
        · simp at hk
        · exact h4 k hk
    | looked b =>
      obtain ⟨e1, e2⟩ := hlive i (by rw [hp]; rfl)
      simp only [e1, Option.isSome_none, Bool.false_eq_true, if_false]
      have hiL : i ∈ L := (l2 i).2 (by rw [hp]; rfl)
      refine ⟨_, rfl, ⟨⟨L.erase i, l1.erase _, fun k => ?_, ?_⟩, ?_, ?_, ?_⟩⟩
      · rw [aux_ce_uat, l1.mem_erase_iff]
        by_cases hk : k = i
        · simp [hk, aux_ce_holds]
        · simp only [ne_eq, hk, not_false_eq_true, true_and, if_false]; exact l2 k
      · simp [CtxRefs.at, List.length_erase_of_mem hiL, l3]
      · simp only [CtxRefs.at]; split
        · next e => simp [e]
        · simp; omega
      · intro k hk
        rw [aux_ce_uat] at hk
        split at hk
        · simp at hk
        · next hki =>
          have hr := h3 k hk
          have hkL : k ∈ L := (l2 k).2 (by dsimp only at hk; rw [hk]; rfl)
          rw [l3] at hr
          obtain ⟨x, hx⟩ := List.length_eq_one_iff.1 hr
          rw [hx] at hiL hkL; simp at hiL hkL
          exact absurd (hkL.trans hiL.symm) hki
      · intro k hk
        rw [aux_ce_uat] at hk
        split at hk
        · next hki =>
          subst hki
          simp only [UnrefPc.gave.injEq] at hk
          subst hk
          simp [CtxRefs.at, h3 k hp]
        · have := h4 k hk; rw [e1] at this; simp at this

/-- No thread that only uses its own reference ever uses a released context; the context is released exactly when no thread has a reference;
a pointer is set to `NULL` only by the call that released the context. Missing: that it is set by every such call. -/
theorem C80_safe_partial (acts : List UnrefAct) : ∃ s, CtxRefs.init.run acts = some s ∧
    (s.releasedBy.isSome ↔ ∀ i, s.pc i ≠ .has ∧ ∀ b, s.pc i ≠ .looked b) ∧ ∀ i, s.pc i = .gave true → s.releasedBy = some i := by
  have key : ∀ (acts : List UnrefAct) (s : CtxRefs), aux_ce_refs s → ∃ r, s.run acts = some r ∧ aux_ce_refs r := by
    intro acts
    induction acts with
    | nil => intro s h; exact ⟨s, rfl, h⟩
    | cons a acts ih =>
      intro s h
      obtain ⟨r, hr, hi⟩ := aux_ce_ustep s a h
      obtain ⟨q, hq, hqi⟩ := ih r hi
      exact ⟨q, by simp only [CtxRefs.run, hr, hq], hqi⟩
  have hinit : aux_ce_refs CtxRefs.init := by
    refine ⟨⟨[0], by simp, fun i => ?_, rfl⟩, by simp [CtxRefs.init], fun i hi => rfl, fun i hi => ?_⟩
    · simp only [CtxRefs.init, List.mem_singleton]; split <;> simp_all [aux_ce_holds]
    · simp only [CtxRefs.init] at hi; split at hi <;> simp at hi
  obtain ⟨s, hs, ⟨L, l1, l2, l3⟩, h2, h3, h4⟩ := key acts _ hinit
  refine ⟨s, hs, ?_, h4⟩
  rw [h2, l3]
  constructor
  · intro h0 i
    have hno : aux_ce_holds (s.pc i) ≠ true := by
      intro h
      have := List.length_pos_of_mem ((l2 i).2 h); omega
    exact ⟨fun e => hno (by rw [e]; rfl), fun b e => hno (by rw [e]; rfl)⟩
  · intro h
    rw [List.length_eq_zero_iff, List.eq_nil_iff_forall_not_mem]
    intro i hi
    have := (l2 i).1 hi
    cases hp : s.pc i with
    | without => rw [hp] at this; simp [aux_ce_holds] at this
    | gave b => rw [hp] at this; simp [aux_ce_holds] at this
    | has => exact (h i).1 hp
    | looked b => exact (h i).2 b hp

/-- A context used by two threads, one after the other. -/
example : ∃ s, CtxRefs.init.run [.ref 0 1, .go 0, .go 0, .go 1, .go 1] = some s ∧ s.releasedBy = some 1 ∧ s.pc 1 = .gave true ∧ s.pc 0 = .gave false :=
  ⟨_, rfl, rfl, rfl, rfl⟩

/-- Both threads look at the counter before either gives its reference back: the context is released and neither pointer is set to
`NULL`. -/
theorem C80_left : ∃ s, CtxRefs.init.run [.ref 0 1, .go 0, .go 1, .go 0, .go 1] = some s ∧ s.releasedBy = some 1 ∧ s.pc 1 = .gave false ∧ s.pc 0 = .gave false :=
  ⟨_, rfl, rfl, rfl, rfl⟩

theorem C80_statement_false : ¬ C80_statement := by
  intro h
  obtain ⟨s, hs, h⟩ := h [.ref 0 1, .go 0, .go 1, .go 0, .go 1]
  obtain ⟨t, ht, t1, t2, _⟩ := C80_left
  rw [ht] at hs; simp only [Option.some.injEq] at hs; subst hs
  have := (h 1 false t2).2 t1
  simp at this

end Verif.Props
