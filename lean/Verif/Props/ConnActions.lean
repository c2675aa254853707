import Verif.Spec.ConnActions
/-!
# Actions on new connections
-/
namespace Verif.Props
open Verif.Model Verif.Spec

theorem aux_nf_succ (stage : NfStage) (actions : List NfStage) (n : Nat) :
    nfDue stage actions (n + 1) = if actions[n]? = some stage then nfDue stage actions n ++ [n] else nfDue stage actions n := by
  simp only [nfDue, List.range_succ, List.filter_append, List.filter_cons, List.filter_nil, beq_iff_eq]
  split <;> simp_all

theorem aux_nf_grow (stage st : NfStage) (actions : List NfStage) (n : Nat) (h : n ≤ actions.length) :
    nfDue stage (actions ++ [st]) n = nfDue stage actions n := by
  simp only [nfDue]
  apply List.filter_congr
  intro k hk
  rw [List.getElem?_append_left (by have := List.mem_range.mp hk; omega)]

theorem aux_nf_mono (stage : NfStage) (actions : List NfStage) (n m : Nat) (h : n ≤ m) :
    nfDue stage actions n <+: nfDue stage actions m := by
  induction m with
  | zero => have : n = 0 := by omega
            subst this; exact List.prefix_refl _
  | succ m ih =>
    by_cases hn : n = m + 1
    · subst hn; exact List.prefix_refl _
    · rw [aux_nf_succ]
      have := ih (by omega)
      split
      · exact this.trans (List.prefix_append _ _)
      · exact this

/-- What the search finds. -/
theorem aux_nf_find (stage : NfStage) (actions : List NfStage) : ∀ (fuel k : Nat), k + fuel = actions.length →
    k ≤ (nfFind stage actions k fuel).1 ∧ (nfFind stage actions k fuel).1 ≤ actions.length ∧
    nfDue stage actions (nfFind stage actions k fuel).1 = nfDue stage actions k ∧
    ((nfFind stage actions k fuel).2 = true → actions[(nfFind stage actions k fuel).1]? = some stage) ∧
    ((nfFind stage actions k fuel).2 = false → (nfFind stage actions k fuel).1 = actions.length) := by
  intro fuel
  induction fuel with
  | zero => intro k h; simp [nfFind]; omega
  | succ fuel ih =>
    intro k h
    have hk : k < actions.length := by omega
    simp only [nfFind, List.getElem?_eq_getElem hk]
    split
    · rename_i hs; simp [hs, List.getElem?_eq_getElem hk]; omega
    · rename_i hs
      obtain ⟨h1, h2, h3, h4, h5⟩ := ih (k + 1) (by omega)
      refine ⟨by omega, h2, ?_, h4, h5⟩
      rw [h3, aux_nf_succ, List.getElem?_eq_getElem hk, if_neg]
      simpa using hs

structure NfFr (actions : List NfStage) (f : NfFrame) : Prop where
  inside : ∀ k, f.inside = some k → k = f.iterator ∧ actions[k]? = some f.stage ∧ f.result = none ∧
    f.calls.map Prod.fst = nfDue f.stage actions (k + 1)
  outside : f.inside = none → f.result = none → f.calls.map Prod.fst = nfDue f.stage actions f.iterator
  le : f.iterator ≤ actions.length
  some : ∃ n, n ≤ actions.length ∧ f.calls.map Prod.fst = nfDue f.stage actions n

theorem aux_nf_advance (actions : List NfStage) (f : NfFrame) (h : NfFr actions f) : NfFr actions (f.advance actions) := by
  obtain ⟨h1, h2, h3, h4⟩ := h
  have h0 : NfFr actions f := ⟨h1, h2, h3, h4⟩
  simp only [NfFrame.advance]
  split
  · rename_i hr hi
    have hf := aux_nf_find f.stage actions (actions.length - f.iterator) f.iterator (by omega)
    have hc := h2 hi hr
    split
    · rename_i k hk
      simp only [hk] at hf
      obtain ⟨f1, f2, f3, f4, f5⟩ := hf
      have hk' := f4 trivial
      have hlt : k < actions.length := by
        rcases Nat.lt_or_ge k actions.length with h | h
        · exact h
        · rw [List.getElem?_eq_none h] at hk'; cases hk'
      have e : (f.calls ++ [(k, f.conn)]).map Prod.fst = nfDue f.stage actions (k + 1) := by
        rw [aux_nf_succ, if_pos hk', f3, List.map_append, hc]; rfl
      constructor
      · intro k' hk2; cases hk2; exact ⟨rfl, hk', hr, e⟩
      · intro hn; cases hn
      · exact f2
      · exact ⟨k + 1, hlt, e⟩
    · rename_i k hk
      simp only [hk] at hf
      constructor
      · intro k' hk2; rw [hi] at hk2; cases hk2
      · intro _ hn; cases hn
      · exact hf.2.1
      · exact h4
  · exact h0

theorem aux_nf_ret (actions : List NfStage) (f : NfFrame) (r : Int) (new : Option Nat) (h : NfFr actions f) :
    NfFr actions (f.ret r new) := by
  obtain ⟨h1, h2, h3, h4⟩ := h
  have h0 : NfFr actions f := ⟨h1, h2, h3, h4⟩
  simp only [NfFrame.ret]
  split
  · exact h0
  · rename_i k hk
    obtain ⟨e1, e2, e3, e4⟩ := h1 k hk
    subst e1
    have hlt : f.iterator < actions.length := by
      rcases Nat.lt_or_ge f.iterator actions.length with h | h
      · exact h
      · rw [List.getElem?_eq_none h] at e2; cases e2
    split
    · constructor <;> grind
    · split
      · constructor <;> grind
      · split <;> constructor <;> grind

theorem aux_nf_register (actions : List NfStage) (st : NfStage) (f : NfFrame) (h : NfFr actions f) :
    NfFr (actions ++ [st]) f := by
  obtain ⟨h1, h2, h3, h4⟩ := h
  constructor
  · intro k hk
    obtain ⟨e1, e2, e3, e4⟩ := h1 k hk
    have hlt : k < actions.length := by
      rcases Nat.lt_or_ge k actions.length with h | h
      · exact h
      · rw [List.getElem?_eq_none h] at e2; cases e2
    exact ⟨e1, by rw [List.getElem?_append_left hlt]; exact e2, e3, by rw [aux_nf_grow _ _ _ _ (by omega)]; exact e4⟩
  · intro hi hr; rw [aux_nf_grow _ _ _ _ h3]; exact h2 hi hr
  · simp; omega
  · obtain ⟨n, hn, hc⟩ := h4
    exact ⟨n, by simp; omega, by rw [aux_nf_grow _ _ _ _ hn]; exact hc⟩

theorem aux_nf_step (s : Nf) (op : NfOp) (h : ∀ (i : Nat) (f : NfFrame), s.frames[i]? = some f → NfFr s.actions f) :
    ∀ (i : Nat) (f : NfFrame), (s.step op).frames[i]? = some f → NfFr (s.step op).actions f := by
  intro i f hf
  cases op with
  | register st => exact aux_nf_register _ _ _ (h i f hf)
  | breaks c => exact h i f hf
  | notify c st =>
    simp only [Nf.step] at hf ⊢
    rcases Nat.lt_or_ge i s.frames.length with hi | hi
    · rw [List.getElem?_append_left hi] at hf; exact h i f hf
    · rw [List.getElem?_append_right hi] at hf
      rcases hx : i - s.frames.length with _ | n
      · rw [hx] at hf; simp at hf; subst hf
        constructor
        · intro k hk; cases hk
        · intro _ _; simp [nfDue]
        · simp
        · exact ⟨0, by omega, by simp [nfDue]⟩
      · rw [hx] at hf; simp at hf
  | advance j =>
    simp only [Nf.step, List.getElem?_modify] at hf ⊢
    rcases hg : s.frames[i]? with _ | g
    · rw [hg] at hf; simp at hf
    · rw [hg] at hf
      simp only [Option.map_eq_map, Option.map_some, Option.some.injEq] at hf
      subst hf
      split
      · exact aux_nf_advance _ _ (h i g hg)
      · exact h i g hg
  | ret j r new =>
    simp only [Nf.step] at hf ⊢
    split at hf
    · simp only [List.getElem?_modify] at hf
      show NfFr s.actions _
      rcases hg : s.frames[i]? with _ | g
      · rw [hg] at hf; simp at hf
      · rw [hg] at hf
        simp only [Option.map_eq_map, Option.map_some, Option.some.injEq] at hf
        subst hf
        split
        · exact aux_nf_ret _ _ _ _ (h i g hg)
        · exact h i g hg
    · exact h i f hf

theorem aux_nf_run (ops : List NfOp) : ∀ s : Nf, (∀ (i : Nat) (f : NfFrame), s.frames[i]? = some f → NfFr s.actions f) →
    ∀ (i : Nat) (f : NfFrame), (s.run ops).frames[i]? = some f → NfFr (s.run ops).actions f := by
  induction ops with
  | nil => intro s h; exact h
  | cons op ops ih => intro s h; exact ih _ (aux_nf_step s op h)

/-- **C125 (partial).** Whatever happens meanwhile, a notification calls actions of its stage only, in the order they were
registered, and leaves none out before the last it called. In particular it calls none twice. -/
theorem C125_order_partial (ops : List NfOp) (i : Nat) (f : NfFrame) (h : (Nf.init.run ops).frames[i]? = some f) :
    f.calls.map Prod.fst <+: nfDue f.stage (Nf.init.run ops).actions (Nf.init.run ops).actions.length ∧
    (f.calls.map Prod.fst).Pairwise (· < ·) := by
  have hf := aux_nf_run ops Nf.init (by intro i f h; simp [Nf.init] at h) i f h
  obtain ⟨n, hn, hc⟩ := hf.some
  refine ⟨hc ▸ aux_nf_mono _ _ _ _ hn, ?_⟩
  rw [hc]
  exact List.Pairwise.filter _ List.pairwise_lt_range

/-- Two notifications run at the same time, and an action is registered meanwhile. -/
example : ((Nf.init.run [.register .created, .register .features, .register .created, .notify 0 .created, .advance 0,
      .notify 1 .features, .advance 1, .ret 0 1 none, .register .created, .advance 0, .ret 0 1 none, .advance 0]).frames.map
      NfFrame.calls) = [[(0, some 0), (2, some 0), (3, some 0)], [(1, some 1)]] := by decide +kernel

/-! ## One notification -/

/-- What a step makes of a frame. -/
def aux_nf_next (actions : List NfStage) (i : Nat) (f : NfFrame) : NfOp → NfFrame
  | .advance j => if j = i then f.advance actions else f
  | .ret j r new => if j = i then f.ret r new else f
  | _ => f

theorem aux_nf_frame (s : Nf) (op : NfOp) (i : Nat) (f : NfFrame) (h : s.frames[i]? = some f) :
    (s.step op).frames[i]? = some (aux_nf_next s.actions i f op) := by
  have hlt : i < s.frames.length := by
    rcases Nat.lt_or_ge i s.frames.length with h' | h'
    · exact h'
    · rw [List.getElem?_eq_none h'] at h; cases h
  cases op with
  | register st => exact h
  | breaks c => exact h
  | notify c st => simp only [Nf.step, aux_nf_next]; rw [List.getElem?_append_left hlt]; exact h
  | advance j =>
    simp only [Nf.step, aux_nf_next, List.getElem?_modify, h]
    simp
  | ret j r new =>
    simp only [Nf.step, aux_nf_next]
    split
    · simp only [List.getElem?_modify, h]; simp
    · rename_i hn
      by_cases hj : j = i
      · subst hj; rw [h] at hn; cases hn
      · rw [if_neg hj]; exact h

theorem aux_nf_actions (s : Nf) (op : NfOp) : s.actions.length ≤ (s.step op).actions.length ∧
    (∀ stage n, n ≤ s.actions.length → nfDue stage (s.step op).actions n = nfDue stage s.actions n) := by
  cases op with
  | register st => simp only [Nf.step]; exact ⟨by simp, fun _ n hn => aux_nf_grow _ _ _ n hn⟩
  | ret j r new => simp only [Nf.step]; split <;> simp
  | _ => simp [Nf.step]

theorem aux_nf_actionsRun (ops : List NfOp) : ∀ s : Nf, s.actions.length ≤ (s.run ops).actions.length ∧
    (∀ stage n, n ≤ s.actions.length → nfDue stage (s.run ops).actions n = nfDue stage s.actions n) := by
  induction ops with
  | nil => intro s; simp [Nf.run]
  | cons op ops ih =>
    intro s
    have h1 := aux_nf_actions s op
    have h2 := ih (s.step op)
    refine ⟨Nat.le_trans h1.1 h2.1, fun stage n hn => ?_⟩
    have : s.run (op :: ops) = (s.step op).run ops := rfl
    rw [this, h2.2 stage n (by omega), h1.2 stage n hn]

/-- The notification is not over, or went through `n` actions, or failed. -/
structure NfThrough (n : Nat) (s : Nf) (f : NfFrame) : Prop where
  all : f.result = some true → nfDue f.stage s.actions n <+: f.calls.map Prod.fst

theorem aux_nf_through (ops : List NfOp) (i n : Nat) : ∀ (s : Nf) (f : NfFrame), n ≤ s.actions.length →
    s.frames[i]? = some f → NfFr s.actions f → NfThrough n s f → (∀ (r : Int) (new : Option Nat), .ret i r new ∈ ops → r ≠ 0) →
    ∃ g, (s.run ops).frames[i]? = some g ∧ NfThrough n (s.run ops) g ∧ g.stage = f.stage := by
  induction ops with
  | nil => intro s f _ h _ ht _; exact ⟨f, h, ht, rfl⟩
  | cons op ops ih =>
    intro s f hn h hf ht hr
    have h1 := aux_nf_frame s op i f h
    have hact := aux_nf_actions s op
    have hstage : (aux_nf_next s.actions i f op).stage = f.stage := by
      cases op <;> simp only [aux_nf_next]
      · split
        · simp only [NfFrame.advance]; split
          · split <;> rfl
          · rfl
        · rfl
      · split
        · simp only [NfFrame.ret]; split
          · rfl
          · split
            · rfl
            · split
              · rfl
              · split <;> rfl
        · rfl
    have hf' : NfFr (s.step op).actions (aux_nf_next s.actions i f op) := by
      cases op with
      | register st => exact aux_nf_register _ _ _ hf
      | breaks c => exact hf
      | notify c st => exact hf
      | advance j =>
        simp only [aux_nf_next, Nf.step]; split
        · exact aux_nf_advance _ _ hf
        · exact hf
      | ret j r new =>
        have : (s.step (.ret j r new)).actions = s.actions := by simp only [Nf.step]; split <;> rfl
        rw [this]
        simp only [aux_nf_next]; split
        · exact aux_nf_ret _ _ _ _ hf
        · exact hf
    have ht' : NfThrough n (s.step op) (aux_nf_next s.actions i f op) := by
      constructor
      intro hres
      rw [hstage, hact.2 _ _ hn]
      cases op with
      | register st => exact ht.all hres
      | breaks c => exact ht.all hres
      | notify c st => exact ht.all hres
      | advance j =>
        simp only [aux_nf_next] at hres ⊢
        split at hres
        · rename_i hj
          rw [if_pos hj]
          simp only [NfFrame.advance] at hres ⊢
          split at hres
          · rename_i hr0 hi0
            have hfd := aux_nf_find f.stage s.actions (s.actions.length - f.iterator) f.iterator (by have := hf.le; omega)
            split at hres
            · simp only [hr0] at hres; cases hres
            · rename_i k hk
              simp only [hk] at hfd ⊢
              have : k = s.actions.length := hfd.2.2.2.2 trivial
              rw [hf.outside hi0 hr0, ← hfd.2.2.1, this]
              exact aux_nf_mono _ _ _ _ hn
          · rename_i hx
            exact ht.all hres
        · rename_i hj; rw [if_neg hj]; exact ht.all hres
      | ret j r new =>
        simp only [aux_nf_next] at hres ⊢
        split at hres
        · rename_i hj
          subst hj
          rw [if_pos rfl]
          have hr0 : r ≠ 0 := hr r new (by simp)
          rcases hi : f.inside with _ | k
          · simp only [NfFrame.ret, hi] at hres ⊢; exact ht.all hres
          · have e := (hf.inside k hi).2.2.1
            simp only [NfFrame.ret, hi] at hres
            grind
        · rename_i hj; rw [if_neg hj]; exact ht.all hres
    obtain ⟨g, g1, g2, g3⟩ := ih (s.step op) _ (by omega) h1 hf' ht' (fun r new hm => hr r new (by simp [hm]))
    exact ⟨g, g1, g2, g3.trans hstage⟩

/-- **C125 (partial).** A notification that succeeds, and whose actions do not ask to stop, called every action of its stage
that was registered before it began. -/
theorem C125_all_partial (before after : List NfOp) (c : Nat) (stage : NfStage) (f : NfFrame)
    (h0 : ∀ (r : Int) (new : Option Nat), .ret (Nf.init.run before).frames.length r new ∈ after → r ≠ 0)
    (h1 : (Nf.init.run (before ++ .notify c stage :: after)).frames[(Nf.init.run before).frames.length]? = some f)
    (h2 : f.result = some true) :
    nfDue stage (Nf.init.run before).actions (Nf.init.run before).actions.length <+: f.calls.map Prod.fst := by
  have e : Nf.init.run (before ++ .notify c stage :: after) = ((Nf.init.run before).step (.notify c stage)).run after := by
    simp [Nf.run]
  rw [e] at h1
  generalize Nf.init.run before = s at *
  have hfr : (s.step (.notify c stage)).frames[s.frames.length]? =
      some ⟨stage, some c, 0, none, [], if s.ok c then none else some false⟩ := by simp [Nf.step]
  obtain ⟨g, g1, g2, g3⟩ := aux_nf_through after s.frames.length s.actions.length (s.step (.notify c stage)) _
    (Nat.le_refl _) hfr
    (by constructor
        · intro k hk; cases hk
        · intro _ _; simp [nfDue]
        · simp
        · exact ⟨0, by omega, by simp [nfDue]⟩)
    (by constructor; simp only; split <;> simp) h0
  rw [h1] at g1; cases g1
  have h3 := g2.all h2
  rw [g3] at h3
  simp only at h3
  rw [(aux_nf_actionsRun after (s.step (.notify c stage))).2 stage s.actions.length (Nat.le_refl _)] at h3
  exact h3

example : ((Nf.init.run ([.register .created, .register .created] ++ .notify 7 .created :: [.advance 0, .ret 0 2 (some 8), .advance 0,
    .ret 0 1 none, .advance 0])).frames[0]?.map fun f => (f.result, f.calls)) = some (some true, [(0, some 7), (1, some 8)]) := by
  decide +kernel

theorem aux_nf_over (ops : List NfOp) (i : Nat) : ∀ (s : Nf) (f : NfFrame), s.frames[i]? = some f → f.result ≠ none →
    f.inside = none → (s.run ops).frames[i]? = some f := by
  induction ops with
  | nil => intro s f h _ _; exact h
  | cons op ops ih =>
    intro s f h hr hi
    refine ih (s.step op) f ?_ hr hi
    rw [aux_nf_frame s op i f h]
    congr 1
    cases op <;> simp only [aux_nf_next, NfFrame.advance, NfFrame.ret, hi] <;> grind

theorem aux_nf_broken (ops : List NfOp) (c : Nat) : ∀ s : Nf, s.ok c = false → (s.run ops).ok c = false := by
  induction ops with
  | nil => intro s h; exact h
  | cons op ops ih =>
    intro s h
    refine ih (s.step op) ?_
    cases op with
    | ret j r new => simp only [Nf.step, NfFrame.okAfter]; grind
    | breaks d => simp only [Nf.step]; split <;> simp_all
    | _ => exact h

/-- **C125 (partial).** An action that fails ends the notification: it returns false, no other action is called by it, and
the connection is closed for good. An action that asks to stop ends it too, without a failure. -/
theorem C125_stop_partial (before after : List NfOp) (i k : Nat) (f : NfFrame) (new : Option Nat) (r : Int)
    (h1 : (Nf.init.run before).frames[i]? = some f) (h2 : f.inside = some k) (hr : r = -1 ∨ r = 0) :
    (∃ g, (Nf.init.run (before ++ .ret i r new :: after)).frames[i]? = some g ∧ g.calls = f.calls ∧
      g.result = some (decide (r = 0))) ∧
    (r = -1 → ∀ c, f.conn = some c → (Nf.init.run (before ++ .ret i r new :: after)).ok c = false) := by
  have e : Nf.init.run (before ++ .ret i r new :: after) = ((Nf.init.run before).step (.ret i r new)).run after := by
    simp [Nf.run]
  rw [e]
  have hf := aux_nf_frame _ (.ret i r new) i f h1
  refine ⟨?_, ?_⟩
  · refine ⟨_, aux_nf_over after i _ _ hf ?_ ?_, ?_, ?_⟩ <;> rcases hr with hr | hr <;> subst hr <;>
      simp [aux_nf_next, NfFrame.ret, h2]
  · intro hr1 c hc
    apply aux_nf_broken
    simp [Nf.step, h1, NfFrame.okAfter, h2, hc, hr1]

example : (Nf.init.run [.register .created, .register .created, .notify 7 .created, .advance 0]).frames[0]?.map NfFrame.inside = some (some 0) ∧
    ((Nf.init.run ([.register .created, .register .created, .notify 7 .created, .advance 0] ++ .ret 0 (-1) none ::
      [.advance 0, .advance 0])).frames[0]?.map fun f => (f.result, f.calls)) = some (some false, [(0, some 7)]) := by
  decide +kernel

/-- **C125 (partial).** A connection that is not ok when its notification begins is given to no action. -/
theorem C125_closed_partial (before after : List NfOp) (c : Nat) (stage : NfStage) (h : (Nf.init.run before).ok c = false) :
    ∃ g, (Nf.init.run (before ++ .notify c stage :: after)).frames[(Nf.init.run before).frames.length]? = some g ∧
      g.calls = [] ∧ g.result = some false := by
  have e : Nf.init.run (before ++ .notify c stage :: after) = ((Nf.init.run before).step (.notify c stage)).run after := by
    simp [Nf.run]
  rw [e]
  generalize Nf.init.run before = s at *
  have hfr : (s.step (.notify c stage)).frames[s.frames.length]? =
      some ⟨stage, some c, 0, none, [], some false⟩ := by simp [Nf.step, h]
  exact ⟨_, aux_nf_over after _ _ _ hfr (by simp) rfl, rfl, rfl⟩

example : (Nf.init.run [.register .created, .breaks 3]).ok 3 = false := by decide +kernel

/-! ## Which connection an action gets -/

structure NfConn (p : Option Nat → Prop) (f : NfFrame) : Prop where
  now : p f.conn
  calls : ∀ x ∈ f.calls, p x.2

theorem aux_nf_conn (p : Option Nat → Prop) (ops : List NfOp) (i : Nat) : ∀ (s : Nf) (f : NfFrame), s.frames[i]? = some f →
    NfConn p f → (∀ new, .ret i 2 new ∈ ops → p new) → ∃ g, (s.run ops).frames[i]? = some g ∧ NfConn p g := by
  induction ops with
  | nil => intro s f h hp _; exact ⟨f, h, hp⟩
  | cons op ops ih =>
    intro s f h hp hr
    refine ih (s.step op) _ (aux_nf_frame s op i f h) ?_ (fun new hm => hr new (by simp [hm]))
    obtain ⟨p1, p2⟩ := hp
    cases op with
    | advance j =>
      simp only [aux_nf_next, NfFrame.advance]
      split
      · split
        · split
          · constructor <;> grind
          · exact ⟨p1, p2⟩
        · exact ⟨p1, p2⟩
      · exact ⟨p1, p2⟩
    | ret j r new =>
      have := hr new
      simp only [aux_nf_next, NfFrame.ret]
      constructor <;> grind
    | _ => exact ⟨p1, p2⟩

/-- **C125 (partial).** Unless an action replaces it, every action gets the connection that is notified; and if every
replacement is a connection, none gets NULL. -/
theorem C125_conn_partial (before after : List NfOp) (c : Nat) (stage : NfStage) (f : NfFrame)
    (h1 : (Nf.init.run (before ++ .notify c stage :: after)).frames[(Nf.init.run before).frames.length]? = some f) :
    ((∀ new, .ret (Nf.init.run before).frames.length 2 new ∉ after) → ∀ x ∈ f.calls, x.2 = some c) ∧
    ((∀ new, .ret (Nf.init.run before).frames.length 2 new ∈ after → new ≠ none) → ∀ x ∈ f.calls, x.2 ≠ none) := by
  have e : Nf.init.run (before ++ .notify c stage :: after) = ((Nf.init.run before).step (.notify c stage)).run after := by
    simp [Nf.run]
  rw [e] at h1
  generalize Nf.init.run before = s at *
  have hfr : (s.step (.notify c stage)).frames[s.frames.length]? =
      some ⟨stage, some c, 0, none, [], if s.ok c then none else some false⟩ := by simp [Nf.step]
  constructor
  · intro h x hx
    obtain ⟨g, g1, g2⟩ := aux_nf_conn (· = some c) after _ _ _ hfr ⟨rfl, by simp⟩ (fun new hm => absurd hm (h new))
    rw [h1] at g1; cases g1
    exact g2.calls x hx
  · intro h x hx
    obtain ⟨g, g1, g2⟩ := aux_nf_conn (· ≠ none) after _ _ _ hfr ⟨by simp, by simp⟩ h
    rw [h1] at g1; cases g1
    exact g2.calls x hx

/-! ## What the code gets wrong -/

/-- **C125 violated.** The action that negotiates TLS returns 2 with NULL after a timeout (tls/vortex_tls.c:2798-2808): the
next action is called with NULL. -/
theorem C125_null : ((Nf.init.run [.register .created, .register .created, .notify 0 .created, .advance 0, .ret 0 2 none,
    .advance 0]).frames.map NfFrame.calls) = [[(0, some 0), (1, none)]] := by decide +kernel

/-- **C125 violated.** That action notifies the connection it creates before it returns it (:1312): the actions after it
are called twice for that connection. -/
theorem C125_twice : ((Nf.init.run [.register .created, .register .created, .notify 0 .created, .advance 0,
    .notify 1 .created, .advance 1, .ret 1 1 none, .advance 1, .ret 1 1 none, .advance 1, .ret 0 2 (some 1),
    .advance 0]).frames.map NfFrame.calls) = [[(0, some 0), (1, some 1)], [(0, some 1), (1, some 1)]] := by decide +kernel

/-- **C125 violated.** A connection that an action closed without saying so is given to the actions after it. -/
theorem C125_closed_given : ((Nf.init.run [.register .created, .register .created, .notify 0 .created, .advance 0, .breaks 0,
    .ret 0 1 none, .advance 0]).frames.map NfFrame.calls) = [[(0, some 0), (1, some 0)]] ∧
    (Nf.init.run [.register .created, .register .created, .notify 0 .created, .advance 0, .breaks 0]).ok 0 = false := by
  decide +kernel

/-- The full claim: every action gets a connection, and if no connection is notified twice for a stage, none gets it twice. -/
def C125_statement : Prop := ∀ ops : List NfOp,
  (∀ (c : Nat) (stage : NfStage), ops.countP (· = .notify c stage) ≤ 1) →
  ((Nf.init.run ops).frames.flatMap NfFrame.calls).Nodup ∧
  ∀ x ∈ (Nf.init.run ops).frames.flatMap NfFrame.calls, x.2 ≠ none

theorem C125_statement_false : ¬ C125_statement := by
  intro h
  have h1 := (h [.register .created, .register .created, .notify 0 .created, .advance 0,
    .notify 1 .created, .advance 1, .ret 1 1 none, .advance 1, .ret 1 1 none, .advance 1, .ret 0 2 (some 1),
    .advance 0] (by intro c stage; simp [List.countP_cons, List.countP_nil]; split <;> split <;> grind)).1
  rw [List.flatMap_def, C125_twice] at h1
  revert h1
  decide

end Verif.Props
