import Verif.Spec.SaslOverlap
/-!
# C151 — SASL negotiations that overlap on one connection
-/
namespace Verif.Props
open Verif.Model Verif.Spec

theorem aux_sg_append (a : List SngOp) : ∀ s b, sngRun s (a ++ b) = (sngRun s a).bind (fun m => sngRun m b) := by
  induction a with
  | nil => intro s b; rfl
  | cons op a ih =>
    intro s b
    simp only [List.cons_append, sngRun]
    cases sngStep s op with
    | none => rfl
    | some m => simp only [Option.bind_some]; exact ih m b

theorem aux_sg_ind (P : List SngOp → SngState → Prop)
    (hs : ∀ ops s op m, P ops s → sngStep s op = some m → P (ops ++ [op]) m) :
    ∀ (b a : List SngOp) s t, P a s → sngRun s b = some t → P (a ++ b) t := by
  intro b
  induction b with
  | nil => intro a s t h hr; simp only [sngRun, Option.some.injEq] at hr; subst hr; simpa using h
  | cons op b ih =>
    intro a s t h hr
    simp only [sngRun] at hr
    cases hm : sngStep s op with
    | none => rw [hm] at hr; cases hr
    | some m =>
      rw [hm] at hr
      have := ih (a ++ [op]) m t (hs a s op m h hm) hr
      simpa using this

theorem aux_sg_wanted (p : SngProp) (op : SngOp) : ∀ ops, SngWanted p (ops ++ [op]) =
    match SngWanted p [op] with
    | some v => some v
    | none => SngWanted p ops := by
  intro ops
  induction ops with
  | nil => simp only [List.nil_append]; cases SngWanted p [op] <;> rfl
  | cons o ops ih =>
    show (match SngWanted p (ops ++ [op]) with
      | some v => some v
      | none => match o with
        | .set q v => if q = p then some v else none
        | _ => none) = _
    rw [ih]
    cases SngWanted p [op] <;> rfl

/-- What holds between the negotiations of calm schedules. -/
def aux_sg_Inv (s : SngState) : Prop :=
  s.bad = false ∧ (∀ i j, .fed i j ∈ s.log → j = i) ∧
  (∀ i, s.tasks i = .queued → s.ctx = some i) ∧
  (∀ i, s.tasks i = .sent → s.ctx = some i ∧ s.session = some i) ∧
  (∀ i c, s.tasks i = .stepping c → c = i ∧ s.ctx = some i ∧ s.session = some i) ∧
  (∀ c, c ∈ s.gone → s.ctx ≠ some c ∧ s.tasks c ≠ .none) ∧
  (∀ c, s.ctx = some c → s.tasks c ≠ .none)

theorem aux_sg_fail (s : SngState) (i : Nat) (h : aux_sg_Inv s) : aux_sg_Inv (s.fail i) := by
  obtain ⟨h1, h2, h3, h4, h5, h6, h7⟩ := h
  refine ⟨h1, ?_, ?_, ?_, ?_, ?_, ?_⟩
  · intro a b hm; simp [SngState.fail] at hm; exact h2 a b hm
  · intro k hk
    simp only [SngState.fail, SngState.move] at hk ⊢
    split at hk
    · cases hk
    · exact h3 k hk
  · intro k hk
    simp only [SngState.fail, SngState.move] at hk ⊢
    split at hk
    · cases hk
    · exact h4 k hk
  · intro k c hk
    simp only [SngState.fail, SngState.move] at hk ⊢
    split at hk
    · cases hk
    · exact h5 k c hk
  · intro c hc
    refine ⟨(h6 c hc).1, ?_⟩
    simp only [SngState.fail, SngState.move]
    split
    · intro h; cases h
    · exact (h6 c hc).2
  · intro c hc
    simp only [SngState.fail, SngState.move]
    split
    · intro h; cases h
    · exact h7 c hc

theorem aux_sg_succeed (s : SngState) (i : Nat) (h : aux_sg_Inv s) : aux_sg_Inv (s.succeed i) := by
  obtain ⟨h1, h2, h3, h4, h5, h6, h7⟩ := h
  refine ⟨h1, ?_, ?_, ?_, ?_, ?_, ?_⟩
  · intro a b hm; simp [SngState.succeed] at hm; exact h2 a b hm
  · intro k hk
    simp only [SngState.succeed, SngState.move] at hk ⊢
    split at hk
    · cases hk
    · exact h3 k hk
  · intro k hk
    simp only [SngState.succeed, SngState.move] at hk ⊢
    split at hk
    · cases hk
    · exact h4 k hk
  · intro k c hk
    simp only [SngState.succeed, SngState.move] at hk ⊢
    split at hk
    · cases hk
    · exact h5 k c hk
  · intro c hc
    refine ⟨(h6 c hc).1, ?_⟩
    simp only [SngState.succeed, SngState.move]
    split
    · intro h; cases h
    · exact (h6 c hc).2
  · intro c hc
    simp only [SngState.succeed, SngState.move]
    split
    · intro h; cases h
    · exact h7 c hc

theorem aux_sg_feed (s : SngState) (i c : Nat) (h : aux_sg_Inv s) (hp : s.tasks i = .stepping c) : aux_sg_Inv (s.feed i c) := by
  have h' := h
  obtain ⟨h1, h2, h3, h4, h5, h6, h7⟩ := h
  obtain ⟨hc, hx, hs⟩ := h5 i c hp
  have hg : c ∉ s.gone := fun hg => (h6 c hg).1 (by rw [hc]; exact hx)
  unfold SngState.feed
  rw [if_neg hg]
  split
  · rename_i j hj
    rw [hs] at hj
    cases hj
    refine ⟨h1, ?_, h3, h4, h5, h6, h7⟩
    intro a b hm
    simp at hm
    rcases hm with hm | ⟨ha, hb⟩
    · exact h2 a b hm
    · rw [ha, hb]
  · rename_i hj; rw [hs] at hj; cases hj

theorem aux_sg_calm (s : SngState) (op : SngOp) (m : SngState) (h : aux_sg_Inv s) (hc : SngCalm s op)
    (hm : sngStep s op = some m) : aux_sg_Inv m := by
  have h' := h
  obtain ⟨h1, h2, h3, h4, h5, h6, h7⟩ := h
  cases op with
  | set p v =>
    simp only [sngStep, Option.some.injEq] at hm
    subst hm
    exact ⟨h1, h2, h3, h4, h5, h6, h7⟩
  | start i me =>
    simp only [sngStep] at hm
    split at hm
    · rename_i hi
      split at hm
      · cases hm; exact aux_sg_fail s i h'
      · split at hm
        · cases hm; exact aux_sg_fail s i h'
        · cases hm
          refine ⟨h1, h2, ?_, ?_, ?_, ?_, ?_⟩
          · intro k hk
            simp only [SngState.move] at hk ⊢
            split at hk
            · rename_i hki; rw [hki]
            · rcases hc k with hn | hn <;> rw [hn] at hk <;> cases hk
          · intro k hk
            simp only [SngState.move] at hk
            split at hk
            · cases hk
            · rcases hc k with hn | hn <;> rw [hn] at hk <;> cases hk
          · intro k c hk
            simp only [SngState.move] at hk
            split at hk
            · cases hk
            · rcases hc k with hn | hn <;> rw [hn] at hk <;> cases hk
          · intro c hcm
            simp only [SngState.move] at hcm ⊢
            have hne : s.tasks c ≠ .none := by
              cases hx : s.ctx with
              | none => rw [hx] at hcm; exact (h6 c hcm).2
              | some x =>
                rw [hx] at hcm
                rcases List.mem_cons.mp hcm with e | hcm
                · exact h7 c (by rw [hx, e])
                · exact (h6 c hcm).2
            refine ⟨?_, ?_⟩
            · intro e
              cases e
              exact hne hi
            · split
              · intro h; cases h
              · exact hne
          · intro c hcm
            simp only [SngState.move, Option.some.injEq] at hcm ⊢
            rw [if_pos hcm.symm]
            intro h; cases h
    · cases hm
  | first i ok =>
    simp only [sngStep] at hm
    split at hm
    · rename_i hi
      have hx := h3 i hi
      rw [hx, if_neg (by intro h; cases h)] at hm
      split at hm
      · cases hm
        refine ⟨h1, ?_, ?_, ?_, ?_, ?_, ?_⟩
        · intro a b hab; simp at hab; exact h2 a b hab
        · intro k hk
          simp only [SngState.move] at hk ⊢
          split at hk
          · cases hk
          · exact h3 k hk
        · intro k hk
          simp only [SngState.move] at hk ⊢
          split at hk
          · rename_i hki; rw [hki]; exact ⟨hx, rfl⟩
          · rename_i hki
            have := (h4 k hk).1
            rw [hx] at this
            cases this
            exact absurd rfl hki
        · intro k c hk
          simp only [SngState.move] at hk ⊢
          split at hk
          · cases hk
          · rename_i hki
            have := (h5 k c hk).2.1
            rw [hx] at this
            cases this
            exact absurd rfl hki
        · intro c hcm
          refine ⟨(h6 c hcm).1, ?_⟩
          simp only [SngState.move]
          split
          · intro h; cases h
          · exact (h6 c hcm).2
        · intro c hcm
          simp only [SngState.move]
          split
          · intro h; cases h
          · exact h7 c hcm
      · cases hm; exact aux_sg_fail s i h'
    · cases hm
  | channel i ok =>
    simp only [sngStep] at hm
    split at hm
    · rename_i hi
      obtain ⟨hx, hss⟩ := h4 i hi
      split at hm
      · rw [hx] at hm
        cases hm
        refine ⟨h1, h2, ?_, ?_, ?_, ?_, ?_⟩
        · intro k hk
          simp only [SngState.move] at hk ⊢
          split at hk
          · cases hk
          · exact h3 k hk
        · intro k hk
          simp only [SngState.move] at hk ⊢
          split at hk
          · cases hk
          · exact h4 k hk
        · intro k c hk
          simp only [SngState.move] at hk ⊢
          split at hk
          · rename_i hki; cases hk; exact ⟨hki.symm, by rw [hki]; exact ⟨hx, hss⟩⟩
          · exact h5 k c hk
        · intro c hcm
          refine ⟨(h6 c hcm).1, ?_⟩
          simp only [SngState.move]
          split
          · intro h; cases h
          · exact (h6 c hcm).2
        · intro c hcm
          simp only [SngState.move]
          split
          · intro h; cases h
          · exact h7 c hcm
      · cases hm; exact aux_sg_fail s i h'
    · cases hm
  | reply i r =>
    simp only [sngStep] at hm
    split at hm
    · rename_i c hi
      cases r with
      | complete => cases hm; exact aux_sg_succeed s i h'
      | error => cases hm; exact aux_sg_fail s i h'
      | more => cases hm; exact aux_sg_feed s i c h' hi
      | last => cases hm; exact aux_sg_succeed _ i (aux_sg_feed s i c h' hi)
      | wrong => cases hm; exact aux_sg_fail _ i (aux_sg_feed s i c h' hi)
    · cases hm

/-- In every schedule in which a negotiation is started only when none is in progress, no
released memory is used and every reply is given to the session of its own negotiation. -/
theorem C151_calm_partial (ops : List SngOp) (s : SngState) (hc : SngCalmRun sngInit ops) (h : sngRun sngInit ops = some s) :
    s.bad = false ∧ ∀ i j, .fed i j ∈ s.log → j = i := by
  have key : ∀ (ops : List SngOp) a, aux_sg_Inv a → SngCalmRun a ops → ∀ t, sngRun a ops = some t → aux_sg_Inv t := by
    intro ops
    induction ops with
    | nil => intro a ha _ t ht; simp only [sngRun, Option.some.injEq] at ht; exact ht ▸ ha
    | cons op ops ih =>
      intro a ha hca t ht
      simp only [sngRun] at ht
      cases hm : sngStep a op with
      | none => rw [hm] at ht; cases ht
      | some m => rw [hm] at ht; exact ih m (aux_sg_calm a op m ha hca.1 hm) (hca.2 m hm) t ht
  have h0 : aux_sg_Inv sngInit :=
    ⟨rfl, (by intro i j hm; cases hm), (by intro i hm; cases hm), (by intro i hm; cases hm), (by intro i c hm; cases hm),
      (by intro c hm; cases hm), (by intro c hm; cases hm)⟩
  have := key ops sngInit h0 hc s h
  exact ⟨this.1, this.2.1⟩

/-- Two negotiations, one after the other; the first one is refused. -/
example : (sngRun sngInit [.set .authid 1, .set .password 2, .start 0 .plain, .first 0 true, .channel 0 true, .reply 0 .wrong,
    .set .authid 1, .set .password 3, .start 1 .cram, .first 1 true, .channel 1 true, .reply 1 .more, .reply 1 .complete]).map
      (fun s => (s.bad, s.authed, s.log)) =
    some (false, true, [.first 0 ⟨some 1, none, some 2, none, none⟩, .fed 0 0, .told 0 false,
      .first 1 ⟨some 1, none, some 3, none, none⟩, .fed 1 1, .told 1 true]) := by decide +kernel

/-- What a negotiation was told. -/
def aux_sg_tolds (i : Nat) (l : List SngEvent) : Nat := l.countP (fun e => decide (e = .told i true ∨ e = .told i false))

theorem aux_sg_tolds_append (i : Nat) (l : List SngEvent) (e : SngEvent) :
    aux_sg_tolds i (l ++ [e]) = aux_sg_tolds i l + if e = .told i true ∨ e = .told i false then 1 else 0 := by
  simp [aux_sg_tolds, List.countP_append, List.countP_cons]

def aux_sg_OInv (s : SngState) : Prop :=
  ∀ i, (s.tasks i ≠ .finished → aux_sg_tolds i s.log = 0) ∧ (s.tasks i = .finished → aux_sg_tolds i s.log = 1)

theorem aux_sg_oend (s : SngState) (i : Nat) (b : Bool) (h : aux_sg_OInv s) (hi : s.tasks i ≠ .finished) (t : SngState)
    (ht : t.tasks = (s.move i .finished).tasks) (hl : t.log = s.log ++ [.told i b]) : aux_sg_OInv t := by
  intro k
  rw [ht, hl, aux_sg_tolds_append]
  simp only [SngState.move]
  by_cases hk : k = i
  · subst hk
    rw [if_pos rfl]
    have h0 := (h k).1 hi
    refine ⟨fun hn => absurd rfl hn, fun _ => ?_⟩
    rw [h0]
    cases b <;> simp
  · rw [if_neg hk]
    have hne : ¬ ((SngEvent.told i b = .told k true) ∨ (SngEvent.told i b = .told k false)) := by
      rintro (e | e) <;> (cases e; exact hk rfl)
    rw [if_neg hne]
    exact h k

theorem aux_sg_ofeed (s : SngState) (i c : Nat) (h : aux_sg_OInv s) : aux_sg_OInv (s.feed i c) ∧ (s.feed i c).tasks = s.tasks := by
  unfold SngState.feed
  split
  · exact ⟨h, rfl⟩
  · split
    · refine ⟨?_, rfl⟩
      intro k
      dsimp only
      rw [aux_sg_tolds_append, if_neg (by rintro (e | e) <;> cases e)]
      exact h k
    · exact ⟨h, rfl⟩

theorem aux_sg_omove (s t : SngState) (i : Nat) (p : SngPhase) (h : aux_sg_OInv s) (hi : s.tasks i ≠ .finished) (hp : p ≠ .finished)
    (ht : t.tasks = (s.move i p).tasks) (hl : ∀ k, aux_sg_tolds k t.log = aux_sg_tolds k s.log) : aux_sg_OInv t := by
  intro k
  rw [ht, hl]
  simp only [SngState.move]
  by_cases hk : k = i
  · subst hk
    rw [if_pos rfl]
    exact ⟨fun _ => (h k).1 hi, fun hn => absurd hn hp⟩
  · rw [if_neg hk]; exact h k

theorem aux_sg_ostep (s : SngState) (op : SngOp) (m : SngState) (h : aux_sg_OInv s) (hm : sngStep s op = some m) : aux_sg_OInv m := by
  cases op with
  | set p v => simp only [sngStep, Option.some.injEq] at hm; subst hm; exact h
  | start i me =>
    simp only [sngStep] at hm
    split at hm
    · rename_i hi
      have hn : s.tasks i ≠ .finished := by rw [hi]; intro h; cases h
      split at hm
      · cases hm; exact aux_sg_oend s i false h hn _ rfl rfl
      · split at hm
        · cases hm; exact aux_sg_oend s i false h hn _ rfl rfl
        · cases hm; exact aux_sg_omove s _ i .queued h hn (by intro h; cases h) rfl (fun _ => rfl)
    · cases hm
  | first i ok =>
    simp only [sngStep] at hm
    split at hm
    · rename_i hi
      have hn : s.tasks i ≠ .finished := by rw [hi]; intro h; cases h
      split at hm
      · cases hm; exact h
      · split at hm
        · cases hm
          refine aux_sg_omove s _ i .sent h hn (by intro h; cases h) rfl (fun k => ?_)
          dsimp only
          rw [aux_sg_tolds_append, if_neg (by rintro (e | e) <;> cases e), Nat.add_zero]
        · cases hm; exact aux_sg_oend s i false h hn _ rfl rfl
    · cases hm
  | channel i ok =>
    simp only [sngStep] at hm
    split at hm
    · rename_i hi
      have hn : s.tasks i ≠ .finished := by rw [hi]; intro h; cases h
      split at hm
      · split at hm
        · cases hm; exact aux_sg_omove s _ i (.stepping _) h hn (by intro h; cases h) rfl (fun _ => rfl)
        · cases hm; exact h
      · cases hm; exact aux_sg_oend s i false h hn _ rfl rfl
    · cases hm
  | reply i r =>
    simp only [sngStep] at hm
    split at hm
    · rename_i c hi
      have hn : s.tasks i ≠ .finished := by rw [hi]; intro h; cases h
      obtain ⟨hf, ht⟩ := aux_sg_ofeed s i c h
      have hn' : (s.feed i c).tasks i ≠ .finished := by rw [ht]; exact hn
      cases r with
      | complete => cases hm; exact aux_sg_oend s i true h hn _ rfl rfl
      | error => cases hm; exact aux_sg_oend s i false h hn _ rfl rfl
      | more => cases hm; exact hf
      | last => cases hm; exact aux_sg_oend _ i true hf hn' _ rfl rfl
      | wrong => cases hm; exact aux_sg_oend _ i false hf hn' _ rfl rfl
    · cases hm

/-- In every schedule, overlapping or not, the program is told the outcome of a negotiation at
most once. -/
theorem C151_once_partial (ops : List SngOp) (s : SngState) (h : sngRun sngInit ops = some s) (i : Nat) :
    s.log.count (.told i true) + s.log.count (.told i false) ≤ 1 := by
  have h0 : aux_sg_OInv sngInit := fun i => ⟨fun _ => rfl, (by intro h; cases h)⟩
  have hI : aux_sg_OInv s := aux_sg_ind (fun _ s => aux_sg_OInv s) (fun _ s op m hs hm => aux_sg_ostep s op m hs hm) ops [] sngInit s h0 h
  have key : ∀ l : List SngEvent, l.count (.told i true) + l.count (.told i false) = aux_sg_tolds i l := by
    intro l
    induction l with
    | nil => rfl
    | cons e l ih =>
      simp only [aux_sg_tolds, List.count_cons, List.countP_cons] at ih ⊢
      rw [← ih]
      by_cases e1 : e = .told i true
      · subst e1; simp; omega
      · by_cases e2 : e = .told i false
        · subst e2; simp; omega
        · simp [e1, e2]
  rw [key]
  rcases Classical.em (s.tasks i = .finished) with hf | hf
  · rw [(hI i).2 hf]; exact Nat.le_refl _
  · rw [(hI i).1 hf]; exact Nat.zero_le _

/-- The values stored are none, or those set last; without failures and tokens they are those set last. -/
def aux_sg_VInv (ops : List SngOp) (s : SngState) : Prop :=
  (∀ v, s.props.authzid = some v → SngWanted .authzid ops = some v) ∧
  (∀ v, s.props.password = some v → SngWanted .password ops = some v) ∧
  (∀ v, s.props.realm = some v → SngWanted .realm ops = some v) ∧
  s.props.token = SngWanted .token ops ∧
  ((∀ i, .told i false ∉ s.log) → SngWanted .token ops = none → SngFaithful ops s.props) ∧
  ((∀ i, .told i false ∉ s.log) → ∀ i, .told i true ∈ s.log → s.authed = true) ∧
  (∀ i, s.tasks i ≠ .none → s.ctx ≠ none ∨ s.tasks i = .finished)

theorem aux_sg_keep (ops : List SngOp) (s t : SngState) (op : SngOp) (hop : ∀ p v, op ≠ .set p v) (h : aux_sg_VInv ops s)
    (hp : t.props = s.props) (hl : ∀ i b, .told i b ∈ t.log ↔ .told i b ∈ s.log) (ha : t.authed = s.authed)
    (hk : ∀ i, t.tasks i ≠ .none → t.ctx ≠ none ∨ t.tasks i = .finished) : aux_sg_VInv (ops ++ [op]) t := by
  have hw : ∀ p, SngWanted p (ops ++ [op]) = SngWanted p ops := by
    intro p
    rw [aux_sg_wanted]
    cases op with
    | set q v => exact absurd rfl (hop q v)
    | _ => rfl
  obtain ⟨h1, h2, h3, h4, h5, h6, h7⟩ := h
  refine ⟨?_, ?_, ?_, ?_, ?_, ?_, hk⟩
  · rw [hp, hw]; exact h1
  · rw [hp, hw]; exact h2
  · rw [hp, hw]; exact h3
  · rw [hp, hw]; exact h4
  · intro hn ht
    rw [hw] at ht
    have := h5 (fun i hi => hn i ((hl i false).mpr hi)) ht
    unfold SngFaithful at this ⊢
    rw [hp]
    simp only [hw]
    exact this
  · intro hn i hi
    rw [ha]
    exact h6 (fun i hi => hn i ((hl i false).mpr hi)) i ((hl i true).mp hi)

theorem aux_sg_vfail (ops : List SngOp) (s : SngState) (op : SngOp) (hop : ∀ p v, op ≠ .set p v) (i : Nat) (h : aux_sg_VInv ops s) :
    aux_sg_VInv (ops ++ [op]) (s.fail i) := by
  have hw : ∀ p, SngWanted p (ops ++ [op]) = SngWanted p ops := by
    intro p
    rw [aux_sg_wanted]
    cases op with
    | set q v => exact absurd rfl (hop q v)
    | _ => rfl
  obtain ⟨h1, h2, h3, h4, h5, h6, h7⟩ := h
  refine ⟨(by intro v h; cases h), (by intro v h; cases h), (by intro v h; cases h), ?_, ?_, ?_, ?_⟩
  · rw [hw]; exact h4
  · intro hn; exact absurd (by simp [SngState.fail]) (hn i)
  · intro hn; exact absurd (by simp [SngState.fail]) (hn i)
  · intro k hk
    simp only [SngState.fail, SngState.move] at hk ⊢
    split
    · exact Or.inr rfl
    · rename_i hki; rw [if_neg hki] at hk; exact h7 k hk

theorem aux_sg_vsucceed (ops : List SngOp) (s : SngState) (op : SngOp) (hop : ∀ p v, op ≠ .set p v) (i : Nat) (h : aux_sg_VInv ops s) :
    aux_sg_VInv (ops ++ [op]) (s.succeed i) := by
  have hw : ∀ p, SngWanted p (ops ++ [op]) = SngWanted p ops := by
    intro p
    rw [aux_sg_wanted]
    cases op with
    | set q v => exact absurd rfl (hop q v)
    | _ => rfl
  obtain ⟨h1, h2, h3, h4, h5, h6, h7⟩ := h
  refine ⟨?_, ?_, ?_, ?_, ?_, (fun _ _ _ => rfl), ?_⟩
  · rw [hw]; exact h1
  · rw [hw]; exact h2
  · rw [hw]; exact h3
  · rw [hw]; exact h4
  · intro hn ht
    rw [hw] at ht
    have := h5 (fun k hk => hn k (by simp [SngState.succeed]; exact hk)) ht
    unfold SngFaithful at this ⊢
    simp only [hw]
    exact this
  · intro k hk
    simp only [SngState.succeed, SngState.move] at hk ⊢
    split
    · exact Or.inr rfl
    · rename_i hki; rw [if_neg hki] at hk; exact h7 k hk

theorem aux_sg_vfeed (ops : List SngOp) (s : SngState) (i c : Nat) (h : aux_sg_VInv ops s) : aux_sg_VInv ops (s.feed i c) := by
  unfold SngState.feed
  split
  · exact h
  · split
    · obtain ⟨h1, h2, h3, h4, h5, h6, h7⟩ := h
      exact ⟨h1, h2, h3, h4, (fun hn => h5 (fun k hk => hn k (by simp; exact hk))),
        (fun hn k hk => h6 (fun j hj => hn j (by simp; exact hj)) k (by simpa using hk)), h7⟩
    · exact h

theorem aux_sg_vset (ops : List SngOp) (s : SngState) (p : SngProp) (v : Nat) (h : aux_sg_VInv ops s) :
    aux_sg_VInv (ops ++ [.set p v]) { s with props := s.props.set p v } := by
  obtain ⟨h1, h2, h3, h4, h5, h6, h7⟩ := h
  unfold aux_sg_VInv SngFaithful
  unfold SngFaithful at h5
  simp only [aux_sg_wanted]
  cases p <;> simp [SngWanted, SngProps.set] <;> refine ⟨?_, ?_⟩ <;> simp_all <;> assumption

theorem aux_sg_vstep (ops : List SngOp) (s : SngState) (op : SngOp) (m : SngState) (h : aux_sg_VInv ops s) (hm : sngStep s op = some m) :
    aux_sg_VInv (ops ++ [op]) m := by
  have h7 := h.2.2.2.2.2.2
  cases op with
  | set p v => simp only [sngStep, Option.some.injEq] at hm; subst hm; exact aux_sg_vset ops s p v h
  | start i me =>
    have hop : ∀ p v, SngOp.start i me ≠ .set p v := by intro p v h; cases h
    simp only [sngStep] at hm
    split at hm
    · split at hm
      · cases hm; exact aux_sg_vfail ops s _ hop i h
      · split at hm
        · cases hm; exact aux_sg_vfail ops s _ hop i h
        · cases hm
          exact aux_sg_keep ops s _ _ hop h rfl (fun _ _ => Iff.rfl) rfl (fun k _ => Or.inl (by intro h; cases h))
    · cases hm
  | first i ok =>
    have hop : ∀ p v, SngOp.first i ok ≠ .set p v := by intro p v h; cases h
    simp only [sngStep] at hm
    split at hm
    · rename_i hi
      split at hm
      · cases hm; exact aux_sg_keep ops s _ _ hop h rfl (fun _ _ => Iff.rfl) rfl h7
      · rename_i hx
        split at hm
        · cases hm
          exact aux_sg_keep ops s _ _ hop h rfl (fun _ _ => by simp) rfl (fun k _ => Or.inl hx)
        · cases hm; exact aux_sg_vfail ops s _ hop i h
    · cases hm
  | channel i ok =>
    have hop : ∀ p v, SngOp.channel i ok ≠ .set p v := by intro p v h; cases h
    simp only [sngStep] at hm
    split at hm
    · split at hm
      · split at hm
        · rename_i c hx
          cases hm
          exact aux_sg_keep ops s _ _ hop h rfl (fun _ _ => Iff.rfl) rfl (fun k _ => Or.inl (by simp only [SngState.move]; rw [hx]; intro h; cases h))
        · cases hm; exact aux_sg_keep ops s _ _ hop h rfl (fun _ _ => Iff.rfl) rfl h7
      · cases hm; exact aux_sg_vfail ops s _ hop i h
    · cases hm
  | reply i r =>
    have hop : ∀ p v, SngOp.reply i r ≠ .set p v := by intro p v h; cases h
    simp only [sngStep] at hm
    split at hm
    · rename_i c hi
      have hf := aux_sg_vfeed ops s i c h
      cases r with
      | complete => cases hm; exact aux_sg_vsucceed ops s _ hop i h
      | error => cases hm; exact aux_sg_vfail ops s _ hop i h
      | more => cases hm; exact aux_sg_keep ops _ _ _ hop hf rfl (fun _ _ => Iff.rfl) rfl hf.2.2.2.2.2.2
      | last => cases hm; exact aux_sg_vsucceed ops _ _ hop i hf
      | wrong => cases hm; exact aux_sg_vfail ops _ _ hop i hf
    · cases hm

theorem aux_sg_values (ops : List SngOp) (s : SngState) (h : sngRun sngInit ops = some s) : aux_sg_VInv ops s := by
  have h0 : aux_sg_VInv [] sngInit :=
    ⟨(by intro v h; cases h), (by intro v h; cases h), (by intro v h; cases h), rfl, (fun _ _ => ⟨rfl, rfl, rfl, rfl, rfl⟩),
      (by intro _ i h; cases h), (by intro i h; exact absurd rfl h)⟩
  exact aux_sg_ind aux_sg_VInv aux_sg_vstep ops [] sngInit s h0 h

theorem aux_sg_first (ops : List SngOp) (i : Nat) (s : SngState) (h : sngRun sngInit (ops ++ [.first i true]) = some s) :
    ∃ a, sngRun sngInit ops = some a ∧ s.log = a.log ++ [.first i a.props] := by
  rw [aux_sg_append] at h
  cases ha : sngRun sngInit ops with
  | none => rw [ha] at h; cases h
  | some a =>
    rw [ha] at h
    refine ⟨a, rfl, ?_⟩
    simp only [Option.bind_some, sngRun, sngStep] at h
    split at h
    · rename_i hi
      have := (aux_sg_values ops a ha).2.2.2.2.2.2 i (by rw [hi]; intro h; cases h)
      have hx : a.ctx ≠ none := by
        rcases this with h | h
        · exact h
        · rw [hi] at h; cases h
      rw [if_neg hx] at h
      simp only [if_true, Option.bind_some, Option.some.injEq] at h
      rw [← h]
    · cases h

/-- As long as no negotiation failed and no token was set, every first message is built from
the values the program set last, in every schedule. -/
theorem C151_values_partial (ops : List SngOp) (i : Nat) (s : SngState) (h : sngRun sngInit (ops ++ [.first i true]) = some s)
    (hf : ∀ k, .told k false ∉ s.log) (ht : ∀ v, SngOp.set .token v ∉ ops) :
    ∃ c, s.log.getLast? = some (.first i c) ∧ SngFaithful ops c := by
  obtain ⟨a, ha, hl⟩ := aux_sg_first ops i s h
  have hw : SngWanted .token ops = none := by
    clear h ha
    induction ops with
    | nil => rfl
    | cons op ops ih =>
      have := ih (fun v hv => ht v (List.mem_cons_of_mem _ hv))
      simp only [SngWanted, this]
      cases op with
      | set q v =>
        dsimp only
        split
        · rename_i hq; subst hq; exact absurd (List.mem_cons_self ..) (ht v)
        · rfl
      | _ => rfl
  refine ⟨a.props, by rw [hl]; simp, ?_⟩
  refine (aux_sg_values ops a ha).2.2.2.2.1 (fun k hk => hf k ?_) hw
  rw [hl]
  exact List.mem_append_left _ hk

/-- In every schedule a password, authorization id or realm sent is the one set last, never
an older one. -/
theorem C151_never_older (ops : List SngOp) (i : Nat) (s : SngState) (h : sngRun sngInit (ops ++ [.first i true]) = some s) :
    ∃ c, s.log.getLast? = some (.first i c) ∧ (c.password = none ∨ c.password = SngWanted .password ops) ∧
      (c.authzid = none ∨ c.authzid = SngWanted .authzid ops) ∧ (c.realm = none ∨ c.realm = SngWanted .realm ops) ∧
      c.token = SngWanted .token ops := by
  obtain ⟨a, ha, hl⟩ := aux_sg_first ops i s h
  obtain ⟨h1, h2, h3, h4, _⟩ := aux_sg_values ops a ha
  have conv : ∀ (x w : Option Nat), (∀ v, x = some v → w = some v) → x = none ∨ x = w := by
    intro x w hxw
    cases x with
    | none => exact Or.inl rfl
    | some v => exact Or.inr (hxw v rfl).symm
  exact ⟨a.props, by rw [hl]; simp, conv _ _ h2, conv _ _ h1, conv _ _ h3, h4⟩

/-- The hypotheses of both are met. -/
example : (sngRun sngInit ([.set .authid 1, .set .password 2, .set .password 3, .start 0 .plain] ++ [.first 0 true])).map (·.log) =
    some [.first 0 ⟨some 1, none, some 3, none, none⟩] := by decide +kernel

/-- As long as no negotiation failed, a connection whose program was told of a success is
authenticated. -/
theorem C151_authed_partial (ops : List SngOp) (s : SngState) (h : sngRun sngInit ops = some s) (hf : ∀ k, .told k false ∉ s.log)
    (i : Nat) (hi : .told i true ∈ s.log) : s.authed = true :=
  (aux_sg_values ops s h).2.2.2.2.2.1 hf i hi

example : (sngRun sngInit [.set .token 1, .start 0 .anonymous, .first 0 true, .channel 0 true, .reply 0 .complete]).map
    (fun s => (s.authed, s.log)) = some (true, [.first 0 ⟨some 1, none, none, none, some 1⟩, .told 0 true]) := by decide +kernel

/-- A mechanism with password is not begun without one: the program is told at once. -/
theorem C151_needs (ops : List SngOp) (i : Nat) (m : SngMech) (hm : m = .plain ∨ m = .cram ∨ m = .digest)
    (hw : SngWanted .password ops = none) (s : SngState) (h : sngRun sngInit (ops ++ [.start i m]) = some s) :
    s.log.getLast? = some (.told i false) := by
  rw [aux_sg_append] at h
  cases ha : sngRun sngInit ops with
  | none => rw [ha] at h; cases h
  | some a =>
    rw [ha] at h
    have hp : a.props.password = none := by
      cases hx : a.props.password with
      | none => rfl
      | some v => have := (aux_sg_values ops a ha).2.1 v hx; rw [hw] at this; cases this
    have hsane : a.props.sane m = false := by
      rcases hm with e | e | e <;> subst e <;> simp [SngProps.sane, hp]
    simp only [Option.bind_some, sngRun, sngStep] at h
    split at h
    · by_cases hau : a.authed = true
      · rw [if_pos hau] at h
        simp only [Option.bind_some, Option.some.injEq] at h
        rw [← h]; simp [SngState.fail]
      · rw [if_neg hau] at h
        simp only [Option.bind_some, Option.some.injEq] at h
        rw [← h]; simp [SngState.fail]
    · cases h

example : (sngRun sngInit ([.set .authid 1] ++ [.start 0 .plain])).map (·.log) = some [.told 0 false] := by decide +kernel

/-- A second start releases the context the first negotiation is using, whatever the mechanisms
and the values set. -/
theorem C151_freed (m k : SngMech) (q : SngProps) (hm : q.sane m = true) (hk : q.sane k = true) :
    (sngRun { sngInit with props := q } [.start 0 m, .first 0 true, .channel 0 true, .start 1 k, .reply 0 .more]).map (·.bad) =
      some true := by
  simp [sngRun, sngStep, sngInit, hm, hk, SngState.move, SngState.feed]

/-- A start after the first message of another negotiation leaves that one without session: its reply is given to none. -/
theorem C151_sessionless (m k : SngMech) (q : SngProps) (hm : q.sane m = true) (hk : q.sane k = true) :
    (sngRun { sngInit with props := q } [.start 0 m, .first 0 true, .start 1 k, .channel 0 true, .reply 0 .more]).map (·.bad) =
      some true := by
  simp [sngRun, sngStep, sngInit, hm, hk, SngState.move, SngState.feed]

example : (SngProps.mk (some 1) none (some 2) none none).sane .plain = true := rfl

/-- Two negotiations started before the pool runs the first one share a context, and a
reply to the first one is given to the session of the second. -/
theorem C151_mixed : (sngRun sngInit [.set .authid 1, .set .password 2, .set .token 3, .start 0 .plain, .start 1 .anonymous,
    .first 0 true, .first 1 true, .channel 0 true, .reply 0 .more]).map (fun s => (s.bad, s.log.getLast?)) =
    some (false, some (.fed 0 1)) := by decide +kernel

/-- A start on an authenticated connection ends its authentication, whatever the mechanism. -/
theorem C151_lost (s : SngState) (i : Nat) (m : SngMech) (hi : s.tasks i = .none) (ha : s.authed = true) :
    ∃ t, sngStep s (.start i m) = some t ∧ t.authed = false ∧ t.props.authid = none := by
  refine ⟨s.fail i, ?_, rfl, rfl⟩
  simp [sngStep, hi, ha]

/-- … of a connection whose program was told of a success. -/
theorem C151_lost_told : (sngRun sngInit [.set .token 1, .start 0 .anonymous, .first 0 true, .channel 0 true, .reply 0 .complete,
    .start 1 .anonymous]).map (fun s => (s.authed, s.log)) =
    some (false, [.first 0 ⟨some 1, none, none, none, some 1⟩, .told 0 true, .told 1 false]) := by decide +kernel

/-- The token replaces the authentication id: PLAIN is begun with it. -/
theorem C151_token : (sngRun sngInit [.set .authid 1, .set .password 2, .set .token 3, .start 0 .plain, .first 0 true]).map
    (·.log) = some [.first 0 ⟨some 3, none, some 2, none, some 3⟩] := by decide +kernel

/-- The failure of one negotiation takes away the password of another that was started, which goes on without. -/
theorem C151_erased : (sngRun sngInit [.set .authid 1, .set .password 2, .start 0 .plain, .start 1 .plain, .first 0 false,
    .first 1 true]).map (·.log) = some [.told 0 false, .first 1 ⟨none, none, none, none, none⟩] := by decide +kernel

theorem C151_statement_false : ¬ C151_statement := by
  intro h
  have hr : (sngRun sngInit [.set .token 1, .start 0 .anonymous, .first 0 true, .channel 0 true, .start 1 .anonymous,
      .reply 0 .more]).map (·.bad) = some true := by decide +kernel
  cases hs : sngRun sngInit [.set .token 1, .start 0 .anonymous, .first 0 true, .channel 0 true, .start 1 .anonymous, .reply 0 .more] with
  | none => rw [hs] at hr; cases hr
  | some s =>
    rw [hs] at hr
    have := (h.1 _ s hs).1
    simp only [Option.map_some, Option.some.injEq] at hr
    rw [hr] at this
    cases this

end Verif.Props
