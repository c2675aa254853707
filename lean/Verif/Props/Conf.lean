import Verif.Spec.Conf
/-!
# C104 — the configuration of a context
-/
namespace Verif.Props
open Verif.Model Verif.Spec

theorem aux_cf_append (e : ConfEnv) : ∀ (a b : List ConfOp) (s : ConfState),
    s.run e (a ++ b) = (((s.run e a).1.run e b).1, (s.run e a).2 ++ ((s.run e a).1.run e b).2)
  | [], b, s => by simp [ConfState.run]
  | x :: a, b, s => by
    simp only [List.cons_append, ConfState.run]
    rw [aux_cf_append e a b]

theorem aux_cf_i32 (v : Int) (h : -2147483648 ≤ v ∧ v < 2147483648) : i32 (u64 v : Int) = v := by
  simp only [i32, u64]; omega

theorem aux_cf_limit {e : ConfEnv} {o n l : ConfLimit} (h : e.setLimit o n = some l) : l = n := by
  simp only [ConfEnv.setLimit] at h
  split at h
  · cases h
  · split at h
    · cases h
    · split at h
      · cases h
      · exact (Option.some.inj h).symm

/-! ## What is read is what was set -/

theorem aux_cf_set {e : ConfEnv} {s t : ConfState} {item v : Int} {b : Bool} (h : s.set e item v = (t, b)) :
    (b = false ∧ t = s) ∨
    (b = true ∧ v ≠ 0 ∧ ((item = 1 ∧ e.readable = true ∧ t = { s with limit := { s.limit with cur := u64 v } }) ∨
      (item = 2 ∧ e.readable = true ∧ t = { s with limit := { s.limit with max := confHard s.limit.cur (u64 v) } }) ∨
      (item = 3 ∧ t = { s with backlog := v }) ∨ (item = 4 ∧ t = { s with enforce := v }) ∨
      (item = 5 ∧ t = { s with mime := v }) ∨ (item = 6 ∧ t = { s with skip := v }))) := by
  simp only [ConfState.set] at h
  by_cases h0 : v = 0
  · simp only [h0, if_true] at h; cases h; exact .inl ⟨rfl, rfl⟩
  simp only [h0, if_false] at h
  by_cases h1 : item = 1
  · simp only [h1, if_true] at h
    cases hr : e.readable with
    | false => simp only [hr] at h; cases h; exact .inl ⟨rfl, rfl⟩
    | true =>
      simp only [hr, if_true] at h
      cases hl : e.setLimit s.limit { s.limit with cur := u64 v } with
      | none => rw [hl] at h; cases h; exact .inl ⟨rfl, rfl⟩
      | some l => rw [hl] at h; cases h; exact .inr ⟨rfl, h0, .inl ⟨h1, rfl, by rw [aux_cf_limit hl]⟩⟩
  simp only [h1, if_false] at h
  by_cases h2 : item = 2
  · simp only [h2, if_true] at h
    cases hr : e.readable with
    | false => simp only [hr] at h; cases h; exact .inl ⟨rfl, rfl⟩
    | true =>
      simp only [hr, if_true] at h
      cases hl : e.setLimit s.limit { s.limit with max := confHard s.limit.cur (u64 v) } with
      | none => rw [hl] at h; cases h; exact .inl ⟨rfl, rfl⟩
      | some l => rw [hl] at h; cases h; exact .inr ⟨rfl, h0, .inr (.inl ⟨h2, rfl, by rw [aux_cf_limit hl]⟩)⟩
  simp only [h2, if_false] at h
  by_cases h3 : item = 3
  · simp only [h3, if_true] at h; cases h; exact .inr ⟨rfl, h0, .inr (.inr (.inl ⟨h3, rfl⟩))⟩
  simp only [h3, if_false] at h
  by_cases h4 : item = 4
  · simp only [h4, if_true] at h; cases h; exact .inr ⟨rfl, h0, .inr (.inr (.inr (.inl ⟨h4, rfl⟩)))⟩
  simp only [h4, if_false] at h
  by_cases h5 : item = 5
  · simp only [h5, if_true] at h; cases h; exact .inr ⟨rfl, h0, .inr (.inr (.inr (.inr (.inl ⟨h5, rfl⟩))))⟩
  simp only [h5, if_false] at h
  by_cases h6 : item = 6
  · simp only [h6, if_true] at h; cases h; exact .inr ⟨rfl, h0, .inr (.inr (.inr (.inr (.inr ⟨h6, rfl⟩))))⟩
  simp only [h6, if_false] at h; cases h; exact .inl ⟨rfl, rfl⟩

/-- One call and the value read. -/
theorem aux_cf_step_get (e : ConfEnv) (s : ConfState) (op : ConfOp) (item x : Int) (hi : item ≠ 2)
    (hint : ∀ i v, op = .set i v → -2147483648 ≤ v ∧ v < 2147483648) (hx : s.get e item = some x) :
    (s.step e op).1.get e item = some (confLast item [(op, (s.step e op).2)] x) := by
  cases op with
  | set i v =>
    simp only [ConfState.step]
    rcases hs : s.set e i v with ⟨t, b⟩
    simp only
    rcases aux_cf_set hs with ⟨hb, ht⟩ | ⟨hb, _, h⟩
    · subst hb; subst ht; simpa [confLast] using hx
    · subst hb
      simp only [confLast]
      have hv := aux_cf_i32 v (hint i v rfl)
      rcases h with ⟨h, hr, ht⟩ | ⟨h, hr, ht⟩ | ⟨h, ht⟩ | ⟨h, ht⟩ | ⟨h, ht⟩ | ⟨h, ht⟩ <;> subst h <;> subst ht <;>
        simp only [ConfState.get] at hx ⊢
      · by_cases h1 : item = 1
        · subst h1; simp [hr, hv]
        · simp only [h1, if_false, hi, Ne.symm h1] at hx ⊢; exact hx
      all_goals
        by_cases h1 : item = 1
        · subst h1; simp at hx ⊢; exact hx
        · simp only [h1, hi, if_false] at hx ⊢
          by_cases h3 : item = 3
          · subst h3; simp at hx ⊢; try exact hx
          · simp only [h3, if_false] at hx ⊢
            by_cases h4 : item = 4
            · subst h4; simp at hx ⊢; try exact hx
            · simp only [h4, if_false] at hx ⊢
              by_cases h5 : item = 5
              · subst h5; simp at hx ⊢; try exact hx
              · simp only [h5, if_false] at hx ⊢
                by_cases h6 : item = 6
                · subst h6; simp at hx ⊢; try exact hx
                · simp [h6] at hx
  | get i => simpa [ConfState.step, confLast] using hx
  | profMime p v => simp only [ConfState.step]; split <;> simpa [confLast, ConfState.get] using hx
  | chanMime p v => simp only [ConfState.step]; split <;> simpa [confLast, ConfState.get] using hx
  | send c => simpa [ConfState.step, confLast, ConfState.get] using hx
  | create a => simp only [ConfState.step]; split <;> simpa [confLast, ConfState.get] using hx
  | listen => simpa [ConfState.step, confLast, ConfState.get] using hx

theorem aux_cf_last_cons (item : Int) (p : ConfOp × ConfRes) (r : List (ConfOp × ConfRes)) (x : Int) :
    confLast item (p :: r) x = confLast item r (confLast item [p] x) := by
  obtain ⟨op, res⟩ := p
  cases op <;> first | rfl | (cases res <;> first | rfl | (rename_i b; cases b <;> rfl))

theorem aux_cf_run_get (e : ConfEnv) (item : Int) (hi : item ≠ 2) (ops : List ConfOp) : ∀ (s : ConfState) (x : Int), confInts ops →
    s.get e item = some x → (s.run e ops).1.get e item = some (confLast item (s.run e ops).2 x) := by
  induction ops with
  | nil => intro s x _ hx; exact hx
  | cons op r ih =>
    intro s x hint hx
    simp only [ConfState.run]
    rw [aux_cf_last_cons]
    exact ih _ _ (fun i v h => hint i v (by simp [h])) (aux_cf_step_get e s op item x hi (fun i v h => hint i v (by simp [h])) hx)

/-- After any calls, the value read of an item is the one of the last call of `vortex_conf_set` that was accepted, or the one at the
start: for all items but the upper limit of descriptors (see `C104_hard`). -/
theorem C104_read_partial (e : ConfEnv) (l : ConfLimit) (ops : List ConfOp) (item : Int) (hint : confInts ops)
    (hi : item = 1 ∧ e.readable = true ∨ item = 3 ∨ item = 4 ∨ item = 5 ∨ item = 6) :
    ((ConfState.new l).step e (.get item)).2 = .value (some (if item = 1 then i32 l.cur else 0)) ∧
    (((ConfState.new l).run e ops).1.step e (.get item)).2 =
      .value (some (confLast item ((ConfState.new l).run e ops).2 (if item = 1 then i32 l.cur else 0))) := by
  have h0 : (ConfState.new l).get e item = some (if item = 1 then i32 l.cur else 0) := by
    rcases hi with ⟨h, hr⟩ | h | h | h | h <;> subst h <;> simp [ConfState.get, ConfState.new]
    exact hr
  have hne : item ≠ 2 := by rcases hi with ⟨h, hr⟩ | h | h | h | h <;> subst h <;> decide
  exact ⟨by simp [ConfState.step, h0], by simp [ConfState.step, aux_cf_run_get e item hne ops _ _ hint h0]⟩

-- two values for the backlog, one refused for the limit
example : confInts [.set 3 64, .set 1 4096, .set 3 128, .set 1 100000] ∧
    ((ConfState.new ⟨1024, 8192⟩).run ⟨true, false, 1048576, id⟩ [.set 3 64, .set 1 4096, .set 3 128, .set 1 100000, .get 3, .get 1]).2 =
      [(.set 3 64, .done true), (.set 1 4096, .done true), (.set 3 128, .done true), (.set 1 100000, .done false),
       (.get 3, .value (some 128)), (.get 1, .value (some 4096))] :=
  ⟨by intro i v h; simp at h; omega, by simp [ConfState.run, ConfState.step, ConfState.set, ConfState.get, ConfEnv.setLimit, ConfState.new, u64, i32]⟩

/-- The upper limit of descriptors: an accepted call sets the value given, or the lower limit if that is higher. -/
theorem C104_hard (e : ConfEnv) (s : ConfState) (v : Int) (hv : 0 ≤ v ∧ v < 2147483648) (hc : s.limit.cur < 2147483648)
    (h : (s.step e (.set 2 v)).2 = .done true) :
    ((s.step e (.set 2 v)).1.step e (.get 2)).2 = .value (some (if v < s.limit.cur then (s.limit.cur : Int) else v)) ∧
    ((s.step e (.set 2 v)).1.step e (.get 1)).2 = .value (some s.limit.cur) := by
  rcases hs : s.set e 2 v with ⟨t, b⟩
  simp only [ConfState.step, hs, ConfRes.done.injEq] at h ⊢
  rcases aux_cf_set hs with ⟨hb, _⟩ | ⟨_, _, h'⟩
  · rw [h] at hb; cases hb
  rcases h' with h' | ⟨_, hr, ht⟩ | h' | h' | h' | h'
  · exact absurd h'.1 (by decide)
  · subst ht
    have hc' : i32 (s.limit.cur : Int) = s.limit.cur := by simp only [i32]; omega
    simp only [ConfState.get, hr, if_true, ConfRes.value.injEq, Option.some.injEq]
    refine ⟨?_, by simpa using hc'⟩
    simp only [show ¬ ((2 : Int) = 1) by decide, if_false, confHard, Option.some.injEq]
    have hu : u64 v = v.toNat := by simp only [u64]; omega
    rw [hu]
    by_cases hlt : v < s.limit.cur
    · have : v.toNat < s.limit.cur := by omega
      simp only [hlt, this, if_true, hc']
    · have : ¬ v.toNat < s.limit.cur := by omega
      simp only [hlt, this, if_false, i32]; omega
  all_goals exact absurd h'.1 (by decide)

example : ((ConfState.new ⟨1024, 8192⟩).step ⟨true, false, 1048576, id⟩ (.set 2 4096)).2 = .done true := by decide

/-- A call that is refused changes nothing. -/
theorem C104_refused (e : ConfEnv) (s : ConfState) (item v : Int) (h : (s.step e (.set item v)).2 = .done false) :
    (s.step e (.set item v)).1 = s := by
  rcases hs : s.set e item v with ⟨t, b⟩
  simp only [ConfState.step, hs, ConfRes.done.injEq] at h ⊢
  rcases aux_cf_set hs with ⟨_, ht⟩ | ⟨hb, _⟩
  · exact ht
  · rw [h] at hb; cases hb

example : ((ConfState.new ⟨1024, 8192⟩).step ⟨true, false, 1048576, id⟩ (.set 2 100000)).2 = .done false := by decide

/-- Setting an item changes no other item. -/
theorem C104_others (e : ConfEnv) (s : ConfState) (item other v : Int) (h : other ≠ item) :
    ((s.step e (.set item v)).1.step e (.get other)).2 = (s.step e (.get other)).2 := by
  rcases hs : s.set e item v with ⟨t, b⟩
  simp only [ConfState.step, hs]
  rcases aux_cf_set hs with ⟨_, ht⟩ | ⟨_, _, h'⟩
  · rw [ht]
  · rcases h' with ⟨hi, _, ht⟩ | ⟨hi, _, ht⟩ | ⟨hi, ht⟩ | ⟨hi, ht⟩ | ⟨hi, ht⟩ | ⟨hi, ht⟩ <;> subst hi <;> subst ht <;>
      simp only [ConfState.get, h, if_false]

/-- Items that do not exist are refused. -/
theorem C104_unknown (e : ConfEnv) (s : ConfState) (item v : Int) (h : item < 1 ∨ 6 < item) :
    (s.step e (.set item v)).2 = .done false ∧ (s.step e (.get item)).2 = .value none := by
  have h1 : item ≠ 1 := by omega
  have h2 : item ≠ 2 := by omega
  have h3 : item ≠ 3 := by omega
  have h4 : item ≠ 4 := by omega
  have h5 : item ≠ 5 := by omega
  have h6 : item ≠ 6 := by omega
  simp [ConfState.step, ConfState.set, ConfState.get, h1, h2, h3, h4, h5, h6]

/-- Documented values other than 0 are accepted, limits if the kernel allows them. -/
theorem C104_accepted_partial (e : ConfEnv) (s : ConfState) (item v : Int) (hv : v ≠ 0) (hr : v < 2147483648)
    (hl : s.limit.cur ≤ s.limit.max) (h : confValid e s.limit item v) : (s.step e (.set item v)).2 = .done true := by
  have hu : 0 ≤ v → u64 v = v.toNat := fun h => by simp only [u64]; omega
  rcases h with ⟨hi, hr', h0, h1, h2⟩ | ⟨hi, hr', h0, h1, h2⟩ | ⟨hi, h⟩ | ⟨hi, h⟩ | ⟨hi, h⟩ | ⟨hi, h⟩ <;> subst hi
  · simp only [ConfState.step, ConfState.set, hv, if_false, if_true, hr', ConfEnv.setLimit, hu h0]
    have a : ¬ v.toNat > s.limit.max := by omega
    have b : ¬ s.limit.max > e.nrOpen := by omega
    simp [a, b]
  · simp only [ConfState.step, ConfState.set, hv, if_false, if_true, hr', ConfEnv.setLimit, hu h0, confHard]
    have hne : ¬ ((2 : Int) = 1) := by decide
    simp only [hne, if_false]
    by_cases hlt : v.toNat < s.limit.cur
    · have b : ¬ s.limit.cur > e.nrOpen := by omega
      have c : ¬ s.limit.cur > s.limit.max := by omega
      simp [hlt, b, c]
    · have a : ¬ s.limit.cur > v.toNat := by omega
      have b : ¬ v.toNat > e.nrOpen := by omega
      have c : ¬ v.toNat > s.limit.max := by omega
      simp [a, b, c]
  all_goals simp [ConfState.step, ConfState.set, hv]

example : confValid ⟨true, false, 1048576, id⟩ ⟨1024, 8192⟩ 1 4096 := .inl ⟨rfl, rfl, by decide, by decide, by decide⟩

/-! ## What the items do -/

/-- A channel with a profile the peer did not announce is refused if and only if this was configured. -/
theorem C104_enforce (e : ConfEnv) (l : ConfLimit) (ops : List ConfOp) (announced : Bool) (hint : confInts ops) :
    (((ConfState.new l).run e ops).1.step e (.create announced)).2 = .done false ↔
      announced = false ∧ confLast 4 ((ConfState.new l).run e ops).2 0 ≠ 0 := by
  have h := aux_cf_run_get e 4 (by decide) ops (ConfState.new l) 0 hint rfl
  simp only [ConfState.step, h]
  cases announced <;> simp

/-- A listener is started with the number configured last, or 0. -/
theorem C104_backlog (e : ConfEnv) (l : ConfLimit) (ops : List ConfOp) (hint : confInts ops) :
    (((ConfState.new l).run e ops).1.step e .listen).2 = .backlog (confLast 3 ((ConfState.new l).run e ops).2 0) := by
  have h := aux_cf_run_get e 3 (by decide) ops (ConfState.new l) 0 hint rfl
  simp [ConfState.step, h]

example : confInts [.set 4 1, .set 3 64] ∧
    ((ConfState.new ⟨1024, 8192⟩).run ⟨true, false, 1048576, id⟩ [.set 4 1, .set 3 64, .create false, .create true, .listen]).2 =
      [(.set 4 1, .done true), (.set 3 64, .done true), (.create false, .done false), (.create true, .done true), (.listen, .backlog 64)] :=
  ⟨by intro i v h; simp at h; omega, by decide⟩

/-! ## MIME headers -/

theorem aux_cf_chan_cons (c : Nat) (p : ConfOp × ConfRes) (r : List (ConfOp × ConfRes)) (x : Int) :
    confChanLast c (p :: r) x = confChanLast c r (confChanLast c [p] x) := by
  obtain ⟨op, res⟩ := p
  cases op <;> first | rfl | (cases res <;> first | rfl | (rename_i b; cases b <;> rfl))

theorem aux_cf_prof_cons (c : Nat) (p : ConfOp × ConfRes) (r : List (ConfOp × ConfRes)) (x : Int) :
    confProfLast c (p :: r) x = confProfLast c r (confProfLast c [p] x) := by
  obtain ⟨op, res⟩ := p
  cases op <;> first | rfl | (cases res <;> first | rfl | (rename_i b; cases b <;> rfl))

theorem aux_cf_set_mime (e : ConfEnv) (s : ConfState) (item v : Int) :
    (s.set e item v).1.chanMime = s.chanMime ∧ (s.set e item v).1.profMime = s.profMime ∧
    (item ≠ 5 → (s.set e item v).1.mime = s.mime) := by
  rcases hs : s.set e item v with ⟨t, b⟩
  rcases aux_cf_set hs with ⟨_, ht⟩ | ⟨_, _, h'⟩
  · subst ht; exact ⟨rfl, rfl, fun _ => rfl⟩
  · rcases h' with ⟨hi, _, ht⟩ | ⟨hi, _, ht⟩ | ⟨hi, ht⟩ | ⟨hi, ht⟩ | ⟨hi, ht⟩ | ⟨hi, ht⟩ <;> subst ht <;>
      exact ⟨rfl, rfl, fun h => by first | rfl | exact absurd hi h⟩

theorem aux_cf_prof (e : ConfEnv) (p : Nat) : ∀ (ops : List ConfOp) (s : ConfState),
    (s.run e ops).1.profMime p = confProfLast p (s.run e ops).2 (s.profMime p)
  | [], s => rfl
  | op :: r, s => by
    simp only [ConfState.run]
    rw [aux_cf_prof e p r, aux_cf_prof_cons]
    congr 1
    cases op with
    | set i v => simp only [ConfState.step]; rw [(aux_cf_set_mime e s i v).2.1]; cases (s.set e i v).2 <;> rfl
    | get i => rfl
    | profMime q v =>
      simp only [ConfState.step]
      by_cases h : v = 0 ∨ v = 1 ∨ v = 2
      · simp only [h, if_true, confProfLast, eq_comm]
      · simp only [h, if_false, confProfLast]
    | chanMime c v =>
      simp only [ConfState.step]
      by_cases h : v = 0 ∨ v = 1 ∨ v = 2
      · simp only [h, if_true, confProfLast]
      · simp only [h, if_false, confProfLast]
    | send c => rfl
    | create a => simp only [ConfState.step]; split <;> rfl
    | listen => rfl

theorem aux_cf_chan (e : ConfEnv) (c : Nat) : ∀ (ops : List ConfOp) (s : ConfState), .send c ∉ ops →
    (s.run e ops).1.chanMime c = confChanLast c (s.run e ops).2 (s.chanMime c)
  | [], s, _ => rfl
  | op :: r, s, hn => by
    simp only [ConfState.run]
    rw [aux_cf_chan e c r _ (fun h => hn (by simp [h])), aux_cf_chan_cons]
    congr 1
    cases op with
    | set i v => simp only [ConfState.step]; rw [(aux_cf_set_mime e s i v).1]; cases (s.set e i v).2 <;> rfl
    | get i => rfl
    | profMime q v =>
      simp only [ConfState.step]
      by_cases h : v = 0 ∨ v = 1 ∨ v = 2
      · simp only [h, if_true, confChanLast]
      · simp only [h, if_false, confChanLast]
    | chanMime d v =>
      simp only [ConfState.step]
      by_cases h : v = 0 ∨ v = 1 ∨ v = 2
      · simp only [h, if_true, confChanLast, eq_comm]
      · simp only [h, if_false, confChanLast]
    | send d =>
      have : c ≠ d := fun h => hn (by simp [h])
      simp [ConfState.step, confChanLast, this]
    | create a => simp only [ConfState.step]; split <;> rfl
    | listen => rfl

theorem aux_cf_resolve_idem (a b l : Int) : confResolve (confResolve a b l) b l = confResolve a b l := by
  simp only [confResolve]
  by_cases ha : a = 0
  · by_cases hb : b = 0
    · by_cases hl : l = 0 <;> simp [ha, hb, hl]
    · simp [ha, hb]
  · simp [ha]

/-- Calls that do not change a level that matters for the channel do not change the decision. -/
theorem aux_cf_keep (e : ConfEnv) (c : Nat) : ∀ (ops : List ConfOp) (s : ConfState),
    (∀ v, .chanMime c v ∉ ops) → (∀ v, .profMime (e.profile c) v ∉ ops) → (∀ v, .set 5 v ∉ ops) →
    confResolve ((s.run e ops).1.chanMime c) ((s.run e ops).1.profMime (e.profile c)) (s.run e ops).1.mime =
      confResolve (s.chanMime c) (s.profMime (e.profile c)) s.mime
  | [], s, _, _, _ => rfl
  | op :: r, s, h1, h2, h3 => by
    simp only [ConfState.run]
    rw [aux_cf_keep e c r _ (fun v h => h1 v (by simp [h])) (fun v h => h2 v (by simp [h])) (fun v h => h3 v (by simp [h]))]
    cases op with
    | set i v =>
      have hi : i ≠ 5 := fun h => h3 v (by simp [h])
      simp only [ConfState.step, (aux_cf_set_mime e s i v).1, (aux_cf_set_mime e s i v).2.1, (aux_cf_set_mime e s i v).2.2 hi]
    | get i => rfl
    | profMime q v =>
      have : e.profile c ≠ q := fun h => h2 v (by simp [h])
      simp only [ConfState.step]; split <;> simp [this]
    | chanMime d v =>
      have : c ≠ d := fun h => h1 v (by simp [h])
      simp only [ConfState.step]; split <;> simp [this]
    | send d =>
      simp only [ConfState.step]
      by_cases hd : c = d
      · subst hd; simp only [if_true]; exact aux_cf_resolve_idem _ _ _
      · simp [hd]
    | create a => simp only [ConfState.step]; split <;> rfl
    | listen => rfl

theorem aux_cf_wanted (a b l : Int) : (confResolve a b l != 2) = if a ≠ 0 then a != 2 else if b ≠ 0 then b != 2 else l != 2 := by
  simp only [confResolve]
  by_cases ha : a = 0
  · by_cases hb : b = 0
    · by_cases hl : l = 0 <;> simp [ha, hb, hl]
    · simp [ha, hb]
  · simp [ha]

/-- Headers are added to a message as the nearest level says, if no level was changed since the first message of the channel. What is
missing: `C104_stale`. -/
theorem C104_mime_partial (e : ConfEnv) (l : ConfLimit) (pre post : List ConfOp) (c : Nat) (hint : confInts pre)
    (hpre : .send c ∉ pre) (h1 : ∀ v, .chanMime c v ∉ post) (h2 : ∀ v, .profMime (e.profile c) v ∉ post) (h3 : ∀ v, .set 5 v ∉ post) :
    (((ConfState.new l).run e (pre ++ post)).1.step e (.send c)).2 = .headers (confWanted e c ((ConfState.new l).run e pre).2) := by
  have hm := aux_cf_run_get e 5 (by decide) pre (ConfState.new l) 0 hint rfl
  simp only [ConfState.get, show ¬ ((5 : Int) = 1) by decide, show ¬ ((5 : Int) = 2) by decide, show ¬ ((5 : Int) = 3) by decide,
    show ¬ ((5 : Int) = 4) by decide, if_false, if_true, Option.some.injEq] at hm
  simp only [ConfState.step, aux_cf_append, ConfRes.headers.injEq]
  rw [aux_cf_keep e c post _ h1 h2 h3, aux_cf_wanted, aux_cf_chan e c pre _ hpre, aux_cf_prof, hm]
  simp only [confWanted]
  rfl

-- the context says no, the profile of channel 1 says yes, channel 3 says yes
example : confInts [.set 5 2, .profMime 1 1, .chanMime 3 1] ∧
    ((ConfState.new ⟨1024, 8192⟩).run ⟨true, false, 1048576, id⟩ [.set 5 2, .profMime 1 1, .chanMime 3 1, .send 1, .send 2, .send 3]).2.map (·.2) =
      [.done true, .done true, .done true, .headers true, .headers false, .headers true] :=
  ⟨by intro i v h; simp at h; omega, by decide⟩

/-! ## Violations -/

/-- **Violation**: 0 is never accepted, so what was switched on cannot be switched off. -/
theorem C104_off (e : ConfEnv) (s : ConfState) (item : Int) : (s.step e (.set item 0)).2 = .done false := by
  simp [ConfState.step, ConfState.set]

/-- **Violation**: once channels with profiles that were not announced are refused, they are refused for good, after any calls. -/
theorem C104_for_good (e : ConfEnv) : ∀ (ops : List ConfOp) (s : ConfState), (s.step e (.create false)).2 = .done false →
    ((s.run e ops).1.step e (.create false)).2 = .done false
  | [], _, h => h
  | op :: r, s, h => by
    simp only [ConfState.run]
    refine C104_for_good e r _ ?_
    have hk : s.enforce ≠ 0 := by simpa [ConfState.step, ConfState.get] using h
    have : (s.step e op).1.enforce ≠ 0 := by
      cases op with
      | set i v =>
        simp only [ConfState.step]
        rcases hs : s.set e i v with ⟨t, b⟩
        rcases aux_cf_set hs with ⟨_, ht⟩ | ⟨_, hv, h'⟩
        · subst ht; exact hk
        · rcases h' with ⟨hi, _, ht⟩ | ⟨hi, _, ht⟩ | ⟨hi, ht⟩ | ⟨hi, ht⟩ | ⟨hi, ht⟩ | ⟨hi, ht⟩ <;> subst ht <;>
            first | exact hk | exact hv
      | get i => exact hk
      | profMime q v => simp only [ConfState.step]; split <;> exact hk
      | chanMime d v => simp only [ConfState.step]; split <;> exact hk
      | send d => exact hk
      | create a => simp only [ConfState.step]; split <;> exact hk
      | listen => exact hk
    simpa [ConfState.step, ConfState.get] using this

example : (((ConfState.new ⟨1024, 8192⟩).step ⟨true, false, 1048576, id⟩ (.set 4 1)).1.step ⟨true, false, 1048576, id⟩ (.create false)).2 =
    .done false := by decide

/-- **Violation**: setting the upper limit below the lower one is accepted, but neither becomes the value. -/
theorem C104_hard_lower : ∃ (e : ConfEnv) (l : ConfLimit), l.cur ≤ l.max ∧
    ((ConfState.new l).run e [.set 2 512, .get 2, .get 1]).2.map (·.2) = [.done true, .value (some 1024), .value (some 1024)] :=
  ⟨⟨true, false, 1048576, id⟩, ⟨1024, 8192⟩, by decide, by simp [ConfState.run, ConfState.step, ConfState.set, ConfState.get, ConfEnv.setLimit, confHard, ConfState.new, u64, i32]⟩

/-- **Violation**: the backlog is documented to be 5 if it was not configured; listeners are started with 0. -/
theorem C104_default (e : ConfEnv) (l : ConfLimit) :
    confDefault l 3 = 5 ∧ ((ConfState.new l).step e (.get 3)).2 = .value (some 0) ∧ ((ConfState.new l).step e .listen).2 = .backlog 0 :=
  ⟨rfl, rfl, rfl⟩

/-- **Violation**: once a message was sent on a channel that was not configured, changes of its profile or of the context have no effect
on it: for any value that was in force. -/
theorem C104_stale (e : ConfEnv) (l : ConfLimit) (c : Nat) (v : Int) (hv : v = 1 ∨ v = 2) :
    let h := ((ConfState.new l).run e [.send c, .set 5 v, .profMime (e.profile c) v])
    confWanted e c h.2 = (v != 2) ∧ (h.1.step e (.send c)).2 = .headers true := by
  rcases hv with hv | hv <;> subst hv <;>
    simp [ConfState.run, ConfState.step, ConfState.set, ConfState.new, confResolve, confWanted, confChanLast, confProfLast]

/-- C104: values read are the last ones set, or the documented ones; documented values are accepted; headers are added as the nearest
level says. -/
def C104_statement : Prop :=
  ∀ (e : ConfEnv) (l : ConfLimit) (ops : List ConfOp), e.readable = true → l.cur ≤ l.max → confInts ops →
    (∀ item, 1 ≤ item ∧ item ≤ 6 → (((ConfState.new l).run e ops).1.step e (.get item)).2 =
      .value (some (confLast item ((ConfState.new l).run e ops).2 (confDefault l item)))) ∧
    (∀ item v, confValid e ((ConfState.new l).run e ops).1.limit item v → v < 2147483648 →
      (((ConfState.new l).run e ops).1.step e (.set item v)).2 = .done true) ∧
    (∀ c, (((ConfState.new l).run e ops).1.step e (.send c)).2 = .headers (confWanted e c ((ConfState.new l).run e ops).2))

theorem C104_statement_false : ¬ C104_statement := by
  intro h
  have := ((h ⟨true, false, 1048576, id⟩ ⟨1024, 8192⟩ [] rfl (by decide) (by intro i v h; simp at h)).1 3 ⟨by decide, by decide⟩)
  exact absurd this (by decide)

end Verif.Props
