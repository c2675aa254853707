import Verif.Spec.ListenNew
/-!
# C111: starting a listener
-/
namespace Verif.Props
open Verif.Model Verif.Spec

theorem aux_ln_put {P : LnCall → Prop} {s : LnState} (h : ∀ j, P (s.calls j)) (i : Nat) {c : LnCall} (hc : P c) : ∀ j, P ((s.put i c).calls j) := by
  intro j
  simp only [LnState.put]
  split
  · exact hc
  · exact h j

/-- What is known of a call in every history. -/
structure aux_ln_A (c : LnCall) : Prop where
  early : c.pc ≠ .act → c.pc ≠ .done → c.told = []
  late : (c.pc = .act ∨ c.pc = .done) → c.made = true → ∃ h p, c.told = c.notices h p
  lost : c.made = false → c.told = [] ∨ ∃ h p, c.told = c.notices h p
  mkd : c.made = true → c.pc = .watch ∨ c.pc = .tell ∨ c.pc = .act ∨ c.pc = .done
  val : c.pc = .done → c.plain = false → c.full = false → c.value = some c.made
  port : 0 < c.port → c.port < 65536 → (c.pc = .listen ∨ c.pc = .name ∨ c.pc = .make ∨ c.made = true) → (c.bound : Int) = c.port
  act : c.pc = .act ∨ c.pc = .watch → c.made = true

theorem aux_ln_fail {c : LnCall} (h : aux_ln_A c) (hm : c.made = false) : aux_ln_A c.fail := by
  have l := h.lost hm
  refine ⟨by simp [LnCall.fail], by simp [LnCall.fail, hm], ?_, by simp [LnCall.fail], ?_, ?_, by simp [LnCall.fail]⟩
  · intro _; exact l
  · intro _ h1 h2; simp [LnCall.fail, LnCall.threaded] at h1 h2 ⊢; simp [h1, h2, hm]
  · intro h1 h2 h3; simp [LnCall.fail, hm] at h3

theorem aux_ln_port {p : Int} (f : Nat) (h1 : 0 < p) (h2 : p < 65536) : (lnPort p f : Int) = p := by
  unfold lnPort
  have : p % 65536 = p := by omega
  rw [this, if_neg (by omega)]
  omega

/-- The fields told, pc, made, value, port and bound decide. -/
theorem aux_ln_same {c d : LnCall} (h : aux_ln_A c) (h1 : d.told = c.told) (h2 : d.pc = c.pc) (h3 : d.made = c.made) (h4 : d.value = c.value)
    (h5 : d.port = c.port) (h6 : d.bound = c.bound) (h7 : d.plain = c.plain) (h8 : d.full = c.full) : aux_ln_A d := by
  have hn : ∀ x y, d.notices x y = c.notices x y := by intro x y; simp [LnCall.notices, h3, h7, h8]
  refine ⟨?_, ?_, ?_, ?_, ?_, ?_, ?_⟩
  · rw [h1, h2]; exact h.early
  · rw [h1, h2, h3]; intro a b; obtain ⟨x, y, e⟩ := h.late a b; exact ⟨x, y, by rw [hn]; exact e⟩
  · rw [h1, h3]; intro a; rcases h.lost a with e | ⟨x, y, e⟩
    · exact .inl e
    · exact .inr ⟨x, y, by rw [hn]; exact e⟩
  · rw [h2, h3]; exact h.mkd
  · rw [h2, h3, h4, h7, h8]; exact h.val
  · rw [h2, h3, h5, h6]; exact h.port
  · rw [h2, h3]; exact h.act

theorem aux_ln_next {s : LnState} (h : ∀ j, aux_ln_A (s.calls j)) (i : Nat) (e : LnEnv) : ∀ j, aux_ln_A ((s.next i e).calls j) := by
  have hi := h i
  have nm : (s.calls i).pc ≠ .watch → (s.calls i).pc ≠ .tell → (s.calls i).pc ≠ .act → (s.calls i).pc ≠ .done → (s.calls i).made = false := by
    intro a b c d
    cases hm : (s.calls i).made with
    | false => rfl
    | true => rcases hi.mkd hm with x | x | x | x <;> contradiction
  unfold LnState.next
  cases hp : (s.calls i).pc with
  | idle => simpa [hp] using h
  | done => simpa [hp] using h
  | resolve =>
    have hm := nm (by simp [hp]) (by simp [hp]) (by simp [hp]) (by simp [hp])
    have ht := hi.early (by simp [hp]) (by simp [hp])
    simp only
    split
    · exact aux_ln_put h i ⟨fun _ _ => ht, by simp, fun _ => .inl ht, by simp [hm], by simp, by simp [hm], by simp⟩
    · exact aux_ln_put h i (aux_ln_fail hi hm)
  | socket =>
    have hm := nm (by simp [hp]) (by simp [hp]) (by simp [hp]) (by simp [hp])
    have ht := hi.early (by simp [hp]) (by simp [hp])
    simp only
    split
    · exact aux_ln_put h i (aux_ln_fail hi hm)
    · split
      · exact h
      · split
        · exact aux_ln_put (s := { s with fds := _ }) h i (aux_ln_fail hi hm)
        · exact aux_ln_put (s := { s with fds := _ }) h i
            ⟨fun _ _ => ht, by simp, fun _ => .inl ht, by simp [hm], by simp, by simp [hm], by simp⟩
  | bind =>
    have hm := nm (by simp [hp]) (by simp [hp]) (by simp [hp]) (by simp [hp])
    have ht := hi.early (by simp [hp]) (by simp [hp])
    simp only
    split
    · exact aux_ln_put h i ⟨fun _ _ => ht, by simp, fun _ => .inl ht, by simp [hm], by simp, fun a b _ => aux_ln_port _ a b, by simp⟩
    · exact aux_ln_put (s := s.shut _ i) h i (aux_ln_fail hi hm)
  | listen =>
    have hm := nm (by simp [hp]) (by simp [hp]) (by simp [hp]) (by simp [hp])
    have ht := hi.early (by simp [hp]) (by simp [hp])
    simp only
    split
    · exact aux_ln_put h i ⟨fun _ _ => ht, by simp, fun _ => .inl ht, by simp [hm], by simp, fun a b _ => hi.port a b (by simp [hp]), by simp⟩
    · exact aux_ln_put (s := s.shut _ i) h i (aux_ln_fail hi hm)
  | name =>
    have hm := nm (by simp [hp]) (by simp [hp]) (by simp [hp]) (by simp [hp])
    have ht := hi.early (by simp [hp]) (by simp [hp])
    simp only
    split
    · exact aux_ln_put h i ⟨fun _ _ => ht, by simp, fun _ => .inl ht, by simp [hm], by simp, fun a b _ => hi.port a b (by simp [hp]), by simp⟩
    · exact aux_ln_put (s := s.shut _ i) h i (aux_ln_fail hi hm)
  | make =>
    have hm := nm (by simp [hp]) (by simp [hp]) (by simp [hp]) (by simp [hp])
    have ht := hi.early (by simp [hp]) (by simp [hp])
    simp only
    split
    · exact aux_ln_put h i ⟨fun _ _ => ht, by simp, by simp, by simp, by simp, fun a b _ => hi.port a b (by simp [hp]), by simp⟩
    · exact aux_ln_put (s := s.shut _ i) h i ⟨fun _ _ => ht, by simp, fun _ => .inl ht, by simp [hm], by simp, by simp [hm], by simp⟩
  | again =>
    have hm := nm (by simp [hp]) (by simp [hp]) (by simp [hp]) (by simp [hp])
    have ht := hi.early (by simp [hp]) (by simp [hp])
    exact aux_ln_put (s := s.shut _ i) h i ⟨fun _ _ => ht, by simp, fun _ => .inl ht, by simp [hm], by simp, by simp [hm], by simp⟩
  | watch =>
    have hm := hi.act (.inr hp)
    have ht := hi.early (by simp [hp]) (by simp [hp])
    exact aux_ln_put h i ⟨fun _ _ => ht, by simp, fun _ => .inl ht, by simp, by simp, fun a b _ => hi.port a b (by simp [hm]), by simp⟩
  | tell =>
    simp only
    split
    · rename_i hm
      exact aux_ln_put h i ⟨by simp, fun _ _ => ⟨e.host, e.port, rfl⟩, fun _ => .inr ⟨e.host, e.port, rfl⟩, by simp, by simp,
        fun a b _ => hi.port a b (by simp [hm]), fun _ => hm⟩
    · rename_i hm
      have hm : (s.calls i).made = false := by simpa using hm
      refine aux_ln_put h i (c := LnCall.fail { s.calls i with told := (s.calls i).notices e.host e.port }) ?_
      refine ⟨by simp [LnCall.fail], by simp [LnCall.fail, hm], fun _ => .inr ⟨e.host, e.port, rfl⟩, by simp [LnCall.fail], ?_, by simp [LnCall.fail, hm],
        by simp [LnCall.fail]⟩
      intro _ a b; simp [LnCall.fail, LnCall.threaded] at a b ⊢; simp [a, b, hm]
  | act =>
    have hm := hi.act (.inl hp)
    have ht := hi.late (.inl hp) hm
    have key : ∀ (b r : Bool), aux_ln_A { s.calls i with
        pc := .done, ok := b, refused := r, value := if (s.calls i).threaded then none else some true } := by
      intro b r
      refine ⟨by simp, fun _ _ => ht, by simp [hm], by simp, ?_, fun a b _ => hi.port a b (by simp [hm]), by simp⟩
      intro _ a b; simp [LnCall.threaded] at a b ⊢; simp [a, b, hm]
    simp only
    split
    · exact aux_ln_put (s := { s with bad := true }) h i (key _ _)
    · split
      · exact aux_ln_put (s := s.shut _ i) h i (key _ _)
      · exact aux_ln_put h i (key _ _)

theorem aux_ln_step {s : LnState} (h : ∀ j, aux_ln_A (s.calls j)) (op : LnOp) : ∀ j, aux_ln_A ((s.step op).calls j) := by
  cases op with
  | call i port plain full register =>
    simp only [LnState.step]
    split
    · exact aux_ln_put h i ⟨by simp, by simp, by simp, by simp, by simp, by simp, by simp⟩
    · exact h
  | step i e => exact aux_ln_next h i e
  | drop i =>
    simp only [LnState.step]
    split
    · split
      · exact h
      · exact aux_ln_put h i (aux_ln_same (h i) rfl rfl rfl rfl rfl rfl rfl rfl)
    · exact h
  | check i =>
    simp only [LnState.step]
    split; · exact h
    split <;> exact h
  | shutdown i =>
    simp only [LnState.step]
    split; · exact h
    split; · exact h
    split
    · exact aux_ln_put (s := s.shut _ i) h i (aux_ln_same (h i) rfl rfl rfl rfl rfl rfl rfl rfl)
    · exact h
  | close i =>
    simp only [LnState.step]
    split; · exact h
    split; · exact h
    split; · exact h
    split; · exact h
    exact aux_ln_put h i (aux_ln_same (h i) rfl rfl rfl rfl rfl rfl rfl rfl)
  | ref i =>
    simp only [LnState.step]
    split; · exact h
    split; · exact h
    split
    · exact aux_ln_put h i (aux_ln_same (h i) rfl rfl rfl rfl rfl rfl rfl rfl)
    · exact h
  | unref i =>
    simp only [LnState.step]
    split; · exact h
    split; · exact h
    split
    · exact aux_ln_put (s := s.shut _ i) h i (aux_ln_same (h i) rfl rfl rfl rfl rfl rfl rfl rfl)
    · exact aux_ln_put h i (aux_ln_same (h i) rfl rfl rfl rfl rfl rfl rfl rfl)
  | appOpen n => simp only [LnState.step]; split <;> exact h
  | appClose n => simp only [LnState.step]; split <;> exact h

theorem aux_ln_run (ops : List LnOp) : ∀ s : LnState, (∀ j, aux_ln_A (s.calls j)) → ∀ j, aux_ln_A ((s.run ops).calls j) := by
  induction ops with
  | nil => intro s h; exact h
  | cons op r ih => intro s h; exact ih _ (aux_ln_step h op)

theorem aux_ln_init (j : Nat) : aux_ln_A (({} : LnState).calls j) :=
  ⟨by simp, by simp, by simp, by simp, by simp, by simp, by simp⟩

theorem aux_ln_count (c : LnCall) (h p : Nat) : ((c.notices h p).filter (fun t => t.full == false)).length = (if c.plain then 1 else 0) ∧
    ((c.notices h p).filter (fun t => t.full == true)).length = (if c.full then 1 else 0) := by
  unfold LnCall.notices
  cases c.plain <;> cases c.full <;> simp

/-- In every history: when a call that made its listener has ended, each handler it was given was called exactly once, with `VortexOk`, and the full one
with the listener; no handler is ever called twice, or without being given. -/
theorem C111_told_partial (ops : List LnOp) (i : Nat) :
    let c := (({} : LnState).run ops).calls i
    (c.pc = .done → c.made = true → lnTold c false = (if c.plain then 1 else 0) ∧ lnTold c true = (if c.full then 1 else 0) ∧
      ∀ t ∈ c.told, t.fine = true ∧ (t.full = true → t.conn = true)) ∧
    lnTold c false ≤ (if c.plain then 1 else 0) ∧ lnTold c true ≤ (if c.full then 1 else 0) := by
  intro c
  have h : aux_ln_A c := aux_ln_run ops _ aux_ln_init i
  have shape : c.told = [] ∨ ∃ x y, c.told = c.notices x y := by
    cases hm : c.made with
    | false => exact h.lost hm
    | true =>
      rcases h.mkd hm with a | a | a | a
      · exact .inl (h.early (by simp [a]) (by simp [a]))
      · exact .inl (h.early (by simp [a]) (by simp [a]))
      · exact .inr (h.late (.inl a) hm)
      · exact .inr (h.late (.inr a) hm)
  refine ⟨fun hd hm => ?_, ?_⟩
  · obtain ⟨x, y, e⟩ := h.late (.inr hd) hm
    have k := aux_ln_count c x y
    refine ⟨by simp only [lnTold, e]; exact k.1, by simp only [lnTold, e]; exact k.2, ?_⟩
    intro t ht
    rw [e] at ht
    unfold LnCall.notices at ht
    cases hp : c.plain <;> cases hf : c.full <;> simp [hp, hf] at ht
    · subst ht; simp [hm]
    · subst ht; simp
    · rcases ht with rfl | rfl <;> simp [hm]
  · rcases shape with e | ⟨x, y, e⟩
    · simp [lnTold, e]
    · have k := aux_ln_count c x y
      simp only [lnTold, e]
      exact ⟨Nat.le_of_eq k.1, Nat.le_of_eq k.2⟩

/-- In every history: a call without handlers returns a listener exactly if it made one. -/
theorem C111_value (ops : List LnOp) (i : Nat) :
    let c := (({} : LnState).run ops).calls i
    c.pc = .done → c.plain = false → c.full = false → c.value = some c.made := by
  intro c
  exact (aux_ln_run ops _ aux_ln_init i).val

/-- In every history: a listener is bound to the port asked for, if this is between 1 and 65535. -/
theorem C111_port_partial (ops : List LnOp) (i : Nat) :
    let c := (({} : LnState).run ops).calls i
    c.made = true → 0 < c.port → c.port < 65536 → (c.bound : Int) = c.port := by
  intro c hm h1 h2
  exact (aux_ln_run ops _ aux_ln_init i).port h1 h2 (by simp [c] at hm; simp [hm])

/-- The call, or the listener it made, has an open socket. -/
def aux_ln_open (c : LnCall) : Prop := c.pc = .bind ∨ c.pc = .listen ∨ c.pc = .name ∨ c.pc = .make ∨ c.ok = true

/-- What is known of a call in a system that can make all connections. -/
structure aux_ln_B (c : LnCall) : Prop where
  a : aux_ln_A c
  okm : c.ok = true → c.made = true
  nag : c.pc ≠ .again
  tel : c.pc = .tell → c.made = true
  sil : c.made = false → c.told = []

structure aux_ln_D (s : LnState) : Prop where
  b : ∀ j, aux_ln_B (s.calls j)
  own : ∀ n j, s.fds n = some (.call j) ↔ ((s.calls j).fd = n ∧ aux_ln_open (s.calls j))
  st : s.stolen = false

theorem aux_ln_D_put {s : LnState} (h : aux_ln_D s) (i : Nat) {c : LnCall} (hb : aux_ln_B c)
    (ho : aux_ln_open c ↔ aux_ln_open (s.calls i)) (hf : c.fd = (s.calls i).fd) : aux_ln_D (s.put i c) := by
  refine ⟨aux_ln_put h.b i hb, ?_, h.st⟩
  intro n j
  by_cases hj : j = i
  · subst hj; simp only [LnState.put, if_true, ho, hf]; exact h.own n j
  · simp only [LnState.put, if_neg hj]; exact h.own n j

theorem aux_ln_D_shut {s : LnState} (h : aux_ln_D s) (i : Nat) {c : LnCall} (hb : aux_ln_B c)
    (ho : ¬ aux_ln_open c) (hi : aux_ln_open (s.calls i)) : aux_ln_D ((s.shut (s.calls i).fd i).put i c) := by
  have own := (h.own (s.calls i).fd i).2 ⟨rfl, hi⟩
  refine ⟨aux_ln_put (s := s.shut _ i) h.b i hb, ?_, ?_⟩
  · intro n j
    by_cases hj : j = i
    · subst hj
      simp only [LnState.put, LnState.shut, if_true]
      constructor
      · intro e
        split at e
        · simp at e
        · rename_i hn
          exact absurd ((h.own n j).1 e).1.symm hn
      · intro ⟨_, e⟩; exact absurd e ho
    · simp only [LnState.put, LnState.shut, if_neg hj]
      constructor
      · intro e
        split at e
        · simp at e
        · exact (h.own n j).1 e
      · intro e
        have := (h.own n j).2 e
        rw [if_neg]
        · exact this
        · intro hn; subst hn; rw [own] at this; simp at this; exact hj this.symm
  · simp [LnState.put, LnState.shut, h.st, own]

theorem aux_ln_B_same {c d : LnCall} (h : aux_ln_B c) (h1 : d.told = c.told) (h2 : d.pc = c.pc) (h3 : d.made = c.made) (h4 : d.value = c.value)
    (h5 : d.port = c.port) (h6 : d.bound = c.bound) (h7 : d.plain = c.plain) (h8 : d.full = c.full) (h9 : d.ok = true → c.ok = true) : aux_ln_B d :=
  ⟨aux_ln_same h.a h1 h2 h3 h4 h5 h6 h7 h8, fun x => by rw [h3]; exact h.okm (h9 x), by rw [h2]; exact h.nag, by rw [h2, h3]; exact h.tel,
    by rw [h3, h1]; exact h.sil⟩

theorem aux_ln_D_next {s : LnState} (h : aux_ln_D s) (i : Nat) (e : LnEnv) (hr : LnSystem s (.step i e)) : aux_ln_D (s.next i e) := by
  have hi := h.b i
  have hA : ∀ j, aux_ln_A ((s.next i e).calls j) := aux_ln_next (fun j => (h.b j).a) i e
  have hAi := hA i
  obtain ⟨r1, r2⟩ := hr
  have nm : (s.calls i).pc ≠ .watch → (s.calls i).pc ≠ .tell → (s.calls i).pc ≠ .act → (s.calls i).pc ≠ .done → (s.calls i).made = false := by
    intro a b c d
    cases hm : (s.calls i).made with
    | false => rfl
    | true => rcases hi.a.mkd hm with x | x | x | x <;> contradiction
  have nok : (s.calls i).made = false → (s.calls i).ok = false := by
    intro hm
    cases ho : (s.calls i).ok with
    | false => rfl
    | true => rw [hi.okm ho] at hm; simp at hm
  unfold LnState.next at hAi ⊢
  cases hp : (s.calls i).pc with
  | idle => exact h
  | done => exact h
  | resolve =>
    have hm := nm (by simp [hp]) (by simp [hp]) (by simp [hp]) (by simp [hp])
    have hk := nok hm
    have ht := hi.sil hm
    simp only [hp] at hAi ⊢
    split <;> rename_i hy <;> simp only [hy, if_true, LnState.put, Bool.false_eq_true, if_false] at hAi
    · exact aux_ln_D_put h i ⟨hAi, by simp [hk], by simp, by simp, fun _ => ht⟩ (by simp [aux_ln_open, hp]) rfl
    · exact aux_ln_D_put h i ⟨hAi, by simp [LnCall.fail, hk], by simp [LnCall.fail], by simp [LnCall.fail], fun _ => ht⟩
        (by simp [aux_ln_open, hp, LnCall.fail]) rfl
  | socket =>
    have hm := nm (by simp [hp]) (by simp [hp]) (by simp [hp]) (by simp [hp])
    have hk := nok hm
    have ht := hi.sil hm
    have hc : ¬ aux_ln_open (s.calls i) := by simp [aux_ln_open, hp, hk]
    simp only [hp] at hAi ⊢
    cases hf : e.fd with
    | none =>
      simp only [hf, LnState.put, if_true] at hAi
      exact aux_ln_D_put h i ⟨hAi, by simp [LnCall.fail, hk], by simp [LnCall.fail], by simp [LnCall.fail], fun _ => ht⟩
        (by simp [aux_ln_open, hp, LnCall.fail]) rfl
    | some n =>
      have hn := r1 hp n hf
      simp only [hf] at hAi ⊢
      cases hfd : s.fds n with
      | some w => exact h
      | none =>
        have n2 : ¬ n ≤ 2 := by omega
        simp only [hfd, n2, if_false, LnState.put, if_true] at hAi ⊢
        refine ⟨?_, ?_, h.st⟩
        · exact aux_ln_put (s := s) h.b i ⟨hAi, by simp [hk], by simp, by simp, fun _ => ht⟩
        · intro m j
          by_cases hj : j = i
          · subst hj
            simp only [if_true]
            by_cases hmn : m = n
            · subst hmn; simp [aux_ln_open]
            · simp only [hmn, if_false]
              constructor
              · intro x; exact absurd ((h.own m j).1 x).2 hc
              · intro ⟨x, _⟩; exact absurd x.symm hmn
          · simp only [hj, if_false]
            by_cases hmn : m = n
            · subst hmn
              simp only [if_true]
              constructor
              · intro x; simp at x; exact absurd x.symm hj
              · intro x; have := (h.own m j).2 x; rw [hfd] at this; simp at this
            · simp only [hmn, if_false]; exact h.own m j
  | bind =>
    have hm := nm (by simp [hp]) (by simp [hp]) (by simp [hp]) (by simp [hp])
    have hk := nok hm
    have ht := hi.sil hm
    simp only [hp] at hAi ⊢
    split <;> rename_i hy <;> simp only [hy, if_true, LnState.put, Bool.false_eq_true, if_false] at hAi
    · exact aux_ln_D_put h i ⟨hAi, by simp [hk], by simp, by simp, fun _ => ht⟩ (by simp [aux_ln_open, hp]) rfl
    · exact aux_ln_D_shut h i ⟨hAi, by simp [LnCall.fail, hk], by simp [LnCall.fail], by simp [LnCall.fail], fun _ => ht⟩
        (by simp [aux_ln_open, hk, LnCall.fail]) (by simp [aux_ln_open, hp])
  | listen =>
    have hm := nm (by simp [hp]) (by simp [hp]) (by simp [hp]) (by simp [hp])
    have hk := nok hm
    have ht := hi.sil hm
    simp only [hp] at hAi ⊢
    split <;> rename_i hy <;> simp only [hy, if_true, LnState.put, Bool.false_eq_true, if_false] at hAi
    · exact aux_ln_D_put h i ⟨hAi, by simp [hk], by simp, by simp, fun _ => ht⟩ (by simp [aux_ln_open, hp]) rfl
    · exact aux_ln_D_shut h i ⟨hAi, by simp [LnCall.fail, hk], by simp [LnCall.fail], by simp [LnCall.fail], fun _ => ht⟩
        (by simp [aux_ln_open, hk, LnCall.fail]) (by simp [aux_ln_open, hp])
  | name =>
    have hm := nm (by simp [hp]) (by simp [hp]) (by simp [hp]) (by simp [hp])
    have hk := nok hm
    have ht := hi.sil hm
    simp only [hp] at hAi ⊢
    split <;> rename_i hy <;> simp only [hy, if_true, LnState.put, Bool.false_eq_true, if_false] at hAi
    · exact aux_ln_D_put h i ⟨hAi, by simp [hk], by simp, by simp, fun _ => ht⟩ (by simp [aux_ln_open, hp]) rfl
    · exact aux_ln_D_shut h i ⟨hAi, by simp [LnCall.fail, hk], by simp [LnCall.fail], by simp [LnCall.fail], fun _ => ht⟩
        (by simp [aux_ln_open, hk, LnCall.fail]) (by simp [aux_ln_open, hp])
  | make =>
    have hm := nm (by simp [hp]) (by simp [hp]) (by simp [hp]) (by simp [hp])
    have hy := r2 hp
    simp only [hp, hy, if_true, LnState.put] at hAi ⊢
    exact aux_ln_D_put h i ⟨hAi, by simp, by simp, by simp, by simp⟩ (by simp [aux_ln_open, hp]) rfl
  | again => exact absurd hp hi.nag
  | watch =>
    have hm := hi.a.act (.inr hp)
    simp only [hp, LnState.put, if_true] at hAi ⊢
    exact aux_ln_D_put h i ⟨hAi, hi.okm, by simp, fun _ => hm, hi.sil⟩ (by simp [aux_ln_open, hp]) rfl
  | tell =>
    have hm := hi.tel hp
    simp only [hp, LnState.put] at hAi ⊢
    rw [if_pos hm] at hAi ⊢
    simp only [if_true] at hAi
    exact aux_ln_D_put h i ⟨hAi, fun _ => hm, by simp, by simp, by simp [hm]⟩ (by simp [aux_ln_open, hp]) rfl
  | act =>
    have hm := hi.a.act (.inl hp)
    simp only [hp] at hAi ⊢
    split <;> rename_i h0
    · rw [if_pos h0] at hAi
      simp only [if_true, LnState.put] at hAi
      exact aux_ln_D_put (s := { s with bad := true }) ⟨h.b, h.own, h.st⟩ i ⟨hAi, hi.okm, by simp, by simp, hi.sil⟩ (by simp [aux_ln_open, hp]) rfl
    · simp only [h0, if_false] at hAi
      split <;> rename_i h1 <;> simp only [h1, if_true, if_false, LnState.put, Bool.false_eq_true] at hAi
      · exact aux_ln_D_shut h i ⟨hAi, by simp, by simp, by simp, hi.sil⟩ (by simp [aux_ln_open])
          (by simp at h1; simp [aux_ln_open, h1.1])
      · exact aux_ln_D_put h i ⟨hAi, hi.okm, by simp, by simp, hi.sil⟩ (by simp [aux_ln_open, hp]) rfl

theorem aux_ln_D_step {s : LnState} (h : aux_ln_D s) (op : LnOp) (hr : LnSystem s op) : aux_ln_D (s.step op) := by
  cases op with
  | call i port plain full register =>
    simp only [LnState.step]
    split
    · rename_i hp
      have hk : ¬ aux_ln_open (s.calls i) := by
        intro ho
        rcases ho with x | x | x | x | x
        · simp [hp] at x
        · simp [hp] at x
        · simp [hp] at x
        · simp [hp] at x
        · rcases (h.b i).a.mkd ((h.b i).okm x) with y | y | y | y <;> simp [hp] at y
      refine ⟨aux_ln_put h.b i ⟨⟨by simp, by simp, by simp, by simp, by simp, by simp, by simp⟩, by simp, by simp, by simp, by simp⟩, ?_, h.st⟩
      intro n j
      by_cases hj : j = i
      · subst hj
        simp only [LnState.put, if_true]
        constructor
        · intro x; exact absurd ((h.own n j).1 x).2 hk
        · intro ⟨_, x⟩; simp [aux_ln_open] at x
      · simp only [LnState.put, hj, if_false]; exact h.own n j
    · exact h
  | step i e => exact aux_ln_D_next h i e hr
  | drop i =>
    simp only [LnState.step]
    split
    · split
      · exact ⟨h.b, h.own, h.st⟩
      · exact aux_ln_D_put h i (aux_ln_B_same (h.b i) rfl rfl rfl rfl rfl rfl rfl rfl id) Iff.rfl rfl
    · exact h
  | check i =>
    simp only [LnState.step]
    split; · exact h
    split
    · exact ⟨h.b, h.own, h.st⟩
    · exact h
  | shutdown i =>
    simp only [LnState.step]
    split; · exact h
    rename_i hm
    split; · exact ⟨h.b, h.own, h.st⟩
    split
    · rename_i ho
      refine aux_ln_D_shut h i (aux_ln_B_same (h.b i) rfl rfl rfl rfl rfl rfl rfl rfl (by simp)) ?_ (by simp [aux_ln_open, ho])
      rcases (h.b i).a.mkd (by simpa using hm) with x | x | x | x <;> simp [aux_ln_open, x]
    · exact h
  | close i =>
    simp only [LnState.step]
    split; · exact h
    split; · exact ⟨h.b, h.own, h.st⟩
    split; · exact h
    split; · exact ⟨h.b, h.own, h.st⟩
    exact aux_ln_D_put h i (aux_ln_B_same (h.b i) rfl rfl rfl rfl rfl rfl rfl rfl id) Iff.rfl rfl
  | ref i =>
    simp only [LnState.step]
    split; · exact h
    split; · exact ⟨h.b, h.own, h.st⟩
    split
    · exact aux_ln_D_put h i (aux_ln_B_same (h.b i) rfl rfl rfl rfl rfl rfl rfl rfl id) Iff.rfl rfl
    · exact h
  | unref i =>
    simp only [LnState.step]
    split; · exact h
    rename_i hm
    split; · exact ⟨h.b, h.own, h.st⟩
    split
    · rename_i ho
      simp at ho
      refine aux_ln_D_shut h i (aux_ln_B_same (h.b i) rfl rfl rfl rfl rfl rfl rfl rfl (by simp)) ?_ (by simp [aux_ln_open, ho])
      rcases (h.b i).a.mkd (by simpa using hm) with x | x | x | x <;> simp [aux_ln_open, x]
    · exact aux_ln_D_put h i (aux_ln_B_same (h.b i) rfl rfl rfl rfl rfl rfl rfl rfl id) Iff.rfl rfl
  | appOpen n =>
    simp only [LnState.step]
    cases hf : s.fds n with
    | some w => exact h
    | none =>
      refine ⟨h.b, ?_, h.st⟩
      intro m j
      simp only
      by_cases hm : m = n
      · subst hm
        simp only [if_true]
        constructor
        · intro x; simp at x
        · intro x; have := (h.own m j).2 x; rw [hf] at this; simp at this
      · simp only [hm, if_false]; exact h.own m j
  | appClose n =>
    simp only [LnState.step]
    split
    · rename_i hf
      refine ⟨h.b, ?_, h.st⟩
      intro m j
      simp only
      by_cases hm : m = n
      · subst hm
        simp only [if_true]
        constructor
        · intro x; simp at x
        · intro x; have := (h.own m j).2 x; rw [hf] at this; simp at this
      · simp only [hm, if_false]; exact h.own m j
    · exact h

theorem aux_ln_D_run (ops : List LnOp) : ∀ s : LnState, aux_ln_D s → LnObeys LnSystem s ops → aux_ln_D (s.run ops) := by
  induction ops with
  | nil => intro s h _; exact h
  | cons op r ih => intro s h hr; exact ih _ (aux_ln_D_step h op hr.1) hr.2

theorem aux_ln_D_init : aux_ln_D {} :=
  ⟨fun j => ⟨aux_ln_init j, by simp, by simp, by simp, by simp⟩, fun n j => by simp [aux_ln_open], rfl⟩

/-- If the system gives no descriptor up to 2 and connections can be made: no descriptor of somebody else is ever closed, and when a call has ended it
has a descriptor open exactly if its listener works, and then just the one of the listener. -/
theorem C111_descriptors_partial (ops : List LnOp) (hr : LnObeys LnSystem {} ops) :
    let s := ({} : LnState).run ops
    s.stolen = false ∧ ∀ i, (s.calls i).pc = .done → ∀ n, s.fds n = some (.call i) ↔ (s.calls i).ok = true ∧ n = (s.calls i).fd := by
  intro s
  have h := aux_ln_D_run ops _ aux_ln_D_init hr
  refine ⟨h.st, fun i hd n => ?_⟩
  rw [h.own n i]
  have hd' : ((({} : LnState).run ops).calls i).pc = .done := hd
  simp only [aux_ln_open, hd']
  constructor
  · rintro ⟨x, y⟩; exact ⟨by simpa using y, x.symm⟩
  · rintro ⟨x, y⟩; exact ⟨y.symm, by simpa using x⟩

/-- The code violates the property: in such a system no failure is ever told. The handlers of a call that made no listener are never called. -/
theorem C111_silent (ops : List LnOp) (hr : LnObeys LnSystem {} ops) (i : Nat) :
    ((({} : LnState).run ops).calls i).made = false → ((({} : LnState).run ops).calls i).told = [] :=
  ((aux_ln_D_run ops _ aux_ln_D_init hr).b i).sil

/-- What is known of a call when the application is careful. -/
structure aux_ln_M (c : LnCall) : Prop where
  a : aux_ln_A c
  non : c.made = false → c.refs = 0 ∧ c.user = 0 ∧ c.held = false ∧ c.ok = false
  wat : c.pc = .watch → c.refs = 1 ∧ c.user = 0 ∧ c.held = false ∧ c.ok = true
  cnt : c.pc ≠ .watch → c.refs = (if c.held then 1 else 0) + c.user
  run : c.pc = .tell ∨ c.pc = .act → c.made = true → c.ok = true
  pos : c.ok = true → 0 < c.refs

theorem aux_ln_M_step {s : LnState} (h : ∀ j, aux_ln_M (s.calls j)) (hb : s.bad = false) (op : LnOp) (hr : LnCareful s op) :
    (∀ j, aux_ln_M ((s.step op).calls j)) ∧ (s.step op).bad = false := by
  have hA := aux_ln_step (fun j => (h j).a) op
  cases op with
  | call i port plain full register =>
    have hAi := hA i
    simp only [LnState.step] at hAi ⊢
    split
    · rename_i hp
      simp only [hp, if_true, LnState.put] at hAi
      exact ⟨aux_ln_put h i ⟨hAi, by simp, by simp, by simp, by simp, by simp⟩, hb⟩
    · exact ⟨h, hb⟩
  | step i e =>
    have hAi := hA i
    have hi := h i
    have nm : (s.calls i).pc ≠ .watch → (s.calls i).pc ≠ .tell → (s.calls i).pc ≠ .act → (s.calls i).pc ≠ .done → (s.calls i).made = false := by
      intro a b c d
      cases hm : (s.calls i).made with
      | false => rfl
      | true => rcases hi.a.mkd hm with x | x | x | x <;> contradiction
    simp only [LnState.step] at hAi ⊢
    unfold LnState.next at hAi ⊢
    have triv : ∀ c : LnCall, aux_ln_A c → c.pc ≠ .watch → c.made = (s.calls i).made → c.refs = (s.calls i).refs → c.user = (s.calls i).user →
        c.held = (s.calls i).held → c.ok = (s.calls i).ok → (s.calls i).made = false → aux_ln_M c := by
      intro c ca cp c1 c2 c3 c4 c5 hm
      obtain ⟨x1, x2, x3, x4⟩ := hi.non hm
      refine ⟨ca, ?_, fun x => absurd x cp, ?_, ?_, ?_⟩
      · intro _; rw [c2, c3, c4, c5]; exact ⟨x1, x2, x3, x4⟩
      · intro _; rw [c2, c3, c4, x1, x2, x3]; rfl
      · intro _ x; rw [c1, hm] at x; simp at x
      · intro x; rw [c5, x4] at x; simp at x
    cases hp : (s.calls i).pc with
    | idle => exact ⟨h, hb⟩
    | done => exact ⟨h, hb⟩
    | resolve =>
      have hm := nm (by simp [hp]) (by simp [hp]) (by simp [hp]) (by simp [hp])
      simp only [hp] at hAi ⊢
      split <;> rename_i hy <;> simp only [hy, if_true, LnState.put, Bool.false_eq_true, if_false] at hAi
      · exact ⟨aux_ln_put h i (triv _ hAi (by simp) rfl rfl rfl rfl rfl hm), hb⟩
      · exact ⟨aux_ln_put h i (triv _ hAi (by simp [LnCall.fail]) rfl rfl rfl rfl rfl hm), hb⟩
    | socket =>
      have hm := nm (by simp [hp]) (by simp [hp]) (by simp [hp]) (by simp [hp])
      simp only [hp] at hAi ⊢
      cases hf : e.fd with
      | none =>
        simp only [hf, LnState.put, if_true] at hAi
        exact ⟨aux_ln_put h i (triv _ hAi (by simp [LnCall.fail]) rfl rfl rfl rfl rfl hm), hb⟩
      | some n =>
        simp only [hf] at hAi ⊢
        cases hfd : s.fds n with
        | some w => exact ⟨h, hb⟩
        | none =>
          simp only [hfd] at hAi ⊢
          split <;> rename_i hy <;> simp only [hy, if_true, LnState.put, if_false] at hAi
          · exact ⟨aux_ln_put (s := { s with fds := _ }) h i (triv _ hAi (by simp [LnCall.fail]) rfl rfl rfl rfl rfl hm), hb⟩
          · exact ⟨aux_ln_put (s := { s with fds := _ }) h i (triv _ hAi (by simp) rfl rfl rfl rfl rfl hm), hb⟩
    | bind =>
      have hm := nm (by simp [hp]) (by simp [hp]) (by simp [hp]) (by simp [hp])
      simp only [hp] at hAi ⊢
      split <;> rename_i hy <;> simp only [hy, if_true, LnState.put, Bool.false_eq_true, if_false] at hAi
      · exact ⟨aux_ln_put h i (triv _ hAi (by simp) rfl rfl rfl rfl rfl hm), hb⟩
      · exact ⟨aux_ln_put (s := s.shut _ i) h i (triv _ hAi (by simp [LnCall.fail]) rfl rfl rfl rfl rfl hm), hb⟩
    | listen =>
      have hm := nm (by simp [hp]) (by simp [hp]) (by simp [hp]) (by simp [hp])
      simp only [hp] at hAi ⊢
      split <;> rename_i hy <;> simp only [hy, if_true, LnState.put, Bool.false_eq_true, if_false] at hAi
      · exact ⟨aux_ln_put h i (triv _ hAi (by simp) rfl rfl rfl rfl rfl hm), hb⟩
      · exact ⟨aux_ln_put (s := s.shut _ i) h i (triv _ hAi (by simp [LnCall.fail]) rfl rfl rfl rfl rfl hm), hb⟩
    | name =>
      have hm := nm (by simp [hp]) (by simp [hp]) (by simp [hp]) (by simp [hp])
      simp only [hp] at hAi ⊢
      split <;> rename_i hy <;> simp only [hy, if_true, LnState.put, Bool.false_eq_true, if_false] at hAi
      · exact ⟨aux_ln_put h i (triv _ hAi (by simp) rfl rfl rfl rfl rfl hm), hb⟩
      · exact ⟨aux_ln_put (s := s.shut _ i) h i (triv _ hAi (by simp [LnCall.fail]) rfl rfl rfl rfl rfl hm), hb⟩
    | make =>
      have hm := nm (by simp [hp]) (by simp [hp]) (by simp [hp]) (by simp [hp])
      obtain ⟨x1, x2, x3, x4⟩ := hi.non hm
      simp only [hp] at hAi ⊢
      split <;> rename_i hy <;> simp only [hy, if_true, LnState.put, Bool.false_eq_true, if_false] at hAi
      · exact ⟨aux_ln_put h i ⟨hAi, by simp, fun _ => ⟨rfl, x2, x3, rfl⟩, by simp, by simp, by simp⟩, hb⟩
      · exact ⟨aux_ln_put (s := s.shut _ i) h i (triv _ hAi (by simp) rfl rfl rfl rfl rfl hm), hb⟩
    | again =>
      have hm := nm (by simp [hp]) (by simp [hp]) (by simp [hp]) (by simp [hp])
      simp only [hp, LnState.put, if_true] at hAi ⊢
      exact ⟨aux_ln_put (s := s.shut _ i) h i (triv _ hAi (by simp) rfl rfl rfl rfl rfl hm), hb⟩
    | watch =>
      have hm := hi.a.act (.inr hp)
      obtain ⟨x1, x2, x3, x4⟩ := hi.wat hp
      simp only [hp, LnState.put, if_true] at hAi ⊢
      refine ⟨aux_ln_put h i ⟨hAi, by simp [hm], by simp, ?_, fun _ _ => x4, hi.pos⟩, hb⟩
      intro _
      show (s.calls i).refs = _
      rw [x1]
      cases (s.calls i).register <;> simp
    | tell =>
      simp only [hp] at hAi ⊢
      split <;> rename_i hy
      · rw [if_pos hy] at hAi
        simp only [LnState.put, if_true] at hAi
        exact ⟨aux_ln_put h i ⟨hAi, by simp [hy], by simp, fun _ => hi.cnt (by simp [hp]), fun _ _ => hi.run (.inl hp) hy, hi.pos⟩, hb⟩
      · rw [if_neg hy] at hAi
        simp only [LnState.put, if_true] at hAi
        exact ⟨aux_ln_put h i (triv _ hAi (by simp [LnCall.fail]) rfl rfl rfl rfl rfl (by simpa using hy)), hb⟩
    | act =>
      have hm := hi.a.act (.inl hp)
      have hk := hi.run (.inr hp) hm
      have h0 : (s.calls i).refs ≠ 0 := by have := hi.pos hk; omega
      simp only [hp] at hAi ⊢
      rw [if_neg h0] at hAi ⊢
      split <;> rename_i hy
      · rw [if_pos hy] at hAi
        simp only [LnState.put, if_true] at hAi
        exact ⟨aux_ln_put (s := s.shut _ i) h i ⟨hAi, by simp [hm], by simp, fun _ => hi.cnt (by simp [hp]), by simp, by simp⟩, hb⟩
      · rw [if_neg hy] at hAi
        simp only [LnState.put, if_true] at hAi
        exact ⟨aux_ln_put h i ⟨hAi, by simp [hm], by simp, fun _ => hi.cnt (by simp [hp]), by simp, hi.pos⟩, hb⟩
  | drop i =>
    have hi := h i
    simp only [LnState.step]
    split
    · rename_i hc
      simp at hc
      have hw : (s.calls i).pc ≠ .watch := by intro x; have := (hi.wat x).2.2.2; simp [hc.2] at this
      have hk := hi.cnt hw
      rw [hc.1] at hk
      simp at hk
      split
      · omega
      · refine ⟨aux_ln_put h i ⟨aux_ln_same hi.a rfl rfl rfl rfl rfl rfl rfl rfl, ?_, fun x => absurd x hw, ?_, hi.run, ?_⟩, hb⟩
        · intro hm; have := (hi.non hm).2.2.1; rw [hc.1] at this; simp at this
        · intro _; simp; omega
        · intro x; simp [hc.2] at x
    · exact ⟨h, hb⟩
  | check i =>
    have hi := h i
    simp only [LnState.step]
    split; · exact ⟨h, hb⟩
    split
    · rename_i h0
      rcases hr.2 with x | x
      · have := hi.pos x; omega
      · have := hi.cnt (by rw [hr.1]; simp); omega
    · exact ⟨h, hb⟩
  | shutdown i =>
    have hi := h i
    have hd : (s.calls i).pc = .done := hr.1
    simp only [LnState.step]
    split; · exact ⟨h, hb⟩
    rename_i hm
    split
    · rename_i h0
      rcases hr.2 with x | x
      · have := hi.pos x; omega
      · have := hi.cnt (by rw [hd]; simp); omega
    · split
      · exact ⟨aux_ln_put (s := s.shut _ i) h i ⟨aux_ln_same hi.a rfl rfl rfl rfl rfl rfl rfl rfl, fun x => by simp at hm x; simp [hm] at x,
          fun x => by simp [hd] at x, fun _ => hi.cnt (by simp [hd]), fun x => by simp [hd] at x, by simp⟩, hb⟩
      · exact ⟨h, hb⟩
  | close i =>
    have hi := h i
    have hd : (s.calls i).pc = .done := hr.1
    obtain ⟨_, ho, hu⟩ := hr
    have hk := hi.cnt (by simp [hd])
    simp only [LnState.step]
    split; · exact ⟨h, hb⟩
    rename_i hm
    split; · omega
    split; · exact ⟨h, hb⟩
    split
    · rename_i x; simp [ho] at x
    · refine ⟨aux_ln_put h i ⟨aux_ln_same hi.a rfl rfl rfl rfl rfl rfl rfl rfl, fun x => by simp at hm x; simp [hm] at x,
          fun x => by simp [hd] at x, ?_, fun x => by simp [hd] at x, fun x => by simp [ho] at x⟩, hb⟩
      intro _; simp; omega
  | ref i =>
    have hi := h i
    have hd : (s.calls i).pc = .done := hr.1
    have hk := hi.cnt (by simp [hd])
    have hp := hi.pos hr.2
    simp only [LnState.step]
    split; · exact ⟨h, hb⟩
    rename_i hm
    split; · omega
    split
    · refine ⟨aux_ln_put h i ⟨aux_ln_same hi.a rfl rfl rfl rfl rfl rfl rfl rfl, fun x => by simp at hm x; simp [hm] at x,
          fun x => by simp [hd] at x, ?_, fun x => by simp [hd] at x, fun _ => by simp⟩, hb⟩
      intro _; simp; omega
    · exact ⟨h, hb⟩
  | unref i =>
    have hi := h i
    have hd : (s.calls i).pc = .done := hr.1
    have hu : 0 < (s.calls i).user := hr.2
    have hk := hi.cnt (by simp [hd])
    simp only [LnState.step]
    split; · exact ⟨h, hb⟩
    rename_i hm
    split; · omega
    split
    · rename_i h1
      simp at h1
      refine ⟨aux_ln_put (s := s.shut _ i) h i ⟨aux_ln_same hi.a rfl rfl rfl rfl rfl rfl rfl rfl, fun x => by simp at hm x; simp [hm] at x,
          fun x => by simp [hd] at x, ?_, fun x => by simp [hd] at x, by simp⟩, hb⟩
      intro _; simp; omega
    · rename_i h1
      simp at h1
      refine ⟨aux_ln_put h i ⟨aux_ln_same hi.a rfl rfl rfl rfl rfl rfl rfl rfl, fun x => by simp at hm x; simp [hm] at x,
          fun x => by simp [hd] at x, ?_, fun x => by simp [hd] at x, ?_⟩, hb⟩
      · intro _; simp; omega
      · intro x
        show 0 < (s.calls i).refs - 1
        have hx : (s.calls i).ok = true := x
        by_cases h2 : (s.calls i).refs = 1
        · have := h1 h2; rw [hx] at this; simp at this
        · omega
  | appOpen n => simp only [LnState.step]; split <;> exact ⟨h, hb⟩
  | appClose n => simp only [LnState.step]; split <;> exact ⟨h, hb⟩

theorem aux_ln_M_run (ops : List LnOp) : ∀ s : LnState, (∀ j, aux_ln_M (s.calls j)) → s.bad = false → LnObeys LnCareful s ops →
    (∀ j, aux_ln_M ((s.run ops).calls j)) ∧ (s.run ops).bad = false := by
  induction ops with
  | nil => intro s h hb _; exact ⟨h, hb⟩
  | cons op r ih => intro s h hb hr; have := aux_ln_M_step h hb op hr.1; exact ih _ this.1 this.2 hr.2

theorem aux_ln_M_init (j : Nat) : aux_ln_M (({} : LnState).calls j) := ⟨aux_ln_init j, by simp, by simp, by simp, by simp, by simp⟩

/-- With a careful application, whatever the system and the connection actions answer: no listener is used after its release; a listener that works
has not been released; and one that does not work is released when the reader has dropped it and the application has given back its references. -/
theorem C111_memory_partial (ops : List LnOp) (hr : LnObeys LnCareful {} ops) :
    let s := ({} : LnState).run ops
    s.bad = false ∧ ∀ i, ((s.calls i).ok = true → 0 < (s.calls i).refs) ∧
      ((s.calls i).pc = .done → ((s.calls i).refs = 0 ↔ (s.calls i).held = false ∧ (s.calls i).user = 0)) := by
  intro s
  have h := aux_ln_M_run ops {} aux_ln_M_init rfl hr
  refine ⟨h.2, fun i => ⟨(h.1 i).pos, fun hd => ?_⟩⟩
  have hd' : ((({} : LnState).run ops).calls i).pc = .done := hd
  have hk := (h.1 i).cnt (by rw [hd']; simp)
  show ((({} : LnState).run ops).calls i).refs = 0 ↔ ((({} : LnState).run ops).calls i).held = false ∧ ((({} : LnState).run ops).calls i).user = 0
  rw [hk]
  cases ((({} : LnState).run ops).calls i).held <;> simp

/-- A call that goes through all its steps, the system giving descriptor 5 and address 7, port 9. -/
def aux_ln_go (i : Nat) (last : Bool) : List LnOp :=
  [.step i {}, .step i { fd := some 5 }, .step i { host := 7, port := 9 }, .step i {}, .step i {}, .step i {}, .step i {}, .step i { host := 1, port := 2 },
   .step i { yes := last }]

/-- The property is met in full by this history: a listener is started for port 3000, referenced, shut down, dropped by the reader and released; a
second call fails as the port is in use. (The rules of the three partial theorems hold.) -/
def aux_ln_good : List LnOp :=
  [.call 0 3000 false false true] ++ aux_ln_go 0 true ++
  [.ref 0, .call 1 3000 false false true, .step 1 {}, .step 1 { fd := some 6 }, .step 1 { yes := false }, .shutdown 0, .drop 0, .check 0, .close 0]

instance aux_ln_decS (s : LnState) (op : LnOp) : Decidable (LnSystem s op) := by
  cases op <;> simp only [LnSystem] <;> infer_instance

instance aux_ln_decC (s : LnState) (op : LnOp) : Decidable (LnCareful s op) := by
  cases op <;> simp only [LnCareful] <;> infer_instance

instance aux_ln_decD (s : LnState) (op : LnOp) : Decidable (LnDocumented s op) := by
  cases op <;> simp only [LnDocumented, LnKnown] <;> infer_instance

instance aux_ln_decO (rule : LnState → LnOp → Prop) [∀ s op, Decidable (rule s op)] : ∀ (ops : List LnOp) (s : LnState), Decidable (LnObeys rule s ops)
  | [], _ => isTrue trivial
  | op :: r, s => @instDecidableAnd _ _ _ (aux_ln_decO rule r (s.step op))

example : LnObeys LnSystem {} aux_ln_good ∧ LnObeys LnCareful {} aux_ln_good ∧
    ((({} : LnState).run aux_ln_good).calls 0).made = true ∧ ((({} : LnState).run aux_ln_good).calls 0).bound = 3000 ∧
    ((({} : LnState).run aux_ln_good).calls 0).refs = 0 ∧ ((({} : LnState).run aux_ln_good).calls 1).value = some false := by decide +kernel

/-- For every call, environment and documented use of the listeners, what is told and what is left is as documented. -/
def C111_statement : Prop := ∀ ops : List LnOp, LnObeys LnDocumented {} ops → LnSound (({} : LnState).run ops)

/-- The code violates the property: the host and port told are not those of the socket (here 1 and 2 instead of 7 and 3000; nothing is ever stored in
the variable they are taken from). -/
theorem C111_wrong_address : ∃ ops, LnObeys LnDocumented {} ops ∧ LnObeys LnSystem {} ops ∧ LnObeys LnCareful {} ops ∧
    ((({} : LnState).run ops).calls 0).host = 7 ∧ ((({} : LnState).run ops).calls 0).bound = 3000 ∧
    ((({} : LnState).run ops).calls 0).told = [⟨true, true, 1, 2, true⟩] :=
  ⟨[.call 0 3000 false true true] ++ aux_ln_go 0 true, by decide +kernel⟩

/-- The code violates the property: a listener refused by a connection action is told to be ready. -/
theorem C111_refused_told : ∃ ops, LnObeys LnSystem {} ops ∧ LnObeys LnCareful {} ops ∧ ((({} : LnState).run ops).calls 0).refused = true ∧
    ((({} : LnState).run ops).calls 0).pc = .done ∧ ((({} : LnState).run ops).calls 0).told = [⟨false, true, 1, 2, false⟩] :=
  ⟨[.call 0 3000 true false true] ++ aux_ln_go 0 false, by decide +kernel⟩

/-- The code violates the property: if the connection object cannot be made the socket is closed twice. Here the application gets the same number in
between, and loses its descriptor; and its handler is told that the server is ready. -/
theorem C111_closed_twice : ∃ ops, LnObeys LnDocumented {} ops ∧ (({} : LnState).run ops).stolen = true ∧ (({} : LnState).run ops).fds 5 = none ∧
    ((({} : LnState).run ops).calls 0).pc = .done ∧ ((({} : LnState).run ops).calls 0).made = false ∧
    ((({} : LnState).run ops).calls 0).told = [⟨true, true, 1, 2, false⟩] :=
  ⟨[.call 0 3000 false true true, .step 0 {}, .step 0 { fd := some 5 }, .step 0 {}, .step 0 {}, .step 0 {}, .step 0 { yes := false }, .appOpen 5,
    .step 0 {}, .step 0 { host := 1, port := 2 }], by decide +kernel⟩

/-- The code violates the property: a socket with a number up to 2 is refused but stays open. -/
theorem C111_left_open : ∃ ops, LnObeys LnDocumented {} ops ∧ ((({} : LnState).run ops).calls 0).value = some false ∧
    (({} : LnState).run ops).fds 0 = some (.call 0) :=
  ⟨[.call 0 3000 false false true, .step 0 {}, .step 0 { fd := some 0 }], by decide +kernel⟩

/-- The code violates the property: port 68536 gives a listener at port 3000. -/
theorem C111_other_port : ∃ ops, LnObeys LnDocumented {} ops ∧ ((({} : LnState).run ops).calls 0).port = 68536 ∧
    ((({} : LnState).run ops).calls 0).ok = true ∧ ((({} : LnState).run ops).calls 0).bound = 3000 :=
  ⟨[.call 0 68536 false false true] ++ aux_ln_go 0 true, by decide +kernel⟩

/-- The code violates the property: a listener that was refused must be closed by the caller, but the reader gives back the only reference as well. -/
theorem C111_released_twice : ∃ ops, LnObeys LnDocumented {} ops ∧ LnObeys LnSystem {} ops ∧ (({} : LnState).run ops).bad = true :=
  ⟨[.call 0 3000 false false true] ++ aux_ln_go 0 false ++ [.drop 0, .close 0], by decide +kernel⟩

/-- The code violates the property: a listener shut down by its ready handler is used after the reader released it. -/
theorem C111_shut_by_handler : ∃ ops, LnObeys LnDocumented {} ops ∧ LnObeys LnSystem {} ops ∧ (({} : LnState).run ops).bad = true :=
  ⟨[.call 0 3000 false true true] ++ (aux_ln_go 0 true).take 8 ++ [.shutdown 0, .drop 0, .step 0 {}], by decide +kernel⟩

/-- The code violates the property: an owner of a reference who closes a working listener makes it read a null pointer. -/
theorem C111_close_working : ∃ ops, LnObeys LnDocumented {} ops ∧ LnObeys LnSystem {} ops ∧ (({} : LnState).run ops).bad = true :=
  ⟨[.call 0 3000 false false true] ++ aux_ln_go 0 true ++ [.ref 0, .close 0], by decide +kernel⟩

theorem C111_statement_false : ¬ C111_statement := by
  intro h
  obtain ⟨ops, h1, _, h3⟩ := C111_close_working
  have := (h ops h1).1
  rw [h3] at this
  exact absurd this (by simp)

end Verif.Props
