import Verif.Spec.External
/-!
# C105 — connections over an external transport
-/
namespace Verif.Props
open Verif.Model Verif.Spec

theorem aux_ex_snoc {α : Type} (P : List α → Prop) (h0 : P []) (hs : ∀ a op, P a → P (a ++ [op])) (l : List α) : P l := by
  have : ∀ n (l : List α), l.length = n → P l := by
    intro n
    induction n with
    | zero => intro l h; rw [List.length_eq_zero_iff.mp h]; exact h0
    | succ n ih =>
      intro l h
      rcases List.eq_nil_or_concat l with h' | ⟨a, op, h'⟩
      · rw [h'] at h; cases h
      · subst h'
        simp only [List.concat_eq_append] at h ⊢
        exact hs a op (ih a (by simpa using h))
  exact this _ l rfl

theorem aux_ex_append : ∀ (a b : List ExOp) (x : ExState), x.run (a ++ b) = (((x.run a).1.run b).1, (x.run a).2 ++ ((x.run a).1.run b).2)
  | [], b, x => by simp [ExState.run]
  | o :: a, b, x => by
    simp only [List.cons_append, ExState.run]
    rw [aux_ex_append a b]

theorem aux_ex_run_snoc (x : ExState) (a : List ExOp) (op : ExOp) :
    (x.run (a ++ [op])).1 = ((x.run a).1.step op).1 ∧ (x.run (a ++ [op])).2 = (x.run a).2 ++ [(op, ((x.run a).1.step op).2)] := by
  rw [aux_ex_append]; exact ⟨rfl, rfl⟩

/-! ## Mutual exclusion -/

/-- The setup object used by the calls of a connection. -/
def aux_ex_U (cs : List ExConn) (c : Nat) : Option Nat := (cs[c]?).bind ExConn.used

structure aux_ex_L (ps : List ExSetup) (cs : List ExConn) (calls : List ExCall) : Prop where
  nodup : calls.Pairwise (fun a b => a.thread ≠ b.thread)
  conn : ∀ r ∈ calls, ∃ q, cs[r.conn]? = some q ∧ q.live = true
  idx : ∀ (c : Nat) q s, cs[c]? = some q → q.setup = some s → s < ps.length
  owner : ∀ (s : Nat) p t, ps[s]? = some p → p.owner = some t → p.flag = true ∧ ∃ r ∈ calls, r.thread = t ∧ aux_ex_U cs r.conn = some s
  held : ∀ r ∈ calls, ∀ (s : Nat) p, aux_ex_U cs r.conn = some s → ps[s]? = some p → p.flag = true → p.owner = some r.thread

theorem aux_ex_U_idx {ps cs calls} (h : aux_ex_L ps cs calls) {c s : Nat} (hu : aux_ex_U cs c = some s) : s < ps.length := by
  simp only [aux_ex_U] at hu
  cases hq : cs[c]? with
  | none => simp [hq] at hu
  | some q =>
    simp only [hq, Option.bind_some, ExConn.used] at hu
    split at hu
    · exact h.idx c q s hq hu
    · cases hu

/-- A setup object is changed, but not its lock. -/
theorem aux_ex_L_setup {ps cs calls} (h : aux_ex_L ps cs calls) {s : Nat} {p p' : ExSetup} (hp : ps[s]? = some p)
    (hf : p'.flag = p.flag) (ho : p'.owner = p.owner) : aux_ex_L (ps.set s p') cs calls := by
  have key : ∀ (i : Nat) w, (ps.set s p')[i]? = some w → ∃ v, ps[i]? = some v ∧ w.flag = v.flag ∧ w.owner = v.owner := by
    intro i w hw
    rw [List.getElem?_set] at hw
    by_cases hi : s = i
    · subst hi
      have hl : s < ps.length := (List.getElem?_eq_some_iff.mp hp).1
      simp only [if_true, hl] at hw
      exact ⟨p, hp, by rw [← Option.some.inj hw, hf], by rw [← Option.some.inj hw, ho]⟩
    · simp only [hi, if_false] at hw
      exact ⟨w, hw, rfl, rfl⟩
  refine ⟨h.nodup, h.conn, fun c q i hq hi => by simpa using h.idx c q i hq hi, ?_, ?_⟩
  · intro i w t hw ht
    obtain ⟨v, hv, h1, h2⟩ := key i w hw
    rw [h2] at ht
    have := h.owner i v t hv ht
    exact ⟨by rw [h1]; exact this.1, this.2⟩
  · intro r hr i w hu hw hfl
    obtain ⟨v, hv, h1, h2⟩ := key i w hw
    rw [h2]; rw [h1] at hfl
    exact h.held r hr i v hu hv hfl

/-- Connections are changed, but neither which exist nor their setup objects. -/
theorem aux_ex_L_conns {ps cs cs' calls} (h : aux_ex_L ps cs calls)
    (hk : ∀ (c : Nat) q, cs'[c]? = some q → (∃ q0, cs[c]? = some q0 ∧ q.setup = q0.setup) ∨ ∀ s, q.setup = some s → s < ps.length)
    (hc : ∀ r ∈ calls, aux_ex_U cs' r.conn = aux_ex_U cs r.conn ∧ ∃ q, cs'[r.conn]? = some q ∧ q.live = true) : aux_ex_L ps cs' calls := by
  refine ⟨h.nodup, fun r hr => (hc r hr).2, ?_, ?_, ?_⟩
  · intro c q s hq hs
    rcases hk c q hq with ⟨q0, h0, h1⟩ | h'
    · exact h.idx c q0 s h0 (by rw [← h1]; exact hs)
    · exact h' s hs
  · intro s p t hp ht
    obtain ⟨h1, r, hr, h2, h3⟩ := h.owner s p t hp ht
    exact ⟨h1, r, hr, h2, by rw [(hc r hr).1]; exact h3⟩
  · intro r hr s p hu
    rw [(hc r hr).1] at hu
    exact h.held r hr s p hu

theorem aux_ex_L_append {ps cs calls} (h : aux_ex_L ps cs calls) (q : ExConn) (hq : ∀ s, q.setup = some s → s < ps.length) :
    aux_ex_L ps (cs ++ [q]) calls := by
  refine aux_ex_L_conns h ?_ ?_
  · intro c w hw
    by_cases hc : c < cs.length
    · rw [List.getElem?_append_left hc] at hw; exact .inl ⟨w, hw, rfl⟩
    · rw [List.getElem?_append_right (by omega)] at hw
      right
      by_cases h0 : c - cs.length = 0
      · rw [h0] at hw; simp at hw; subst hw; exact hq
      · rw [List.getElem?_eq_none (by simp; omega)] at hw; cases hw
  · intro r hr
    obtain ⟨w, hw, hl⟩ := h.conn r hr
    have hc : r.conn < cs.length := (List.getElem?_eq_some_iff.mp hw).1
    exact ⟨by simp only [aux_ex_U, List.getElem?_append_left hc], w, by rw [List.getElem?_append_left hc]; exact hw, hl⟩

theorem aux_ex_L_set {ps cs calls} (h : aux_ex_L ps cs calls) {c : Nat} {q q' : ExConn} (hq : cs[c]? = some q) (hs : q'.setup = q.setup)
    (hk : q'.kind = q.kind) (hl : q'.live = q.live ∨ ∀ r ∈ calls, r.conn ≠ c) : aux_ex_L ps (cs.set c q') calls := by
  have hlt : c < cs.length := (List.getElem?_eq_some_iff.mp hq).1
  refine aux_ex_L_conns h ?_ ?_
  · intro d w hw
    rw [List.getElem?_set] at hw
    by_cases hd : c = d
    · subst hd; simp only [if_true, hlt] at hw; exact .inl ⟨q, hq, by rw [← Option.some.inj hw, hs]⟩
    · simp only [hd, if_false] at hw; exact .inl ⟨w, hw, rfl⟩
  · intro r hr
    obtain ⟨w, hw, hlv⟩ := h.conn r hr
    by_cases hd : c = r.conn
    · rw [← hd] at hw ⊢
      rw [hq] at hw
      refine ⟨?_, q', List.getElem?_set_self hlt, ?_⟩
      · simp only [aux_ex_U, List.getElem?_set_self hlt, hq, Option.bind_some, ExConn.used, hs, hk]
      rcases hl with hl | hl
      · rw [hl, Option.some.inj hw]; exact hlv
      · exact absurd hd.symm (hl r hr)
    · exact ⟨by simp only [aux_ex_U, List.getElem?_set_ne hd], w, by rw [List.getElem?_set_ne hd]; exact hw, hlv⟩

theorem aux_ex_close (x : ExState) (k n : Nat) :
    (x.close k n).1.setups = x.setups ∧ (x.close k n).1.conns = x.conns ∧ (x.close k n).1.calls = x.calls := by
  simp only [ExState.close]
  cases x.fds n <;> exact ⟨rfl, rfl, rfl⟩

theorem aux_ex_freeFds (x : ExState) (c : Nat) (q : ExConn) :
    (x.freeFds c q).1.setups = x.setups ∧ (x.freeFds c q).1.conns = x.conns.set c { q with live := false, fd := none } ∧
    (x.freeFds c q).1.calls = x.calls := by
  simp only [ExState.freeFds]
  by_cases hk : q.kind = .listener
  · rw [if_pos hk]
    cases q.fd with
    | none => exact aux_ex_close _ _ _
    | some n =>
      simp only
      obtain ⟨h1, h2, h3⟩ := aux_ex_close { x with conns := x.conns.set c { q with live := false, fd := none } } c q.data
      obtain ⟨g1, g2, g3⟩ := aux_ex_close (ExState.close { x with conns := x.conns.set c { q with live := false, fd := none } } c q.data).1 c n
      exact ⟨g1.trans h1, g2.trans h2, g3.trans h3⟩
  · rw [if_neg hk]
    cases q.fd with
    | none => exact ⟨rfl, rfl, rfl⟩
    | some n => exact aux_ex_close _ _ _

theorem aux_ex_uniq : ∀ {l : List ExCall}, l.Pairwise (fun a b => a.thread ≠ b.thread) → ∀ {a b}, a ∈ l → b ∈ l → a.thread = b.thread → a = b
  | [], _, _, _, h, _, _ => by cases h
  | x :: l, hp, a, b, ha, hb, he => by
    obtain ⟨h1, h2⟩ := List.pairwise_cons.mp hp
    rcases List.mem_cons.mp ha with ha' | ha'
    · rcases List.mem_cons.mp hb with hb' | hb'
      · rw [ha', hb']
      · exact absurd (ha' ▸ he) (h1 b hb')
    · rcases List.mem_cons.mp hb with hb' | hb'
      · exact absurd (hb' ▸ he.symm) (h1 a ha')
      · exact aux_ex_uniq h2 ha' hb' he

/-- All steps keep the lock as it should be, if the option is not changed during calls. -/
theorem aux_ex_L_step (x : ExState) (op : ExOp) (h : aux_ex_L x.setups x.conns x.calls)
    (hst : ∀ s v, op = .flag s v → ∀ r ∈ x.calls, aux_ex_U x.conns r.conn ≠ some s) :
    aux_ex_L (x.step op).1.setups (x.step op).1.conns (x.step op).1.calls := by
  cases op with
  | newSetup =>
    simp only [ExState.step]
    have hlt : ∀ (s : Nat), s < x.setups.length → (x.setups ++ [(⟨true, 1, false, none, none⟩ : ExSetup)])[s]? = x.setups[s]? :=
      fun s hs => List.getElem?_append_left hs
    refine ⟨h.nodup, h.conn, fun c q s hq hs => by simp; have := h.idx c q s hq hs; omega, ?_, ?_⟩
    · intro s p t hp ht
      by_cases hs : s < x.setups.length
      · rw [hlt s hs] at hp; exact h.owner s p t hp ht
      · rw [List.getElem?_append_right (by omega)] at hp
        by_cases h0 : s - x.setups.length = 0
        · rw [h0] at hp; simp at hp; subst hp; cases ht
        · rw [List.getElem?_eq_none (by simp; omega)] at hp; cases hp
    · intro r hr s p hu hp hf
      rw [hlt s (aux_ex_U_idx h hu)] at hp
      exact h.held r hr s p hu hp hf
  | ref s =>
    simp only [ExState.step]
    cases hp : x.setups[s]? with
    | none => exact h
    | some p =>
      simp only
      split
      · exact h
      · split
        · exact h
        · exact aux_ex_L_setup h hp rfl rfl
  | unref s =>
    simp only [ExState.step]
    cases hp : x.setups[s]? with
    | none => exact h
    | some p =>
      simp only
      split
      · exact h
      · split
        · exact h
        · exact aux_ex_L_setup h hp (by simp only [ExSetup.unref]; split <;> rfl) (by simp only [ExSetup.unref]; split <;> rfl)
  | flag s v =>
    simp only [ExState.step]
    cases hp : x.setups[s]? with
    | none => exact h
    | some p =>
      simp only
      split
      · exact h
      · have hno := hst s v rfl
        have hl : s < x.setups.length := (List.getElem?_eq_some_iff.mp hp).1
        refine ⟨h.nodup, h.conn, fun c q i hq hi => by simpa using h.idx c q i hq hi, ?_, ?_⟩
        · intro i w t hw ht
          rw [List.getElem?_set] at hw
          by_cases hi : s = i
          · subst hi
            simp only [if_true, hl] at hw
            rw [← Option.some.inj hw] at ht
            obtain ⟨_, r, hr, _, hu⟩ := h.owner s p t hp ht
            exact absurd hu (hno r hr)
          · simp only [hi, if_false] at hw; exact h.owner i w t hw ht
        · intro r hr i w hu hw hf
          rw [List.getElem?_set] at hw
          by_cases hi : s = i
          · subst hi; exact absurd hu (hno r hr)
          · simp only [hi, if_false] at hw; exact h.held r hr i w hu hw hf
  | host s v =>
    simp only [ExState.step]
    cases hp : x.setups[s]? with
    | none => exact h
    | some p =>
      simp only
      split
      · exact h
      · exact aux_ex_L_setup h hp rfl rfl
  | connect fd setup handler =>
    simp only [ExState.step]
    split
    · exact h
    · split
      · exact h
      · rename_i hn
        refine aux_ex_L_append h _ ?_
        intro s hs
        simp only at hs
        subst hs
        simp at hn; exact hn.2
  | listen fd setup =>
    simp only [ExState.step]
    split
    · exact h
    · split
      · exact h
      · rename_i hn
        refine aux_ex_L_append h _ ?_
        intro s hs
        simp only at hs
        subst hs
        simp at hn; exact hn.2
  | accept l fd =>
    simp only [ExState.step]
    cases x.conns[l]? with
    | none => exact h
    | some q =>
      simp only
      split
      · exact h
      · exact aux_ex_L_append h _ (fun s hs => by cases hs)
  | enter t c =>
    simp only [ExState.step]
    cases hq : x.conns[c]? with
    | none => exact h
    | some q =>
      simp only
      split
      · exact h
      · rename_i hn
        have hnt : ∀ r ∈ x.calls, r.thread ≠ t := by
          intro r hr ht; exact hn (.inr (.inr (by simp only [List.any_eq_true]; exact ⟨r, hr, by simp [ht]⟩)))
        have hlive : q.live = true := by
          cases hql : q.live with
          | true => rfl
          | false => exact absurd (.inr (.inl hql)) hn
        have nodup' : (⟨t, c⟩ :: x.calls).Pairwise (fun a b : ExCall => a.thread ≠ b.thread) :=
          List.pairwise_cons.mpr ⟨fun r hr he => hnt r hr he.symm, h.nodup⟩
        have conn' : ∀ r ∈ (⟨t, c⟩ :: x.calls : List ExCall), ∃ q, x.conns[r.conn]? = some q ∧ q.live = true := by
          intro r hr
          rcases List.mem_cons.mp hr with hr | hr
          · subst hr; exact ⟨q, hq, hlive⟩
          · exact h.conn r hr
        have hU : aux_ex_U x.conns c = q.used := by simp [aux_ex_U, hq]
        cases hu : q.used with
        | none =>
          refine ⟨nodup', conn', h.idx, ?_, ?_⟩
          · intro i w t' hw ht
            obtain ⟨h1, r, hr, h2, h3⟩ := h.owner i w t' hw ht
            exact ⟨h1, r, List.mem_cons_of_mem _ hr, h2, h3⟩
          · intro r hr i w hru hw hf
            rcases List.mem_cons.mp hr with hr | hr
            · subst hr; rw [hU, hu] at hru; cases hru
            · exact h.held r hr i w hru hw hf
        | some s =>
          simp only
          cases hp : x.setups[s]? with
          | none => exact h
          | some p =>
            simp only
            split
            · exact h
            · split
              · rename_i hfl
                split
                · exact h
                · rename_i hown
                  have hown : p.owner = none := Classical.not_not.mp hown
                  have hl : s < x.setups.length := (List.getElem?_eq_some_iff.mp hp).1
                  refine ⟨nodup', conn', fun c q i hq hi => by simpa using h.idx c q i hq hi, ?_, ?_⟩
                  · intro i w t' hw ht
                    rw [List.getElem?_set] at hw
                    by_cases hi : s = i
                    · subst hi
                      simp only [if_true, hl] at hw
                      rw [← Option.some.inj hw] at ht ⊢
                      exact ⟨hfl, ⟨t, c⟩, List.mem_cons_self, Option.some.inj ht, by rw [hU, hu]⟩
                    · simp only [hi, if_false] at hw
                      obtain ⟨h1, r, hr, h2, h3⟩ := h.owner i w t' hw ht
                      exact ⟨h1, r, List.mem_cons_of_mem _ hr, h2, h3⟩
                  · intro r hr i w hru hw hf
                    rw [List.getElem?_set] at hw
                    rcases List.mem_cons.mp hr with hr | hr
                    · subst hr
                      rw [hU, hu] at hru
                      have := Option.some.inj hru; subst this
                      simp only [if_true, hl] at hw
                      rw [← Option.some.inj hw]
                    · by_cases hi : s = i
                      · subst hi
                        have := h.held r hr s p hru hp hfl
                        rw [hown] at this; cases this
                      · simp only [hi, if_false] at hw
                        exact h.held r hr i w hru hw hf
              · rename_i hfl
                refine ⟨nodup', conn', h.idx, ?_, ?_⟩
                · intro i w t' hw ht
                  obtain ⟨h1, r, hr, h2, h3⟩ := h.owner i w t' hw ht
                  exact ⟨h1, r, List.mem_cons_of_mem _ hr, h2, h3⟩
                · intro r hr i w hru hw hf
                  rcases List.mem_cons.mp hr with hr | hr
                  · subst hr; rw [hU, hu] at hru
                    have := Option.some.inj hru; subst this
                    rw [hp] at hw
                    have := Option.some.inj hw; subst this
                    exact absurd hf hfl
                  · exact h.held r hr i w hru hw hf
  | leave t =>
    simp only [ExState.step]
    cases hr : x.calls.find? (fun r => decide (r.thread = t)) with
    | none => exact h
    | some r =>
      have hrm : r ∈ x.calls := List.mem_of_find?_eq_some hr
      have hrt : r.thread = t := by simpa using List.find?_some hr
      have hmem : ∀ r' ∈ x.calls.filter (fun r => decide (r.thread ≠ t)), r' ∈ x.calls ∧ r'.thread ≠ t := by
        intro r' h'; simpa [List.mem_filter] using h'
      have nodup' := h.nodup.filter (fun r => decide (r.thread ≠ t))
      have uniq : ∀ r' ∈ x.calls, r'.thread = t → r' = r := by
        intro r' h' ht
        exact aux_ex_uniq h.nodup h' hrm (ht.trans hrt.symm)
      simp only
      cases hu : (x.conns[r.conn]?).bind ExConn.used with
      | none =>
        refine ⟨nodup', fun r' h' => h.conn r' (hmem r' h').1, h.idx, ?_, fun r' h' => h.held r' (hmem r' h').1⟩
        intro i w t' hw ht
        obtain ⟨h1, r', hr', h2, h3⟩ := h.owner i w t' hw ht
        refine ⟨h1, r', ?_, h2, h3⟩
        simp only [List.mem_filter, decide_eq_true_eq]
        refine ⟨hr', fun he => ?_⟩
        rw [uniq r' hr' he] at h3
        simp only [aux_ex_U, hu] at h3; cases h3
      | some s =>
        simp only
        cases hp : x.setups[s]? with
        | none => exact h
        | some p =>
          simp only
          have hl : s < x.setups.length := (List.getElem?_eq_some_iff.mp hp).1
          split
          · exact h
          · split
            · rename_i hfl
              refine ⟨nodup', fun r' h' => h.conn r' (hmem r' h').1, fun c q i hq hi => by simpa using h.idx c q i hq hi, ?_, ?_⟩
              · intro i w t' hw ht
                rw [List.getElem?_set] at hw
                by_cases hi : s = i
                · subst hi
                  simp only [if_true, hl] at hw
                  rw [← Option.some.inj hw] at ht; cases ht
                · simp only [hi, if_false] at hw
                  obtain ⟨h1, r', hr', h2, h3⟩ := h.owner i w t' hw ht
                  refine ⟨h1, r', ?_, h2, h3⟩
                  simp only [List.mem_filter, decide_eq_true_eq]
                  refine ⟨hr', fun he => ?_⟩
                  rw [uniq r' hr' he] at h3
                  simp only [aux_ex_U, hu] at h3
                  exact hi (Option.some.inj h3)
              · intro r' h' i w hru hw hf
                obtain ⟨ha, hb⟩ := hmem r' h'
                rw [List.getElem?_set] at hw
                by_cases hi : s = i
                · subst hi
                  have e1 := h.held r' ha s p hru hp hfl
                  have e2 := h.held r hrm s p hu hp hfl
                  rw [e1] at e2
                  exact absurd ((Option.some.inj e2).trans hrt) hb
                · simp only [hi, if_false] at hw
                  exact h.held r' ha i w hru hw hf
            · rename_i hfl
              refine ⟨nodup', fun r' h' => h.conn r' (hmem r' h').1, h.idx, ?_, fun r' h' => h.held r' (hmem r' h').1⟩
              intro i w t' hw ht
              obtain ⟨h1, r', hr', h2, h3⟩ := h.owner i w t' hw ht
              refine ⟨h1, r', ?_, h2, h3⟩
              simp only [List.mem_filter, decide_eq_true_eq]
              refine ⟨hr', fun he => ?_⟩
              rw [uniq r' hr' he] at h3
              simp only [aux_ex_U, hu] at h3
              have := Option.some.inj h3; subst this
              rw [hp] at hw
              have := Option.some.inj hw; subst this
              exact hfl h1
  | shutdown c =>
    simp only [ExState.step]
    cases hq : x.conns[c]? with
    | none => exact h
    | some q =>
      simp only
      split
      · exact h
      · cases hfd : q.fd with
        | none => exact h
        | some n =>
          obtain ⟨h1, h2, h3⟩ := aux_ex_close { x with conns := x.conns.set c { q with fd := none } } c n
          simp only [h1, h2, h3]
          exact aux_ex_L_set h hq rfl rfl (.inl rfl)
  | free c =>
    simp only [ExState.step]
    cases hq : x.conns[c]? with
    | none => exact h
    | some q =>
      simp only
      split
      · exact h
      · rename_i hn
        have hnc : ∀ r ∈ x.calls, r.conn ≠ c := by
          intro r hr hc; exact hn (.inr (by simp only [List.any_eq_true]; exact ⟨r, hr, by simp [hc]⟩))
        cases hs : q.setup with
        | none =>
          obtain ⟨h1, h2, h3⟩ := aux_ex_freeFds x c q
          simp only [h1, h2, h3]
          exact aux_ex_L_set h hq rfl rfl (.inr hnc)
        | some s =>
          simp only
          cases hp : x.setups[s]? with
          | none => exact h
          | some p =>
            simp only
            split
            · exact h
            · split
              · exact h
              · obtain ⟨h1, h2, h3⟩ := aux_ex_freeFds { x with setups := x.setups.set s p.unref } c q
                simp only [h1, h2, h3]
                exact aux_ex_L_set (aux_ex_L_setup h hp (by simp only [ExSetup.unref]; split <;> rfl)
                  (by simp only [ExSetup.unref]; split <;> rfl)) hq rfl rfl (.inr hnc)
  | appOpen n => simp only [ExState.step]; split <;> exact h
  | appClose n => simp only [ExState.step]; split <;> exact h

theorem aux_ex_U_uses {x : ExState} {c s : Nat} : aux_ex_U x.conns c = some s ↔ exUses x c s := by
  simp only [aux_ex_U, exUses]
  cases x.conns[c]? with
  | none => simp
  | some q =>
    simp only [Option.bind_some, ExConn.used]
    by_cases hk : q.kind = .dialled
    · simp [hk]
    · simp [hk]

theorem aux_ex_stable_left {a b : List ExOp} (h : exStable (a ++ b)) : exStable a := by
  intro a' s v b' c he
  exact h a' s v (b' ++ b) c (by rw [he]; simp)

theorem aux_ex_L_run (ops : List ExOp) : exStable ops →
    aux_ex_L (ExState.init.run ops).1.setups (ExState.init.run ops).1.conns (ExState.init.run ops).1.calls := by
  refine aux_ex_snoc (fun ops => exStable ops →
    aux_ex_L (ExState.init.run ops).1.setups (ExState.init.run ops).1.conns (ExState.init.run ops).1.calls) ?_ ?_ ops
  · intro _
    exact ⟨List.Pairwise.nil, (fun r hr => by cases hr), (fun c q s hq => by simp [ExState.run, ExState.init] at hq),
      (fun s p t hp => by simp [ExState.run, ExState.init] at hp), (fun r hr => by cases hr)⟩
  · intro a op ih hst
    rw [(aux_ex_run_snoc _ a op).1]
    refine aux_ex_L_step _ _ (ih (aux_ex_stable_left hst)) ?_
    intro s v he r hr hu
    exact hst a s v [] r.conn (by rw [he]) (aux_ex_U_uses.mp hu) ⟨r.thread, hr⟩

/-- With mutual exclusion switched on, and not changed during calls of handlers, no two threads are ever inside of the handlers of a
connection. What is missing: connections accepted by a listener (`C105_accepted_overlap`), and changes during calls
(`C105_switched_overlap`). -/
theorem C105_exclusive_partial (ops : List ExOp) (c s : Nat) (hst : exStable ops) (hu : exUses (ExState.init.run ops).1 c s)
    (hx : exExclusive (ExState.init.run ops).1 s) : ¬ exOverlap (ExState.init.run ops).1 c := by
  rintro ⟨t, t', hne, h1, h2⟩
  have h := aux_ex_L_run ops hst
  obtain ⟨p, hp, hf⟩ := hx
  have hu := aux_ex_U_uses.mpr hu
  have e1 := h.held _ h1 s p hu hp hf
  have e2 := h.held _ h2 s p hu hp hf
  rw [e1] at e2
  exact hne (Option.some.inj e2)

/-- A thread has to wait only while another one is inside of a handler of a connection with the same setup object. -/
theorem C105_waits (ops : List ExOp) (t c : Nat) (hst : exStable ops)
    (hb : .blocked ∈ ((ExState.init.run ops).1.step (.enter t c)).2) :
    ∃ s c', exUses (ExState.init.run ops).1 c s ∧ exUses (ExState.init.run ops).1 c' s ∧ exBusy (ExState.init.run ops).1 c' := by
  have h := aux_ex_L_run ops hst
  simp only [ExState.step] at hb
  cases hq : (ExState.init.run ops).1.conns[c]? with
  | none => rw [hq] at hb; simp at hb
  | some q =>
    rw [hq] at hb
    simp only at hb
    split at hb
    · simp at hb
    · cases hu : q.used with
      | none => rw [hu] at hb; simp at hb
      | some s =>
        rw [hu] at hb
        simp only at hb
        cases hp : (ExState.init.run ops).1.setups[s]? with
        | none => rw [hp] at hb; simp at hb
        | some p =>
          rw [hp] at hb
          simp only at hb
          split at hb
          · simp at hb
          · split at hb
            · split at hb
              · rename_i ho
                cases ho' : p.owner with
                | none => exact absurd ho' ho
                | some t' =>
                  obtain ⟨_, r, hr, _, hru⟩ := h.owner s p t' hp ho'
                  exact ⟨s, r.conn, aux_ex_U_uses.mp (by simp [aux_ex_U, hq, hu]), aux_ex_U_uses.mp hru, r.thread, hr⟩
              · simp at hb
            · simp at hb

example : let ops : List ExOp := [.newSetup, .flag 0 true, .appOpen 5, .connect 5 (some 0) false, .enter 1 0, .enter 2 0]
    (ExState.init.run ops).2.map (·.2) = [[.setup 0], [], [], [.made 0], [], [.blocked]] ∧
    exUses (ExState.init.run ops).1 0 0 ∧ exExclusive (ExState.init.run ops).1 0 ∧ exBusy (ExState.init.run ops).1 0 :=
  ⟨by decide, ⟨_, rfl, rfl, rfl⟩, ⟨_, rfl, rfl⟩, ⟨1, by decide⟩⟩

/-! ## The memory of setup objects -/

def aux_ex_uses (s : Nat) (q : ExConn) : Bool := q.live && decide (q.setup = some s)

structure aux_ex_M (x : ExState) (H : Nat → Int) : Prop where
  refs : ∀ (s : Nat) p, x.setups[s]? = some p → p.refs = H s + (x.conns.countP (aux_ex_uses s) : Int)
  alive : ∀ (s : Nat) p, x.setups[s]? = some p → (p.alive = true ↔ 0 < p.refs)
  nonneg : ∀ s, 0 ≤ H s
  out : ∀ s, x.setups.length ≤ s → H s = 0

theorem aux_ex_count_set {cs : List ExConn} {c s : Nat} {q q' : ExConn} (hq : cs[c]? = some q) :
    (((cs.set c q').countP (aux_ex_uses s) : Nat) : Int) + (if aux_ex_uses s q then 1 else 0) =
      (cs.countP (aux_ex_uses s) : Int) + (if aux_ex_uses s q' then 1 else 0) := by
  obtain ⟨hl, he⟩ := List.getElem?_eq_some_iff.mp hq
  rw [List.countP_set hl, he]
  by_cases hp : aux_ex_uses s q = true
  · have : 0 < cs.countP (aux_ex_uses s) := List.countP_pos_iff.mpr ⟨q, by rw [← he]; exact List.getElem_mem hl, hp⟩
    simp only [hp, if_true]
    split <;> omega
  · rw [if_neg hp, if_neg hp]
    split <;> simp

theorem aux_ex_alive {x : ExState} {H : Nat → Int} (h : aux_ex_M x H) {c s : Nat} {q : ExConn} {p : ExSetup} (hq : x.conns[c]? = some q)
    (hl : q.live = true) (hs : q.setup = some s) (hp : x.setups[s]? = some p) : p.alive = true := by
  obtain ⟨hlt, he⟩ := List.getElem?_eq_some_iff.mp hq
  have : 0 < x.conns.countP (aux_ex_uses s) :=
    List.countP_pos_iff.mpr ⟨q, by rw [← he]; exact List.getElem_mem hlt, by simp [aux_ex_uses, hl, hs]⟩
  rw [h.alive s p hp, h.refs s p hp]
  have := h.nonneg s
  omega

/-- A change of one setup object, with its references changed by as much as the references held. -/
theorem aux_ex_M_setup {x : ExState} {H H' : Nat → Int} (h : aux_ex_M x H) {s : Nat} {p p' : ExSetup} (hp : x.setups[s]? = some p)
    (hr : p'.refs = p.refs + (H' s - H s)) (ha : p'.alive = true ↔ 0 < p'.refs) (ho : ∀ i, i ≠ s → H' i = H i) (hn : 0 ≤ H' s) :
    aux_ex_M { x with setups := x.setups.set s p' } H' := by
  have hl : s < x.setups.length := (List.getElem?_eq_some_iff.mp hp).1
  refine ⟨?_, ?_, ?_, ?_⟩
  · intro i w hw
    simp only [List.getElem?_set] at hw
    by_cases hi : s = i
    · subst hi
      simp only [if_true, hl] at hw
      rw [← Option.some.inj hw, hr, h.refs s p hp]
      simp only; omega
    · simp only [hi, if_false] at hw
      rw [ho i (Ne.symm hi)]; exact h.refs i w hw
  · intro i w hw
    simp only [List.getElem?_set] at hw
    by_cases hi : s = i
    · subst hi
      simp only [if_true, hl] at hw
      rw [← Option.some.inj hw]; exact ha
    · simp only [hi, if_false] at hw
      exact h.alive i w hw
  · intro i
    by_cases hi : i = s
    · subst hi; exact hn
    · rw [ho i hi]; exact h.nonneg i
  · intro i hi
    simp only [List.length_set] at hi
    rw [ho i (by omega)]; exact h.out i hi

theorem aux_ex_unref_alive {p : ExSetup} (ha : p.alive = true) : (p.unref.alive = true ↔ 0 < p.unref.refs) ∧ p.unref.refs = p.refs - 1 := by
  simp only [ExSetup.unref]
  by_cases h : p.refs - 1 ≤ 0
  · simp only [h, if_true]
    exact ⟨⟨(fun h' => by cases h'), (fun h' => by omega)⟩, trivial⟩
  · simp only [h, if_false]
    exact ⟨⟨(fun _ => by omega), (fun _ => ha)⟩, trivial⟩

/-- A connection without effect on the counts. -/
theorem aux_ex_M_conns {x y : ExState} {H : Nat → Int} (h : aux_ex_M x H) (h1 : y.setups = x.setups)
    (h2 : ∀ s, y.conns.countP (aux_ex_uses s) = x.conns.countP (aux_ex_uses s)) : aux_ex_M y H := by
  refine ⟨?_, ?_, h.nonneg, ?_⟩
  · intro s p hp; rw [h1] at hp; rw [h2]; exact h.refs s p hp
  · intro s p hp; rw [h1] at hp; exact h.alive s p hp
  · intro s hs; rw [h1] at hs; exact h.out s hs

/-- A new connection takes over a reference. -/
theorem aux_ex_M_append {x y : ExState} {H H' : Nat → Int} (h : aux_ex_M x H) (q : ExConn) (h1 : y.setups = x.setups)
    (h2 : y.conns = x.conns ++ [q]) (hl : q.live = true) (hH : ∀ i, H' i = H i - (if q.setup = some i then 1 else 0))
    (hn : ∀ i, 0 ≤ H' i) : aux_ex_M y H' := by
  refine ⟨?_, ?_, hn, ?_⟩
  · intro s p hp
    rw [h1] at hp
    rw [h2, List.countP_append, hH s, h.refs s p hp]
    by_cases hs : q.setup = some s
    · simp [aux_ex_uses, hl, hs]; omega
    · simp [aux_ex_uses, hl, hs]
  · intro s p hp; rw [h1] at hp; exact h.alive s p hp
  · intro s hs
    rw [h1] at hs
    have := h.out s hs
    have hs' := hH s
    have := hn s
    split at hs' <;> omega

theorem aux_ex_held_append (s : Nat) : ∀ (a b : List (ExOp × List ExEvent)), exHeld s (a ++ b) = exHeld s a + exHeld s b
  | [], b => by simp [exHeld]
  | (op, ev) :: a, b => by
    simp only [List.cons_append, exHeld]
    rw [aux_ex_held_append s a b]
    omega

theorem aux_ex_held_zero (s : Nat) (op : ExOp) (ev : List ExEvent) (h : ∀ i, op ≠ .newSetup ∧ op ≠ .ref i ∧ op ≠ .unref i)
    (h' : (∀ fd i hd, op ≠ .connect fd i hd) ∧ ∀ fd i, op ≠ .listen fd i) : exHeld s [(op, ev)] = 0 := by
  cases op <;> simp [exHeld] at h h' ⊢

/-- Memory is as it should be after each step, and not used after it was released. -/
theorem aux_ex_M_step (x : ExState) (op : ExOp) (H : Nat → Int) (hL : aux_ex_L x.setups x.conns x.calls) (h : aux_ex_M x H)
    (hneed : ∀ s, exNeeds op = some s → 1 ≤ H s) :
    aux_ex_M (x.step op).1 (fun s => H s + exHeld s [(op, (x.step op).2)]) ∧ .fault ∉ (x.step op).2 := by
  have same : ∀ {y : ExState} {ev : List ExEvent}, (∀ s, exHeld s [(op, ev)] = 0) → aux_ex_M y H →
      aux_ex_M y (fun s => H s + exHeld s [(op, ev)]) := by
    intro y ev h0 hy
    have : (fun s => H s + exHeld s [(op, ev)]) = H := funext fun s => by rw [h0 s]; omega
    rw [this]; exact hy
  have needAlive : ∀ {s : Nat} {p : ExSetup}, exNeeds op = some s → x.setups[s]? = some p → p.alive = true := by
    intro s p hn hp
    have := hneed s hn
    rw [h.alive s p hp, h.refs s p hp]; omega
  cases op with
  | newSetup =>
    simp only [ExState.step]
    refine ⟨⟨?_, ?_, ?_, ?_⟩, by simp⟩
    · intro s p hp
      by_cases hs : s < x.setups.length
      · rw [List.getElem?_append_left hs] at hp
        have : s ≠ x.setups.length := by omega
        simp [exHeld, Ne.symm this]
        have := h.refs s p hp; omega
      · rw [List.getElem?_append_right (by omega)] at hp
        by_cases h0 : s - x.setups.length = 0
        · rw [h0] at hp
          have hs' : s = x.setups.length := by omega
          simp at hp
          subst hp
          have hc : x.conns.countP (aux_ex_uses s) = 0 := by
            rw [List.countP_eq_zero]
            intro q hq
            obtain ⟨c, hc⟩ := List.getElem?_of_mem hq
            intro hu
            simp only [aux_ex_uses, Bool.and_eq_true, decide_eq_true_eq] at hu
            exact hs (hL.idx c q s hc hu.2)
          have := h.out s (by omega)
          have e : exHeld s [(.newSetup, [.setup x.setups.length])] = 1 := by simp [exHeld, hs']
          simp only [e, hc]; omega
        · rw [List.getElem?_eq_none (by simp; omega)] at hp; cases hp
    · intro s p hp
      by_cases hs : s < x.setups.length
      · rw [List.getElem?_append_left hs] at hp; exact h.alive s p hp
      · rw [List.getElem?_append_right (by omega)] at hp
        by_cases h0 : s - x.setups.length = 0
        · rw [h0] at hp; simp at hp; subst hp; simp
        · rw [List.getElem?_eq_none (by simp; omega)] at hp; cases hp
    · intro s
      have := h.nonneg s
      simp only [exHeld]; split <;> omega
    · intro s hs
      simp only [List.length_append, List.length_cons, List.length_nil] at hs
      have : s ≠ x.setups.length := by omega
      have := h.out s (by omega)
      simp [exHeld, Ne.symm ‹s ≠ _›]; omega
  | ref s =>
    simp only [ExState.step]
    cases hp : x.setups[s]? with
    | none => exact ⟨same (by simp [exHeld]) h, by simp⟩
    | some p =>
      have ha := needAlive rfl hp
      simp only
      rw [if_neg (show ¬ p.alive = false by simp [ha])]
      by_cases ho : p.owner ≠ none
      · rw [if_pos ho]; exact ⟨same (by simp [exHeld]) h, by simp⟩
      · rw [if_neg ho]
        refine ⟨?_, by simp⟩
        have h1 := (h.alive s p hp).mp ha
        refine aux_ex_M_setup h hp (by simp [exHeld]; omega) (by simp only [ha, true_iff]; omega) ?_ ?_
        · intro i hi; simp [exHeld, Ne.symm hi]
        · have := h.nonneg s; simp [exHeld]; omega
  | unref s =>
    simp only [ExState.step]
    cases hp : x.setups[s]? with
    | none => exact ⟨same (by simp [exHeld]) h, by simp⟩
    | some p =>
      have ha := needAlive rfl hp
      simp only
      rw [if_neg (show ¬ p.alive = false by simp [ha])]
      by_cases ho : p.owner ≠ none
      · rw [if_pos ho]; exact ⟨same (by simp [exHeld]) h, by simp⟩
      · rw [if_neg ho]
        refine ⟨?_, by simp⟩
        refine aux_ex_M_setup h hp (by rw [(aux_ex_unref_alive ha).2]; simp [exHeld]; omega) (aux_ex_unref_alive ha).1 ?_ ?_
        · intro i hi; simp [exHeld, Ne.symm hi]
        · have := hneed s rfl; simp [exHeld]; omega
  | flag s v =>
    have h0 : ∀ ev i, exHeld i [(.flag s v, ev)] = 0 := by simp [exHeld]
    simp only [ExState.step]
    cases hp : x.setups[s]? with
    | none => exact ⟨same (h0 _) h, by simp⟩
    | some p =>
      have ha := needAlive rfl hp
      simp only
      rw [if_neg (show ¬ p.alive = false by simp [ha])]
      refine ⟨same (h0 _) (aux_ex_M_setup h hp (by simp) (h.alive s p hp) (fun _ _ => rfl) (h.nonneg s)), by simp⟩
  | host s v =>
    have h0 : ∀ ev i, exHeld i [(.host s v, ev)] = 0 := by simp [exHeld]
    simp only [ExState.step]
    cases hp : x.setups[s]? with
    | none => exact ⟨same (h0 _) h, by simp⟩
    | some p =>
      have ha := needAlive rfl hp
      simp only
      rw [if_neg (show ¬ p.alive = false by simp [ha])]
      refine ⟨same (h0 _) (aux_ex_M_setup h hp (by simp) (h.alive s p hp) (fun _ _ => rfl) (h.nonneg s)), by simp⟩
  | connect fd setup hd =>
    simp only [ExState.step]
    split
    · exact ⟨same (by simp [exHeld]) h, by simp⟩
    · split
      · exact ⟨same (by simp [exHeld]) h, by simp⟩
      · refine ⟨aux_ex_M_append h _ rfl rfl rfl ?_ ?_, by simp⟩
        · intro i; simp only [exHeld]; by_cases hi : setup = some i <;> simp [hi]; rfl
        · intro i
          have := h.nonneg i
          by_cases hi : setup = some i
          · have := hneed i (by simp [exNeeds, hi]); simp [exHeld, hi]; omega
          · simp [exHeld, hi]; omega
  | listen fd setup =>
    simp only [ExState.step]
    split
    · exact ⟨same (by simp [exHeld]) h, by simp⟩
    · split
      · exact ⟨same (by simp [exHeld]) h, by simp⟩
      · refine ⟨aux_ex_M_append h _ rfl rfl rfl ?_ ?_, by simp⟩
        · intro i; simp only [exHeld]; by_cases hi : setup = some i <;> simp [hi]; rfl
        · intro i
          have := h.nonneg i
          by_cases hi : setup = some i
          · have := hneed i (by simp [exNeeds, hi]); simp [exHeld, hi]; omega
          · simp [exHeld, hi]; omega
  | accept l fd =>
    have h0 : ∀ ev i, exHeld i [(.accept l fd, ev)] = 0 := by simp [exHeld]
    simp only [ExState.step]
    cases x.conns[l]? with
    | none => exact ⟨same (h0 _) h, by simp⟩
    | some q =>
      simp only
      split
      · exact ⟨same (h0 _) h, by simp⟩
      · refine ⟨same (h0 _) (aux_ex_M_conns h rfl ?_), by simp⟩
        intro s; simp [List.countP_append, aux_ex_uses]
  | enter t c =>
    have h0 : ∀ ev i, exHeld i [(.enter t c, ev)] = 0 := by simp [exHeld]
    simp only [ExState.step]
    cases hq : x.conns[c]? with
    | none => exact ⟨same (h0 _) h, by simp⟩
    | some q =>
      simp only
      split
      · exact ⟨same (h0 _) h, by simp⟩
      · rename_i hn
        have hlive : q.live = true := by
          cases hql : q.live with
          | true => rfl
          | false => exact absurd (.inr (.inl hql)) hn
        cases hu : q.used with
        | none => exact ⟨same (h0 _) (aux_ex_M_conns h rfl (fun _ => rfl)), by simp⟩
        | some s =>
          have hs : q.setup = some s := by
            simp only [ExConn.used] at hu; split at hu
            · exact hu
            · cases hu
          simp only
          cases hp : x.setups[s]? with
          | none =>
            have := hL.idx c q s hq hs
            rw [List.getElem?_eq_none_iff] at hp; omega
          | some p =>
            have ha := aux_ex_alive h hq hlive hs hp
            simp only
            rw [if_neg (show ¬ p.alive = false by simp [ha])]
            have hM : aux_ex_M { x with setups := x.setups.set s { p with owner := some t } } H :=
              aux_ex_M_setup h hp (by simp) (h.alive s p hp) (fun _ _ => rfl) (h.nonneg s)
            by_cases hf : p.flag = true
            case neg => rw [if_neg hf]; exact ⟨same (h0 _) (aux_ex_M_conns h rfl (fun _ => rfl)), by simp⟩
            case pos =>
              rw [if_pos hf]
              by_cases ho : p.owner ≠ none
              · rw [if_pos ho]; exact ⟨same (h0 _) h, by simp⟩
              · rw [if_neg ho]; exact ⟨same (h0 _) (aux_ex_M_conns hM rfl (fun _ => rfl)), by simp⟩
  | leave t =>
    have h0 : ∀ ev i, exHeld i [(.leave t, ev)] = 0 := by simp [exHeld]
    simp only [ExState.step]
    cases hr : x.calls.find? (fun r => decide (r.thread = t)) with
    | none => exact ⟨same (h0 _) h, by simp⟩
    | some r =>
      have hrm : r ∈ x.calls := List.mem_of_find?_eq_some hr
      have hrt : r.thread = t := by simpa using List.find?_some hr
      simp only
      cases hu : (x.conns[r.conn]?).bind ExConn.used with
      | none => exact ⟨same (h0 _) (aux_ex_M_conns h rfl (fun _ => rfl)), by simp⟩
      | some s =>
        simp only
        obtain ⟨q, hq, hlive⟩ := hL.conn r hrm
        have hs : q.setup = some s := by
          rw [hq] at hu
          simp only [Option.bind_some, ExConn.used] at hu; split at hu
          · exact hu
          · cases hu
        cases hp : x.setups[s]? with
        | none =>
          have := hL.idx r.conn q s hq hs
          rw [List.getElem?_eq_none_iff] at hp; omega
        | some p =>
          have ha := aux_ex_alive h hq hlive hs hp
          simp only
          rw [if_neg (show ¬ p.alive = false by simp [ha])]
          have hM : aux_ex_M { x with setups := x.setups.set s { p with owner := none } } H :=
            aux_ex_M_setup h hp (by simp) (h.alive s p hp) (fun _ _ => rfl) (h.nonneg s)
          by_cases hf : p.flag = true
          case neg => rw [if_neg hf]; exact ⟨same (h0 _) (aux_ex_M_conns h rfl (fun _ => rfl)), by simp⟩
          case pos =>
            have ho := hL.held r hrm s p hu hp hf
            rw [hrt] at ho
            rw [if_pos hf, if_pos ho]
            exact ⟨same (h0 _) (aux_ex_M_conns hM rfl (fun _ => rfl)), by simp⟩
  | shutdown c =>
    have h0 : ∀ ev i, exHeld i [(.shutdown c, ev)] = 0 := by simp [exHeld]
    simp only [ExState.step]
    cases hq : x.conns[c]? with
    | none => exact ⟨same (h0 _) h, by simp⟩
    | some q =>
      simp only
      split
      · exact ⟨same (h0 _) h, by simp⟩
      · cases hfd : q.fd with
        | none => exact ⟨same (h0 _) h, by simp⟩
        | some n =>
          obtain ⟨h1, h2, h3⟩ := aux_ex_close { x with conns := x.conns.set c { q with fd := none } } c n
          refine ⟨same (h0 _) (aux_ex_M_conns h h1 ?_), ?_⟩
          · intro s
            have := aux_ex_count_set (s := s) (q' := { q with fd := none }) hq
            have he : aux_ex_uses s { q with fd := none } = aux_ex_uses s q := rfl
            rw [he] at this
            rw [h2]; simp only; omega
          · simp only [ExState.close]; split <;> simp
  | free c =>
    have h0 : ∀ ev i, exHeld i [(.free c, ev)] = 0 := by simp [exHeld]
    have nofault : ∀ (y : ExState) q, .fault ∉ (y.freeFds c q).2 := by
      intro y q
      have hc : ∀ (z : ExState) k n, .fault ∉ (z.close k n).2 := by
        intro z k n; simp only [ExState.close]; split <;> simp
      simp only [ExState.freeFds]
      split <;> cases q.fd <;> simp [hc]
    simp only [ExState.step]
    cases hq : x.conns[c]? with
    | none => exact ⟨same (h0 _) h, by simp⟩
    | some q =>
      simp only
      split
      · exact ⟨same (h0 _) h, by simp⟩
      · rename_i hn
        have hlive : q.live = true := by
          cases hql : q.live with
          | true => rfl
          | false => exact absurd (.inl hql) hn
        have hdead : ∀ s, aux_ex_uses s { q with live := false, fd := none } = false := by intro s; simp [aux_ex_uses]
        cases hs : q.setup with
        | none =>
          obtain ⟨h1, h2, h3⟩ := aux_ex_freeFds x c q
          refine ⟨same (h0 _) (aux_ex_M_conns h h1 ?_), nofault _ _⟩
          intro s
          have := aux_ex_count_set (s := s) (q' := { q with live := false, fd := none }) hq
          have he : aux_ex_uses s q = false := by simp [aux_ex_uses, hs]
          rw [hdead, he] at this
          rw [h2]; simp at this; omega
        | some s =>
          simp only
          cases hp : x.setups[s]? with
          | none =>
            have := hL.idx c q s hq hs
            rw [List.getElem?_eq_none_iff] at hp; omega
          | some p =>
            have ha := aux_ex_alive h hq hlive hs hp
            simp only
            rw [if_neg (show ¬ p.alive = false by simp [ha])]
            by_cases ho : p.owner ≠ none
            · rw [if_pos ho]; exact ⟨same (h0 _) h, by simp⟩
            · rw [if_neg ho]
              refine ⟨same (h0 _) ?_, nofault _ _⟩
              obtain ⟨h1, h2, h3⟩ := aux_ex_freeFds { x with setups := x.setups.set s p.unref } c q
              have hl : s < x.setups.length := (List.getElem?_eq_some_iff.mp hp).1
              refine ⟨?_, ?_, h.nonneg, ?_⟩
              · intro i w hw
                rw [h1] at hw
                rw [h2]
                have hc := aux_ex_count_set (s := i) (q' := { q with live := false, fd := none }) hq
                rw [hdead] at hc
                simp only [List.getElem?_set] at hw
                by_cases hi : s = i
                · subst hi
                  simp only [if_true, hl] at hw
                  rw [← Option.some.inj hw, (aux_ex_unref_alive ha).2, h.refs s p hp]
                  have hu : aux_ex_uses s q = true := by simp [aux_ex_uses, hlive, hs]
                  simp only [hu, if_true] at hc
                  simp at hc ⊢; omega
                · simp only [hi, if_false] at hw
                  have hu : aux_ex_uses i q = false := by simp [aux_ex_uses, hs, hi]
                  rw [hu] at hc
                  have := h.refs i w hw
                  simp at hc ⊢; omega
              · intro i w hw
                rw [h1] at hw
                simp only [List.getElem?_set] at hw
                by_cases hi : s = i
                · subst hi
                  simp only [if_true, hl] at hw
                  rw [← Option.some.inj hw]; exact (aux_ex_unref_alive ha).1
                · simp only [hi, if_false] at hw; exact h.alive i w hw
              · intro i hi
                rw [h1] at hi
                exact h.out i (by simpa using hi)
  | appOpen n =>
    have h0 : ∀ ev i, exHeld i [(.appOpen n, ev)] = 0 := by simp [exHeld]
    simp only [ExState.step]
    split
    · exact ⟨same (h0 _) (aux_ex_M_conns h rfl (fun _ => rfl)), by simp⟩
    · exact ⟨same (h0 _) h, by simp⟩
  | appClose n =>
    have h0 : ∀ ev i, exHeld i [(.appClose n, ev)] = 0 := by simp [exHeld]
    simp only [ExState.step]
    split
    · exact ⟨same (h0 _) (aux_ex_M_conns h rfl (fun _ => rfl)), by simp⟩
    · exact ⟨same (h0 _) h, by simp⟩

theorem aux_ex_proper_left {a b : List ExOp} (h : exProper (a ++ b)) : exProper a := by
  intro a' op b' s he
  exact h a' op (b' ++ b) s (by rw [he]; simp)

theorem aux_ex_M_run (ops : List ExOp) : exStable ops → exProper ops →
    aux_ex_M (ExState.init.run ops).1 (fun s => exHeld s (ExState.init.run ops).2) ∧ ∀ e ∈ (ExState.init.run ops).2, .fault ∉ e.2 := by
  refine aux_ex_snoc (fun ops => exStable ops → exProper ops →
    aux_ex_M (ExState.init.run ops).1 (fun s => exHeld s (ExState.init.run ops).2) ∧ ∀ e ∈ (ExState.init.run ops).2, .fault ∉ e.2) ?_ ?_ ops
  · intro _ _
    exact ⟨⟨(fun s p hp => by simp [ExState.run, ExState.init] at hp), (fun s p hp => by simp [ExState.run, ExState.init] at hp),
      (fun s => by simp [ExState.run, exHeld]), (fun s _ => by simp [ExState.run, exHeld])⟩, by simp [ExState.run]⟩
  · intro a op ih hst hpr
    obtain ⟨hM, hf⟩ := ih (aux_ex_stable_left hst) (aux_ex_proper_left hpr)
    have hL := aux_ex_L_run a (aux_ex_stable_left hst)
    obtain ⟨h1, h2⟩ := aux_ex_M_step _ op _ hL hM (fun s hs => hpr a op [] s rfl hs)
    obtain ⟨e1, e2⟩ := aux_ex_run_snoc ExState.init a op
    refine ⟨?_, ?_⟩
    · rw [e1, e2]
      have : (fun s => exHeld s ((ExState.init.run a).2 ++ [(op, ((ExState.init.run a).1.step op).2)])) =
          fun s => exHeld s (ExState.init.run a).2 + exHeld s [(op, ((ExState.init.run a).1.step op).2)] :=
        funext fun s => aux_ex_held_append s _ _
      rw [this]; exact h1
    · intro e he
      rw [e2] at he
      rcases List.mem_append.mp he with he | he
      · exact hf e he
      · rw [List.mem_singleton.mp he]; exact h2

/-- If every connection and listener is given a reference of its own, setup objects are not used after they are released, and a mutex is
only unlocked by the thread that holds it. What is missing: that connections take a reference themselves (`C105_shared_setup`,
`C105_own_reference`). -/
theorem C105_memory_partial (ops : List ExOp) (hst : exStable ops) (hpr : exProper ops) :
    ∀ e ∈ (ExState.init.run ops).2, .fault ∉ e.2 := (aux_ex_M_run ops hst hpr).2

/-- Then a setup object is kept as long as the application holds a reference or there is a connection or listener created with it, and
is released after that. -/
theorem C105_released_partial (ops : List ExOp) (s : Nat) (p : ExSetup) (hst : exStable ops) (hpr : exProper ops)
    (hp : (ExState.init.run ops).1.setups[s]? = some p) :
    p.alive = true ↔ 1 ≤ exHeld s (ExState.init.run ops).2 ∨ ∃ q ∈ (ExState.init.run ops).1.conns, q.live = true ∧ q.setup = some s := by
  have h := (aux_ex_M_run ops hst hpr).1
  rw [h.alive s p hp, h.refs s p hp]
  have hn := h.nonneg s
  have hc : 0 < (ExState.init.run ops).1.conns.countP (aux_ex_uses s) ↔
      ∃ q ∈ (ExState.init.run ops).1.conns, q.live = true ∧ q.setup = some s := by
    rw [List.countP_pos_iff]
    simp [aux_ex_uses]
  rw [← hc]
  omega

-- two connections and a listener that share a setup object
example : let ops : List ExOp := [.newSetup, .ref 0, .ref 0, .appOpen 5, .appOpen 6, .appOpen 7, .connect 5 (some 0) false, .connect 6 (some 0) false,
      .listen 7 (some 0), .enter 1 0, .leave 1, .free 0, .enter 2 1, .leave 2, .free 1, .free 2]
    (ExState.init.run ops).2.map (·.2) = [[.setup 0], [], [], [], [], [], [.made 0], [.made 1], [.made 2], [], [], [.closed 0 5 (.conn 0)], [], [],
      [.closed 1 6 (.conn 1)], [.closed 2 7 (.conn 2)]] ∧ ((ExState.init.run ops).1.setups[0]?).map (·.alive) = some false := by decide

/-! ## Descriptors -/

def aux_ex_F (x : ExState) : Prop := ∀ (c : Nat) q n, x.conns[c]? = some q → q.fd = some n → x.fds n = some (.conn c)

theorem aux_ex_F_append {x y : ExState} (h : aux_ex_F x) (q : ExConn) (n : Nat) (hc : y.conns = x.conns ++ [q]) (hq : q.fd = some n)
    (hf : y.fds = fun m => if m = n then some (.conn x.conns.length) else x.fds m) (hn : ∀ c, x.fds n ≠ some (.conn c)) : aux_ex_F y := by
  intro c w m hw hm
  rw [hc] at hw
  rw [hf]
  by_cases hlt : c < x.conns.length
  · rw [List.getElem?_append_left hlt] at hw
    have := h c w m hw hm
    have hne : m ≠ n := by intro he; subst he; exact hn c this
    simp [hne, this]
  · rw [List.getElem?_append_right (by omega)] at hw
    by_cases h0 : c - x.conns.length = 0
    · rw [h0] at hw
      simp at hw; subst hw
      rw [hq] at hm
      have := Option.some.inj hm; subst this
      have : c = x.conns.length := by omega
      simp [this]
    · rw [List.getElem?_eq_none (by simp; omega)] at hw; cases hw

/-- Connection `c` closes its descriptor and forgets it. -/
theorem aux_ex_F_close {x y : ExState} (h : aux_ex_F x) {c n : Nat} {q q' : ExConn} (hq : x.conns[c]? = some q) (hn : q.fd = some n)
    (hc : y.conns = x.conns.set c q') (hq' : q'.fd = none) (hf : y.fds = x.fds) :
    aux_ex_F (y.close c n).1 ∧ (y.close c n).2 = [.closed c n (.conn c)] := by
  have hlt : c < x.conns.length := (List.getElem?_eq_some_iff.mp hq).1
  have hx := h c q n hq hn
  have hy : y.fds n = some (.conn c) := by rw [hf]; exact hx
  simp only [ExState.close, hy]
  refine ⟨?_, trivial⟩
  intro d w m hw hm
  simp only [hc, List.getElem?_set] at hw
  by_cases hd : c = d
  · subst hd; simp only [if_true, hlt] at hw
    rw [← Option.some.inj hw, hq'] at hm; cases hm
  · simp only [hd, if_false] at hw
    have := h d w m hw hm
    have hne : m ≠ n := by
      intro he; subst he
      rw [hx] at this
      exact hd (ExOwner.conn.inj (Option.some.inj this))
    simp only [hne, if_false, hf]; exact this

theorem aux_ex_F_forget {x y : ExState} (h : aux_ex_F x) {c : Nat} {q' : ExConn} (hc : y.conns = x.conns.set c q') (hq' : q'.fd = none)
    (hf : y.fds = x.fds) : aux_ex_F y := by
  intro d w m hw hm
  rw [hc, List.getElem?_set] at hw
  by_cases hd : c = d
  · subst hd
    by_cases hlt : c < x.conns.length
    · simp only [if_true, hlt] at hw
      rw [← Option.some.inj hw, hq'] at hm; cases hm
    · simp [hlt] at hw
  · simp only [hd, if_false] at hw
    rw [hf]; exact h d w m hw hm

theorem aux_ex_F_free {x y : ExState} (h : aux_ex_F x) {c : Nat} {q : ExConn} (hq : x.conns[c]? = some q) (hk : q.kind ≠ .listener)
    (hc : y.conns = x.conns) (hf : y.fds = x.fds) :
    aux_ex_F (y.freeFds c q).1 ∧ ∀ k n o, .closed k n o ∈ (y.freeFds c q).2 → o = .conn k := by
  simp only [ExState.freeFds]
  rw [if_neg hk]
  cases hn : q.fd with
  | none => exact ⟨aux_ex_F_forget (c := c) (q' := { q with live := false, fd := none }) h (by simp only [hc]) rfl hf, fun k n o he => by simp at he⟩
  | some n =>
    obtain ⟨h1, h2⟩ := aux_ex_F_close (q' := { q with live := false, fd := none }) (y := { y with conns := y.conns.set c { q with live := false, fd := none } }) h hq hn (by simp only [hc]) rfl hf
    simp only [List.nil_append]
    refine ⟨h1, fun k m o he => ?_⟩
    rw [h2] at he
    simp at he
    rw [he.2.2, he.1]

theorem aux_ex_F_step (x : ExState) (op : ExOp) (h : aux_ex_F x)
    (hst : ∀ c q, op = .free c → x.conns[c]? = some q → q.kind ≠ .listener) :
    aux_ex_F (x.step op).1 ∧ ∀ k n o, .closed k n o ∈ (x.step op).2 → o = .conn k := by
  have keep : ∀ {y : ExState} {ev : List ExEvent}, y.conns = x.conns → y.fds = x.fds → (∀ k n o, ExEvent.closed k n o ∉ ev) →
      aux_ex_F y ∧ ∀ k n o, .closed k n o ∈ ev → o = .conn k := by
    intro y ev h1 h2 h3
    exact ⟨(by intro c q n hq hn; rw [h2]; rw [h1] at hq; exact h c q n hq hn), fun k n o he => absurd he (h3 k n o)⟩
  cases op with
  | newSetup => simp only [ExState.step]; exact keep rfl rfl (by simp)
  | ref s =>
    simp only [ExState.step]
    cases x.setups[s]? with
    | none => exact keep rfl rfl (by simp)
    | some p =>
      simp only
      split
      · exact keep rfl rfl (by simp)
      · split <;> exact keep rfl rfl (by simp)
  | unref s =>
    simp only [ExState.step]
    cases x.setups[s]? with
    | none => exact keep rfl rfl (by simp)
    | some p =>
      simp only
      split
      · exact keep rfl rfl (by simp)
      · split <;> exact keep rfl rfl (by simp)
  | flag s v =>
    simp only [ExState.step]
    cases x.setups[s]? with
    | none => exact keep rfl rfl (by simp)
    | some p => simp only; split <;> exact keep rfl rfl (by simp)
  | host s v =>
    simp only [ExState.step]
    cases x.setups[s]? with
    | none => exact keep rfl rfl (by simp)
    | some p => simp only; split <;> exact keep rfl rfl (by simp)
  | connect fd setup hd =>
    simp only [ExState.step]
    split
    · exact keep rfl rfl (by simp)
    · split
      · exact keep rfl rfl (by simp)
      · rename_i hn
        refine ⟨aux_ex_F_append h _ fd.toNat rfl rfl rfl ?_, by simp⟩
        intro c he; exact hn (.inl (by rw [he]; simp))
  | listen fd setup =>
    simp only [ExState.step]
    split
    · exact keep rfl rfl (by simp)
    · split
      · exact keep rfl rfl (by simp)
      · rename_i hn
        refine ⟨aux_ex_F_append h _ fd.toNat rfl rfl rfl ?_, by simp⟩
        intro c he; exact hn (.inl (by rw [he]; simp))
  | accept l fd =>
    simp only [ExState.step]
    cases x.conns[l]? with
    | none => exact keep rfl rfl (by simp)
    | some q =>
      simp only
      split
      · exact keep rfl rfl (by simp)
      · rename_i hn
        refine ⟨aux_ex_F_append h _ fd rfl rfl rfl ?_, by simp⟩
        intro c he; exact hn (.inr (.inr (by rw [he]; simp)))
  | enter t c =>
    simp only [ExState.step]
    cases x.conns[c]? with
    | none => exact keep rfl rfl (by simp)
    | some q =>
      simp only
      split
      · exact keep rfl rfl (by simp)
      · cases q.used with
        | none => exact keep rfl rfl (by simp)
        | some s =>
          simp only
          cases x.setups[s]? with
          | none => exact keep rfl rfl (by simp)
          | some p =>
            simp only
            split
            · exact keep rfl rfl (by simp)
            · split
              · split <;> exact keep rfl rfl (by simp)
              · exact keep rfl rfl (by simp)
  | leave t =>
    simp only [ExState.step]
    cases x.calls.find? (fun r => decide (r.thread = t)) with
    | none => exact keep rfl rfl (by simp)
    | some r =>
      simp only
      cases (x.conns[r.conn]?).bind ExConn.used with
      | none => exact keep rfl rfl (by simp)
      | some s =>
        simp only
        cases x.setups[s]? with
        | none => exact keep rfl rfl (by simp)
        | some p =>
          simp only
          split
          · exact keep rfl rfl (by simp)
          · split
            · split <;> exact keep rfl rfl (by simp)
            · exact keep rfl rfl (by simp)
  | shutdown c =>
    simp only [ExState.step]
    cases hq : x.conns[c]? with
    | none => exact keep rfl rfl (by simp)
    | some q =>
      simp only
      split
      · exact keep rfl rfl (by simp)
      · cases hfd : q.fd with
        | none => exact keep rfl rfl (by simp)
        | some n =>
          obtain ⟨h1, h2⟩ := aux_ex_F_close (y := { x with conns := x.conns.set c { q with fd := none } }) h hq hfd rfl rfl rfl
          refine ⟨h1, fun k m o he => ?_⟩
          rw [h2] at he
          simp at he
          rw [he.2.2, he.1]
  | free c =>
    simp only [ExState.step]
    cases hq : x.conns[c]? with
    | none => exact keep rfl rfl (by simp)
    | some q =>
      simp only
      have hk := hst c q rfl hq
      split
      · exact keep rfl rfl (by simp)
      · cases q.setup with
        | none => exact aux_ex_F_free h hq hk rfl rfl
        | some s =>
          simp only
          cases x.setups[s]? with
          | none => exact keep rfl rfl (by simp)
          | some p =>
            simp only
            split
            · exact keep rfl rfl (by simp)
            · split
              · exact keep rfl rfl (by simp)
              · exact aux_ex_F_free h hq hk rfl rfl
  | appOpen n =>
    simp only [ExState.step]
    split
    · rename_i hn
      refine ⟨?_, by simp⟩
      intro c q m hq hm
      have := h c q m hq hm
      have hne : m ≠ n := by intro he; subst he; rw [hn] at this; cases this
      simp [hne, this]
    · exact keep rfl rfl (by simp)
  | appClose n =>
    simp only [ExState.step]
    split
    · rename_i hn
      refine ⟨?_, by simp⟩
      intro c q m hq hm
      have := h c q m hq hm
      have hne : m ≠ n := by intro he; subst he; rw [hn] at this; cases this
      simp [hne, this]
    · exact keep rfl rfl (by simp)

theorem aux_ex_F_run (ops : List ExOp) : exListenersStay ops → aux_ex_F (ExState.init.run ops).1 ∧
    ∀ e ∈ (ExState.init.run ops).2, ∀ k n o, .closed k n o ∈ e.2 → o = .conn k := by
  refine aux_ex_snoc (fun ops => exListenersStay ops → aux_ex_F (ExState.init.run ops).1 ∧
    ∀ e ∈ (ExState.init.run ops).2, ∀ k n o, .closed k n o ∈ e.2 → o = .conn k) ?_ ?_ ops
  · intro _
    exact ⟨(fun c q n hq => by simp [ExState.run, ExState.init] at hq), by simp [ExState.run]⟩
  · intro a op ih hst
    obtain ⟨h1, h2⟩ := ih (by intro a' c b' q he; exact hst a' c (b' ++ [op]) q (by rw [he]; simp))
    obtain ⟨e1, e2⟩ := aux_ex_run_snoc ExState.init a op
    obtain ⟨g1, g2⟩ := aux_ex_F_step _ op h1 (fun c q he hq => hst a c [] q (by rw [he]) hq)
    rw [e1, e2]
    refine ⟨g1, ?_⟩
    intro e he
    rcases List.mem_append.mp he with he | he
    · exact h2 e he
    · rw [List.mem_singleton.mp he]; exact g2

/-- A connection closes no descriptor but the one it was created with, as long as no listener is freed. What is missing:
`C105_foreign_closed`. -/
theorem C105_closed_partial (ops : List ExOp) (h : exListenersStay ops) :
    ∀ e ∈ (ExState.init.run ops).2, ∀ k n o, .closed k n o ∈ e.2 → o = .conn k := (aux_ex_F_run ops h).2

/-- Then the descriptor of a connection is closed when the connection is shut down. -/
theorem C105_shutdown_partial (ops : List ExOp) (h : exListenersStay ops) (c n : Nat) (q : ExConn)
    (hq : (ExState.init.run ops).1.conns[c]? = some q) (hl : q.live = true) (hn : q.fd = some n) :
    ((ExState.init.run ops).1.step (.shutdown c)).2 = [.closed c n (.conn c)] ∧
    ((ExState.init.run ops).1.step (.shutdown c)).1.fds n = none := by
  have hf := (aux_ex_F_run ops h).1 c q n hq hn
  simp [ExState.step, hq, hl, hn, ExState.close, hf]

example : exListenersStay [.appOpen 5, .connect 5 none false, .shutdown 0] ∧
    (ExState.init.run [.appOpen 5, .connect 5 none false, .shutdown 0]).2.map (·.2) = [[], [.made 0], [.closed 0 5 (.conn 0)]] := by
  refine ⟨?_, by decide⟩
  intro a c b q he
  rcases a with _ | ⟨x, _ | ⟨y, _ | ⟨z, a⟩⟩⟩ <;> simp at he

/-- A connection or a listener is created exactly for a descriptor, which it owns from then on, with the setup object given; a negative
number is refused and nothing changes. -/
theorem C105_created (ops : List ExOp) (fd : Int) (setup : Option Nat) (handler : Bool) (op : ExOp)
    (hop : op = .connect fd setup handler ∨ op = .listen fd setup) :
    let x := (ExState.init.run ops).1
    (fd < 0 → x.step op = (x, [.refused])) ∧
    (0 ≤ fd → x.fds fd.toNat = some .app → (∀ s, setup = some s → s < x.setups.length) →
      (x.step op).2 = [.made x.conns.length] ∧ (x.step op).1.fds fd.toNat = some (.conn x.conns.length) ∧
      ∃ q, (x.step op).1.conns = x.conns ++ [q] ∧ q.fd = some fd.toNat ∧ q.setup = setup ∧ q.live = true ∧
        (q.kind = .listener ↔ op = .listen fd setup)) := by
  refine ⟨?_, ?_⟩
  · intro h
    rcases hop with rfl | rfl <;> simp [ExState.step, h]
  · intro h ha hs
    have h1 : ¬ fd < 0 := by omega
    have h2 : setup.any (fun s => decide ((ExState.init.run ops).1.setups.length ≤ s)) = false := by
      cases setup with
      | none => rfl
      | some s => have := hs s rfl; simp; omega
    rcases hop with rfl | rfl <;> simp [ExState.step, h1, ha, h2]

example : let x := (ExState.init.run [.newSetup, .appOpen 5]).1
    x.fds 5 = some .app ∧ x.setups.length = 1 ∧ (x.step (.connect 5 (some 0) false)).2 = [.made 0] ∧ (x.step (.connect (-1) (some 0) false)).2 = [.refused] := by
  decide

/-! ## Violations -/

/-- **Violation**: the descriptor of a listener is closed again when the listener is freed: by then the number may belong to another
descriptor, for any numbers. -/
theorem C105_foreign_closed (n : Nat) :
    ((ExState.init.run [.appOpen n, .listen n none, .shutdown 0, .appOpen n, .free 0]).2.map (·.2)).getLast? = some [.closed 0 n .app] := by
  have h : ¬ ((n : Int) < 0) := by omega
  simp [h, ExState.run, ExState.step, ExState.init, ExState.close, ExState.freeFds]

/-- **Violation**: connections do not take references of the setup object they are created with. After the first of two connections is
freed, the handler of the other one uses released memory. -/
theorem C105_shared_setup : let ops : List ExOp := [.newSetup, .appOpen 5, .appOpen 6, .connect 5 (some 0) false, .connect 6 (some 0) false, .free 0]
    exOwned 0 (ExState.init.run ops).2 = 1 ∧ ((ExState.init.run ops).1.step (.enter 1 1)).2 = [.fault] := by decide

/-- **Violation**: nor does a connection survive that the application releases its own reference. -/
theorem C105_own_reference : let ops : List ExOp := [.newSetup, .appOpen 5, .connect 5 (some 0) false, .unref 0]
    (ExState.init.run ops).2.map (·.2) = [[.setup 0], [], [.made 0], []] ∧ ((ExState.init.run ops).1.step (.enter 1 0)).2 = [.fault] := by decide

/-- **Violation**: mutual exclusion is not provided for connections accepted by a listener. -/
theorem C105_accepted_overlap : let ops : List ExOp := [.newSetup, .flag 0 true, .appOpen 5, .listen 5 (some 0), .accept 0 6, .enter 1 1, .enter 2 1]
    exCovered (ExState.init.run ops).1 1 0 ∧ exExclusive (ExState.init.run ops).1 0 ∧ exOverlap (ExState.init.run ops).1 1 :=
  ⟨.inr ⟨_, 0, _, rfl, rfl, rfl, rfl⟩, ⟨_, rfl, rfl⟩, ⟨1, 2, by decide, by decide, by decide⟩⟩

/-- **Violation**: a change of the option during a call: the end of that call lets a third thread in. -/
theorem C105_switched_overlap :
    let ops : List ExOp := [.newSetup, .appOpen 5, .connect 5 (some 0) false, .enter 1 0, .flag 0 true, .enter 2 0, .leave 1, .enter 3 0]
    exUses (ExState.init.run ops).1 0 0 ∧ exExclusive (ExState.init.run ops).1 0 ∧
    (⟨2, 0⟩ : ExCall) ∈ (ExState.init.run ops).1.calls ∧ (⟨3, 0⟩ : ExCall) ∈ (ExState.init.run ops).1.calls :=
  ⟨⟨_, rfl, rfl, rfl⟩, ⟨_, rfl, rfl⟩, by decide, by decide⟩

/-- **Violation**: a change of the option during a call: the mutex is never unlocked; with no call in progress, all threads wait, and the
connection cannot be freed. -/
theorem C105_stuck :
    let x := (ExState.init.run [.newSetup, .flag 0 true, .appOpen 5, .connect 5 (some 0) false, .enter 1 0, .flag 0 false, .leave 1, .flag 0 true]).1
    x.calls = [] ∧ (∀ t, (x.step (.enter t 0)).2 = [.blocked]) ∧ (x.step (.free 0)).2 = [.blocked] := by
  refine ⟨rfl, ?_, rfl⟩
  intro t
  rfl

/-- **Violation**: a handler that takes or releases a reference of its own setup object waits for itself: that call does not return while
any handler of a connection with that object is in progress. -/
theorem C105_waits_for_itself (ops : List ExOp) (t c s : Nat) (hst : exStable ops) (hpr : exProper ops) (hu : exUses (ExState.init.run ops).1 c s)
    (hx : exExclusive (ExState.init.run ops).1 s) (ht : (⟨t, c⟩ : ExCall) ∈ (ExState.init.run ops).1.calls) :
    ((ExState.init.run ops).1.step (.ref s)).2 = [.blocked] ∧ ((ExState.init.run ops).1.step (.unref s)).2 = [.blocked] := by
  have hL := aux_ex_L_run ops hst
  have hM := (aux_ex_M_run ops hst hpr).1
  obtain ⟨p, hp, hf⟩ := hx
  have ho := hL.held _ ht s p (aux_ex_U_uses.mpr hu) hp hf
  obtain ⟨q, hq, hl⟩ := hL.conn _ ht
  obtain ⟨q', hq', _, hs⟩ := hu
  simp only at hq
  rw [hq] at hq'
  have := Option.some.inj hq'; subst this
  have ha := aux_ex_alive hM hq hl hs hp
  simp [ExState.step, hp, ha, ho]

example : exProper [] ∧ ((ExState.init.run [.newSetup, .flag 0 true, .appOpen 5, .connect 5 (some 0) false, .enter 1 0]).1.step (.ref 0)).2 = [.blocked] :=
  ⟨by intro a op b s he; simp at he, by decide⟩

theorem aux_ex_close_nn (x : ExState) (k n i : Nat) : .notified i ∉ (x.close k n).2 := by
  simp only [ExState.close]; split <;> simp

theorem aux_ex_free_nn (x : ExState) (c : Nat) (q : ExConn) (i : Nat) : .notified i ∉ (x.freeFds c q).2 := by
  simp only [ExState.freeFds]
  split <;> cases q.fd <;> simp [aux_ex_close_nn]

theorem aux_ex_host_step (x : ExState) (op : ExOp) (h : ∀ q ∈ x.conns, q.host = none) :
    (∀ q ∈ (x.step op).1.conns, q.host = none) ∧ ∀ k, .notified k ∉ (x.step op).2 := by
  have hset : ∀ {c : Nat} {q q' : ExConn}, x.conns[c]? = some q → q'.host = q.host → ∀ w ∈ x.conns.set c q', w.host = none := by
    intro c q q' hq he w hw
    rcases List.mem_or_eq_of_mem_set hw with hw | hw
    · exact h w hw
    · rw [hw, he]; exact h q (List.mem_of_getElem? hq)
  have happ : ∀ {q' : ExConn}, q'.host = none → ∀ w ∈ x.conns ++ [q'], w.host = none := by
    intro q' he w hw
    rcases List.mem_append.mp hw with hw | hw
    · exact h w hw
    · rw [List.mem_singleton.mp hw]; exact he
  cases op with
  | newSetup => exact ⟨h, by simp [ExState.step]⟩
  | ref s =>
    simp only [ExState.step]
    cases x.setups[s]? with
    | none => exact ⟨h, by simp⟩
    | some p => simp only; split; exact ⟨h, by simp⟩; split <;> exact ⟨h, by simp⟩
  | unref s =>
    simp only [ExState.step]
    cases x.setups[s]? with
    | none => exact ⟨h, by simp⟩
    | some p => simp only; split; exact ⟨h, by simp⟩; split <;> exact ⟨h, by simp⟩
  | flag s v =>
    simp only [ExState.step]
    cases x.setups[s]? with
    | none => exact ⟨h, by simp⟩
    | some p => simp only; split <;> exact ⟨h, by simp⟩
  | host s v =>
    simp only [ExState.step]
    cases x.setups[s]? with
    | none => exact ⟨h, by simp⟩
    | some p => simp only; split <;> exact ⟨h, by simp⟩
  | connect fd setup hd =>
    simp only [ExState.step]
    split
    · exact ⟨h, by simp⟩
    · split
      · exact ⟨h, by simp⟩
      · exact ⟨happ rfl, by simp⟩
  | listen fd setup =>
    simp only [ExState.step]
    split
    · exact ⟨h, by simp⟩
    · split
      · exact ⟨h, by simp⟩
      · exact ⟨happ rfl, by simp⟩
  | accept l fd =>
    simp only [ExState.step]
    cases x.conns[l]? with
    | none => exact ⟨h, by simp⟩
    | some q =>
      simp only
      split
      · exact ⟨h, by simp⟩
      · exact ⟨happ rfl, by simp⟩
  | enter t c =>
    simp only [ExState.step]
    cases x.conns[c]? with
    | none => exact ⟨h, by simp⟩
    | some q =>
      simp only
      split
      · exact ⟨h, by simp⟩
      · cases q.used with
        | none => exact ⟨h, by simp⟩
        | some s =>
          simp only
          cases x.setups[s]? with
          | none => exact ⟨h, by simp⟩
          | some p =>
            simp only
            split
            · exact ⟨h, by simp⟩
            · split
              · split <;> exact ⟨h, by simp⟩
              · exact ⟨h, by simp⟩
  | leave t =>
    simp only [ExState.step]
    cases x.calls.find? (fun r => decide (r.thread = t)) with
    | none => exact ⟨h, by simp⟩
    | some r =>
      simp only
      cases (x.conns[r.conn]?).bind ExConn.used with
      | none => exact ⟨h, by simp⟩
      | some s =>
        simp only
        cases x.setups[s]? with
        | none => exact ⟨h, by simp⟩
        | some p =>
          simp only
          split
          · exact ⟨h, by simp⟩
          · split
            · split <;> exact ⟨h, by simp⟩
            · exact ⟨h, by simp⟩
  | shutdown c =>
    simp only [ExState.step]
    cases hq : x.conns[c]? with
    | none => exact ⟨h, by simp⟩
    | some q =>
      simp only
      split
      · exact ⟨h, by simp⟩
      · cases q.fd with
        | none => exact ⟨h, by simp⟩
        | some n =>
          simp only
          rw [(aux_ex_close { x with conns := x.conns.set c { q with fd := none } } c n).2.1]
          exact ⟨hset hq rfl, fun k => aux_ex_close_nn _ _ _ k⟩
  | free c =>
    simp only [ExState.step]
    cases hq : x.conns[c]? with
    | none => exact ⟨h, by simp⟩
    | some q =>
      simp only
      split
      · exact ⟨h, by simp⟩
      · cases q.setup with
        | none =>
          simp only
          rw [(aux_ex_freeFds x c q).2.1]
          exact ⟨hset hq rfl, fun k => aux_ex_free_nn _ _ _ k⟩
        | some s =>
          simp only
          cases x.setups[s]? with
          | none => exact ⟨h, by simp⟩
          | some p =>
            simp only
            split
            · exact ⟨h, by simp⟩
            · split
              · exact ⟨h, by simp⟩
              · rw [(aux_ex_freeFds { x with setups := x.setups.set s p.unref } c q).2.1]
                exact ⟨hset hq rfl, fun k => aux_ex_free_nn _ _ _ k⟩
  | appOpen n => simp only [ExState.step]; split <;> exact ⟨h, by simp⟩
  | appClose n => simp only [ExState.step]; split <;> exact ⟨h, by simp⟩

/-- **Violation**: no connection ever reports a host, and the handler for a new connection is never called, whatever the application does
and configures. -/
theorem C105_never_reported (ops : List ExOp) : (∀ q ∈ (ExState.init.run ops).1.conns, q.host = none) ∧
    ∀ e ∈ (ExState.init.run ops).2, ∀ k, .notified k ∉ e.2 := by
  refine aux_ex_snoc (fun ops => (∀ q ∈ (ExState.init.run ops).1.conns, q.host = none) ∧
    ∀ e ∈ (ExState.init.run ops).2, ∀ k, .notified k ∉ e.2) ⟨by simp [ExState.run, ExState.init], by simp [ExState.run]⟩ ?_ ops
  intro a op ⟨h1, h2⟩
  obtain ⟨e1, e2⟩ := aux_ex_run_snoc ExState.init a op
  obtain ⟨g1, g2⟩ := aux_ex_host_step _ op h1
  rw [e1, e2]
  refine ⟨g1, ?_⟩
  intro e he
  rcases List.mem_append.mp he with he | he
  · exact h2 e he
  · rw [List.mem_singleton.mp he]; exact g2

example : (ExState.init.run [.newSetup, .host 0 7, .appOpen 5, .connect 5 (some 0) true]).2.map (·.2) = [[.setup 0], [], [], [.made 0]] := by decide

/-- C105: setup objects are not used after they were released, the handlers of a connection exclude each other if configured, and only
descriptors of its own are closed by a connection. -/
def C105_statement : Prop :=
  ∀ ops : List ExOp, exOwner ops →
    (∀ e ∈ (ExState.init.run ops).2, .fault ∉ e.2) ∧
    (∀ c s, exCovered (ExState.init.run ops).1 c s → exExclusive (ExState.init.run ops).1 s → ¬ exOverlap (ExState.init.run ops).1 c) ∧
    (∀ e ∈ (ExState.init.run ops).2, ∀ k n o, .closed k n o ∈ e.2 → o = .conn k)

theorem C105_statement_false : ¬ C105_statement := by
  intro h
  have := (h [.appOpen 5, .listen 5 none, .shutdown 0, .appOpen 5, .free 0] (by
    intro a op b s he hn
    rcases a with _ | ⟨_, _ | ⟨_, _ | ⟨_, _ | ⟨_, _ | ⟨_, a⟩⟩⟩⟩⟩ <;> simp at he
    all_goals first | (rw [← he.1] at hn; cases hn) | (rw [← he.2.1] at hn; cases hn) | (rw [← he.2.2.1] at hn; cases hn) |
      (rw [← he.2.2.2.1] at hn; cases hn) | (rw [← he.2.2.2.2.1] at hn; cases hn))).2.2
  exact absurd (this (.free 0, [.closed 0 5 .app]) (by decide) 0 5 .app (by decide)) (by decide)

end Verif.Props
