import Verif.Spec.XmlRpcReply
/-!
# C115: each XML-RPC message of a peer gets one reply
-/
namespace Verif.Props
open Verif.Model Verif.Spec

/-- C115: whatever the peer sends, no released memory and no null pointer is used; each message is given to one service at most, one that
accepts the resource with which the channel was started; it gets one reply at most, and exactly one when no service is left with a
deferred reply. -/
def C115_statement : Prop :=
  ∀ (sv : List SvService) (ops : List SvOp),
    let s := (SvState.run sv .init ops).1
    let l := (SvState.run sv .init ops).2
    s.bad = false ∧
    (∀ c, (svInvoked l c).length ≤ 1) ∧
    (∀ i c, .invoked i c ∈ l → ∃ r v, s.channel = some (some r) ∧ sv[i]? = some v ∧ v.validate (some r) = true) ∧
    (∀ c, (svReplies l c).length ≤ 1) ∧
    (s.held = [] → ∀ c, svReceived l c → (svReplies l c).length = 1)

theorem aux_sv_replies_append (a b : List SvEvent) (c : Nat) : svReplies (a ++ b) c = svReplies a c ++ svReplies b c := by
  simp [svReplies]

theorem aux_sv_invoked_append (a b : List SvEvent) (c : Nat) : svInvoked (a ++ b) c = svInvoked a c ++ svInvoked b c := by
  simp [svInvoked]

theorem aux_sv_replies_inv (inv : List (Nat × Option Nat)) (n m c : Nat) :
    svReplies (.received n (some m) :: inv.map fun p => .invoked p.1 n) c = [] := by
  simp only [svReplies, List.filterMap_cons]
  induction inv with
  | nil => rfl
  | cons a r ih => simp

theorem aux_sv_invoked_inv (inv : List (Nat × Option Nat)) (n m c : Nat) :
    svInvoked (.received n (some m) :: inv.map fun p => .invoked p.1 n) c = if n = c then inv.map (·.1) else [] := by
  simp only [svInvoked, List.filterMap_cons]
  induction inv with
  | nil => simp
  | cons a r ih =>
    by_cases h : n = c
    · simp [h] at ih ⊢; exact ih
    · simp [h] at ih ⊢

/-! ### in any case: at most one reply -/

structure AuxSv (s : SvState) (l : List SvEvent) : Prop where
  new : ∀ c, s.calls.length ≤ c → svReplies l c = []
  alive : ∀ c, s.calls[c]? = some true → svReplies l c = []
  once : ∀ c, (svReplies l c).length ≤ 1

theorem aux_sv_append_one (s : SvState) (l add : List SvEvent) (b : Bool) (h : List (Nat × Nat)) (hi : AuxSv s l)
    (hne : ∀ c, c ≠ s.calls.length → svReplies add c = []) (hb : b = true → svReplies add s.calls.length = [])
    (h1 : (svReplies add s.calls.length).length ≤ 1) :
    AuxSv ⟨s.channel, s.calls ++ [b], h, s.bad⟩ (l ++ add) := by
  refine ⟨?_, ?_, ?_⟩
  · intro c hc
    simp at hc
    rw [aux_sv_replies_append, hi.new c (by omega), hne c (by omega)]; rfl
  · intro c hc
    rw [aux_sv_replies_append]
    rcases Nat.lt_trichotomy c s.calls.length with q | q | q
    · simp only at hc
      rw [List.getElem?_append_left q] at hc
      rw [hi.alive c hc, hne c (by omega)]; rfl
    · subst q
      simp at hc
      rw [hi.new _ (Nat.le_refl _), hb hc]; rfl
    · simp only at hc
      rw [List.getElem?_eq_none (by simp; omega)] at hc; cases hc
  · intro c
    rw [aux_sv_replies_append]
    by_cases q : c = s.calls.length
    · rw [q, hi.new _ (Nat.le_refl _)]; simpa using h1
    · rw [hne c q, List.append_nil]; exact hi.once c

theorem aux_sv_step (sv : List SvService) (s : SvState) (l : List SvEvent) (op : SvOp) (hi : AuxSv s l) :
    AuxSv (s.step sv op).1 (l ++ (s.step sv op).2) := by
  have quietEv : ∀ add : List SvEvent, (∀ c, svReplies add c = []) → ∀ ch b h, AuxSv ⟨ch, s.calls, h, b⟩ (l ++ add) := by
    intro add ha ch b h
    refine ⟨?_, ?_, ?_⟩ <;> intro c
    · intro hc; rw [aux_sv_replies_append, hi.new c hc, ha]; rfl
    · intro hc; rw [aux_sv_replies_append, hi.alive c hc, ha]; rfl
    · rw [aux_sv_replies_append, ha, List.append_nil]; exact hi.once c
  by_cases hb : s.bad
  · simp only [SvState.step, hb, if_true]; simpa using hi
  · simp only [Bool.not_eq_true] at hb
    cases op with
    | start c =>
      cases hc : s.channel with
      | some r => simpa [SvState.step, hb, hc] using hi
      | none =>
        cases c with
        | absent => simpa [SvState.step, hb, hc] using quietEv [] (by simp [svReplies]) none true s.held
        | wrong =>
          have e : s.step sv (.start .wrong) = (s, [.refused]) := by simp [SvState.step, hb, hc]
          rw [e]
          exact quietEv [.refused] (by simp [svReplies]) s.channel s.bad s.held
        | boot r =>
          simp only [SvState.step, hb, hc, Bool.false_eq_true, if_false]
          split
          · simpa [hb] using quietEv [.created true] (by simp [svReplies]) (some (some r)) s.bad s.held
          · simpa [hb] using quietEv [.created false] (by simp [svReplies]) (some none) s.bad s.held
    | call m =>
      cases hc : s.channel with
      | none => simpa [SvState.step, hb, hc] using hi
      | some res =>
        cases m with
        | none =>
          have := aux_sv_append_one s l [.received s.calls.length none] false s.held hi (by simp [svReplies]) (by simp) (by simp [svReplies])
          simpa [SvState.step, hb, hc] using this
        | some m =>
          simp only [SvState.step, hb, hc, Bool.false_eq_true, if_false]
          cases hf : (svLoop res m 0 sv).findSome? fun p => p.2 with
          | some x =>
            have := aux_sv_append_one s l ((.received s.calls.length (some m) :: (svLoop res m 0 sv).map fun p => .invoked p.1 s.calls.length) ++
              [.replied s.calls.length x]) false (s.held ++ ((svLoop res m 0 sv).filter fun p => p.2.isNone).map fun p => (p.1, s.calls.length)) hi
              (by
                intro c hc
                rw [aux_sv_replies_append, aux_sv_replies_inv]
                simp only [svReplies, List.filterMap_cons, List.filterMap_nil, if_neg (Ne.symm hc)]; rfl)
              (by simp)
              (by
                rw [aux_sv_replies_append, aux_sv_replies_inv]
                simp [svReplies])
            simpa [hb, hc] using this
          | none =>
            have := aux_sv_append_one s l (.received s.calls.length (some m) :: (svLoop res m 0 sv).map fun p => .invoked p.1 s.calls.length)
              true (s.held ++ ((svLoop res m 0 sv).filter fun p => p.2.isNone).map fun p => (p.1, s.calls.length)) hi
              (by intro c _; exact aux_sv_replies_inv _ _ _ _) (by intro _; exact aux_sv_replies_inv _ _ _ _)
              (by rw [aux_sv_replies_inv]; simp)
            simpa [hb, hc] using this
    | notify i c x =>
      simp only [SvState.step, hb, Bool.false_eq_true, if_false]
      split
      · cases hc : s.calls[c]? with
        | none => simpa using quietEv [] (by simp [svReplies]) s.channel true s.held
        | some b =>
          cases b with
          | false => simpa using quietEv [] (by simp [svReplies]) s.channel true s.held
          | true =>
            have tn : ∀ d, svReplies (l ++ [.replied c x]) d = svReplies l d ++ if c = d then [x] else [] := by
              intro d; rw [aux_sv_replies_append]; congr 1
              by_cases q : c = d <;> simp [svReplies, q]
            refine ⟨?_, ?_, ?_⟩ <;> intro d
            · intro hd
              simp at hd
              have : c < s.calls.length := by
                rcases Nat.lt_or_ge c s.calls.length with q | q
                · exact q
                · rw [List.getElem?_eq_none q] at hc; cases hc
              rw [tn, if_neg (by omega), hi.new d hd]; rfl
            · intro hd
              by_cases q : c = d
              · subst q
                simp only [List.getElem?_set] at hd
                simp at hd
              · simp only [List.getElem?_set_ne q] at hd
                rw [tn, if_neg q, hi.alive d hd]; rfl
            · rw [tn]
              by_cases q : c = d
              · rw [← q, if_pos rfl, hi.alive c hc]; simp
              · rw [if_neg q, List.append_nil]; exact hi.once d
      · simpa using hi

theorem aux_sv_run (sv : List SvService) (s : SvState) (l : List SvEvent) (ops : List SvOp) (hi : AuxSv s l) :
    AuxSv (SvState.run sv s ops).1 (l ++ (SvState.run sv s ops).2) := by
  induction ops generalizing s l with
  | nil => simpa [SvState.run] using hi
  | cons op r ih =>
    have := ih _ _ (aux_sv_step sv s l op hi)
    simpa [SvState.run] using this

/-- Whatever happens, no message gets two replies. -/
theorem C115_reply_once (sv : List SvService) (ops : List SvOp) (c : Nat) : (svReplies (SvState.run sv .init ops).2 c).length ≤ 1 := by
  have := (aux_sv_run sv .init [] ops ⟨fun _ _ => rfl, by simp [SvState.init], by simp [svReplies]⟩).once c
  simpa using this

/-! ### when the first service accepts -/

structure AuxSvGood (v : SvService) (s : SvState) (l : List SvEvent) : Prop where
  bad : s.bad = false
  chan : ∀ x, s.channel = some x → ∃ r, x = some r ∧ v.validate (some r) = true
  some0 : ∀ i c, .invoked i c ∈ l → i = 0 ∧ ∃ x, s.channel = some x
  newI : ∀ c, s.calls.length ≤ c → svInvoked l c = [] ∧ ¬ svReceived l c
  one : ∀ c, (svInvoked l c).length ≤ 1
  held : ∀ i c, (i, c) ∈ s.held ↔ i = 0 ∧ s.calls[c]? = some true
  nodup : s.held.Nodup
  done : ∀ c, c < s.calls.length → s.calls[c]? = some false → svReplies l c ≠ []

theorem aux_sv_good_step (v : SvService) (rest : List SvService) (s : SvState) (l : List SvEvent) (op : SvOp) (hi : AuxSvGood v s l)
    (h1 : op ≠ .start .absent) (h2 : op ≠ .call none) (h3 : ∀ r, op = .start (.boot r) → v.validate (some r) = true) :
    AuxSvGood v (s.step (v :: rest) op).1 (l ++ (s.step (v :: rest) op).2) := by
  have hb := hi.bad
  have same : s.step (v :: rest) op = (s, []) → AuxSvGood v (s.step (v :: rest) op).1 (l ++ (s.step (v :: rest) op).2) := by
    intro e; rw [e, List.append_nil]; exact hi
  cases op with
  | start c =>
    cases hc : s.channel with
    | some r => apply same; simp [SvState.step, hb, hc]
    | none =>
      cases c with
      | absent => exact absurd rfl h1
      | wrong =>
        have e : s.step (v :: rest) (.start .wrong) = (s, [.refused]) := by simp [SvState.step, hb, hc]
        rw [e]
        refine ⟨hb, hi.chan, ?_, ?_, ?_, hi.held, hi.nodup, ?_⟩
        · intro i c h; simp at h; exact hi.some0 i c h
        · intro c h
          refine ⟨by rw [aux_sv_invoked_append, (hi.newI c h).1]; rfl, ?_⟩
          rintro ⟨m, hm⟩; simp at hm; exact (hi.newI c h).2 ⟨m, hm⟩
        · intro c; rw [aux_sv_invoked_append]; simpa [svInvoked] using hi.one c
        · intro c h h'; rw [aux_sv_replies_append]; intro q; exact hi.done c h h' (List.append_eq_nil_iff.1 q).1
      | boot r =>
        have e : s.step (v :: rest) (.start (.boot r)) = ({ s with channel := some (some r) }, [.created true]) := by
          simp [SvState.step, hb, hc, h3 r rfl]
        rw [e]
        refine ⟨hb, ?_, ?_, ?_, ?_, hi.held, hi.nodup, ?_⟩
        · intro x hx; exact ⟨r, (Option.some.inj hx).symm, h3 r rfl⟩
        · intro i c h; simp at h; exact ⟨(hi.some0 i c h).1, _, rfl⟩
        · intro c h
          refine ⟨by rw [aux_sv_invoked_append, (hi.newI c h).1]; rfl, ?_⟩
          rintro ⟨m, hm⟩; simp at hm; exact (hi.newI c h).2 ⟨m, hm⟩
        · intro c; rw [aux_sv_invoked_append]; simpa [svInvoked] using hi.one c
        · intro c h h'; rw [aux_sv_replies_append]; intro q; exact hi.done c h h' (List.append_eq_nil_iff.1 q).1
  | call m =>
    cases m with
    | none => exact absurd rfl h2
    | some m =>
      cases hc : s.channel with
      | none => apply same; simp [SvState.step, hb, hc]
      | some res =>
        obtain ⟨r, hr, hv⟩ := hi.chan res hc
        have hl : svLoop res m 0 (v :: rest) = [(0, v.dispatch m)] := by simp [svLoop, hr, hv]
        cases hd : v.dispatch m with
        | some x =>
          have e : s.step (v :: rest) (.call (some m)) = ({ s with calls := s.calls ++ [false] },
              [.received s.calls.length (some m), .invoked 0 s.calls.length, .replied s.calls.length x]) := by
            simp [SvState.step, hb, hc, hl, hd]
          rw [e]
          refine ⟨hb, hi.chan, ?_, ?_, ?_, ?_, hi.nodup, ?_⟩
          · intro i c h
            simp at h
            rcases h with h | h
            · exact hi.some0 i c h
            · exact ⟨h.1, res, hc⟩
          · intro c h
            simp at h
            refine ⟨?_, ?_⟩
            · rw [aux_sv_invoked_append, (hi.newI c (by omega)).1]
              simp [svInvoked]; omega
            · rintro ⟨m', hm⟩
              simp at hm
              rcases hm with hm | hm
              · exact (hi.newI c (by omega)).2 ⟨m', hm⟩
              · omega
          · intro c
            rw [aux_sv_invoked_append]
            by_cases q : s.calls.length = c
            · rw [(hi.newI c (by omega)).1]; simp [svInvoked, q]
            · simpa [svInvoked, q] using hi.one c
          · intro i c
            rw [hi.held]
            rcases Nat.lt_trichotomy c s.calls.length with q | q | q
            · simp only [List.getElem?_append_left q]
            · subst q; simp
            · simp only [List.getElem?_eq_none (show s.calls.length ≤ c by omega), List.getElem?_eq_none (show (s.calls ++ [false]).length ≤ c by simp; omega)]
          · intro c h h'
            rw [aux_sv_replies_append]
            simp at h
            by_cases q : c = s.calls.length
            · subst q; simp [svReplies]
            · simp only [List.getElem?_append_left (show c < s.calls.length by omega)] at h'
              intro z; exact hi.done c (by omega) h' (List.append_eq_nil_iff.1 z).1
        | none =>
          have e : s.step (v :: rest) (.call (some m)) = ({ s with calls := s.calls ++ [true], held := s.held ++ [(0, s.calls.length)] },
              [.received s.calls.length (some m), .invoked 0 s.calls.length]) := by
            simp [SvState.step, hb, hc, hl, hd]
          rw [e]
          refine ⟨hb, hi.chan, ?_, ?_, ?_, ?_, ?_, ?_⟩
          · intro i c h
            simp at h
            rcases h with h | h
            · exact hi.some0 i c h
            · exact ⟨h.1, res, hc⟩
          · intro c h
            simp at h
            refine ⟨?_, ?_⟩
            · rw [aux_sv_invoked_append, (hi.newI c (by omega)).1]
              simp [svInvoked]; omega
            · rintro ⟨m', hm⟩
              simp at hm
              rcases hm with hm | hm
              · exact (hi.newI c (by omega)).2 ⟨m', hm⟩
              · omega
          · intro c
            rw [aux_sv_invoked_append]
            by_cases q : s.calls.length = c
            · rw [(hi.newI c (by omega)).1]; simp [svInvoked, q]
            · simpa [svInvoked, q] using hi.one c
          · intro i c
            simp only [List.mem_append, List.mem_singleton, Prod.mk.injEq, hi.held]
            rcases Nat.lt_trichotomy c s.calls.length with q | q | q
            · simp only [List.getElem?_append_left q]
              constructor
              · rintro (h | h)
                · exact h
                · omega
              · exact .inl
            · subst q; simp
            · simp only [List.getElem?_eq_none (show s.calls.length ≤ c by omega), List.getElem?_eq_none (show (s.calls ++ [true]).length ≤ c by simp; omega)]
              constructor
              · rintro (h | h)
                · exact h
                · omega
              · exact .inl
          · refine List.nodup_append.2 ⟨hi.nodup, by simp, ?_⟩
            intro a ha b hb' e
            simp at hb'
            subst e; subst hb'
            have := ((hi.held _ _).1 ha).2
            rw [List.getElem?_eq_none (Nat.le_refl _)] at this
            cases this
          · intro c h h'
            rw [aux_sv_replies_append]
            simp at h
            by_cases q : c = s.calls.length
            · subst q; simp at h'
            · simp only [List.getElem?_append_left (show c < s.calls.length by omega)] at h'
              intro z; exact hi.done c (by omega) h' (List.append_eq_nil_iff.1 z).1
  | notify i c x =>
    by_cases hm : (i, c) ∈ s.held
    · have hh := (hi.held i c).1 hm
      have e : s.step (v :: rest) (.notify i c x) = ({ s with calls := s.calls.set c false, held := s.held.erase (i, c) }, [.replied c x]) := by
        simp [SvState.step, hb, hm, hh.2]
      rw [e]
      have hlt : c < s.calls.length := by
        rcases Nat.lt_or_ge c s.calls.length with q | q
        · exact q
        · rw [List.getElem?_eq_none q] at hh; cases hh.2
      refine ⟨hb, hi.chan, ?_, ?_, ?_, ?_, hi.nodup.erase _, ?_⟩
      · intro j d h; simp at h; exact hi.some0 j d h
      · intro d h
        simp at h
        refine ⟨by rw [aux_sv_invoked_append, (hi.newI d h).1]; rfl, ?_⟩
        rintro ⟨m, hm⟩; simp at hm; exact (hi.newI d h).2 ⟨m, hm⟩
      · intro d; rw [aux_sv_invoked_append]; simpa [svInvoked] using hi.one d
      · intro j d
        rw [hi.nodup.mem_erase_iff, hi.held]
        by_cases q : c = d
        · subst q
          simp only [List.getElem?_set_self hlt, ne_eq, Prod.mk.injEq, and_true]
          constructor
          · rintro ⟨n, z, _⟩; exact absurd (z.trans hh.1.symm) n
          · rintro ⟨_, z⟩; cases z
        · simp only [List.getElem?_set_ne q, ne_eq, Prod.mk.injEq]
          constructor
          · exact fun z => z.2
          · exact fun z => ⟨fun w => q w.2.symm, z⟩
      · intro d h h'
        simp at h
        rw [aux_sv_replies_append]
        by_cases q : c = d
        · subst q; simp [svReplies]
        · simp only [List.getElem?_set_ne q] at h'
          intro z; exact hi.done d h h' (List.append_eq_nil_iff.1 z).1
    · apply same; simp [SvState.step, hb, hm]

theorem aux_sv_good (v : SvService) (rest : List SvService) (ops : List SvOp) (s : SvState) (l : List SvEvent) (hi : AuxSvGood v s l)
    (hw : svWellFormed ops) (hv : ∀ r, .start (.boot r) ∈ ops → v.validate (some r) = true) :
    AuxSvGood v (SvState.run (v :: rest) s ops).1 (l ++ (SvState.run (v :: rest) s ops).2) := by
  induction ops generalizing s l with
  | nil => simpa [SvState.run] using hi
  | cons op r ih =>
    have := ih _ _ (aux_sv_good_step v rest s l op hi (fun e => hw.1 (by simp [e])) (fun e => hw.2 (by simp [e])) (fun r e => hv r (by simp [e])))
      ⟨fun h => hw.1 (List.mem_cons_of_mem _ h), fun h => hw.2 (List.mem_cons_of_mem _ h)⟩ (fun r h => hv r (List.mem_cons_of_mem _ h))
    simpa [SvState.run] using this

theorem aux_sv_good_init (v : SvService) : AuxSvGood v .init [] :=
  ⟨rfl, by simp [SvState.init], by simp, by simp [svInvoked, svReceived], by simp [svInvoked], by simp [SvState.init], by simp [SvState.init],
    by simp [SvState.init]⟩

/-- If the first service accepts the resources of the channels, and peers send a content with the start and only method calls, no
released memory is used and each message is given to one service at most, which accepts the resource of the channel. Missing: resources accepted by
another service or by none; other contents. -/
theorem C115_service_partial (sv : List SvService) (ops : List SvOp) (hw : svWellFormed ops) (hf : svFirstAccepts sv ops) :
    let s := (SvState.run sv .init ops).1
    let l := (SvState.run sv .init ops).2
    s.bad = false ∧ (∀ c, (svInvoked l c).length ≤ 1) ∧
    (∀ i c, .invoked i c ∈ l → ∃ r v, s.channel = some (some r) ∧ sv[i]? = some v ∧ v.validate (some r) = true) := by
  obtain ⟨v, rest, rfl, hv⟩ := hf
  have hi := aux_sv_good v rest ops .init [] (aux_sv_good_init v) hw hv
  rw [List.nil_append] at hi
  refine ⟨hi.bad, hi.one, ?_⟩
  intro i c h
  obtain ⟨h0, x, hx⟩ := hi.some0 i c h
  obtain ⟨r, hr, hv'⟩ := hi.chan x hx
  subst hr h0
  exact ⟨r, v, hx, rfl, hv'⟩

/-- Then each message gets exactly one reply when no service is left with a deferred one. -/
theorem C115_reply_partial (sv : List SvService) (ops : List SvOp) (hw : svWellFormed ops) (hf : svFirstAccepts sv ops)
    (hh : (SvState.run sv .init ops).1.held = []) (c : Nat) (hc : svReceived (SvState.run sv .init ops).2 c) :
    (svReplies (SvState.run sv .init ops).2 c).length = 1 := by
  have once := C115_reply_once sv ops c
  obtain ⟨v, rest, rfl, hv⟩ := hf
  have hi := aux_sv_good v rest ops .init [] (aux_sv_good_init v) hw hv
  rw [List.nil_append] at hi
  generalize (SvState.run (v :: rest) .init ops).1 = s at *
  generalize (SvState.run (v :: rest) .init ops).2 = l at *
  have hlt : c < s.calls.length := by
    rcases Nat.lt_or_ge c s.calls.length with q | q
    · exact q
    · exact absurd hc (hi.newI c q).2
  have hf : s.calls[c]? = some false := by
    cases hb : s.calls[c]? with
    | none => rw [List.getElem?_eq_getElem hlt] at hb; cases hb
    | some b =>
      cases b with
      | false => rfl
      | true =>
        have := (hi.held 0 c).2 ⟨rfl, hb⟩
        rw [hh] at this; cases this
  have := hi.done c hlt hf
  match hr : svReplies l c with
  | [] => exact absurd hr this
  | [_] => rfl
  | _ :: _ :: _ => rw [hr] at once; simp at once

/-- A start message with a resource creates the channel in any case; the content of the reply is positive exactly if some service accepts it. -/
theorem C115_started (sv : List SvService) (r : Nat) :
    ∃ ok, (SvState.run sv .init [.start (.boot r)]).2 = [.created ok] ∧ (ok = true ↔ ∃ v, v ∈ sv ∧ v.validate (some r) = true) := by
  by_cases h : sv.any (fun v => v.validate (some r)) = true
  · exact ⟨true, by simp [SvState.run, SvState.step, SvState.init, h], by simpa using h⟩
  · exact ⟨false, by simp [SvState.run, SvState.step, SvState.init, h], by simpa using h⟩

/-! ### the faults -/

/-- The peer whose resource is refused by the only service can call it: the channel is created, and the service gets all calls. -/
theorem C115_refused_served (v : SvService) (r m : Nat) (hr : v.validate (some r) = false) :
    .invoked 0 0 ∈ (SvState.run [v] .init [.start (.boot r), .call (some m)]).2 ∧
    (∀ x, v.dispatch m = some x → svReplies (SvState.run [v] .init [.start (.boot r), .call (some m)]).2 0 = [x]) := by
  have hl : svLoop none m 0 [v] = [(0, v.dispatch m)] := by
    simp only [svLoop]
    split
    · rfl
    · cases v.dispatch m <;> rfl
  cases hd : v.dispatch m with
  | none =>
    refine ⟨?_, by intro x hx; cases hx⟩
    simp [SvState.run, SvState.step, SvState.init, hr, hl, hd]
  | some y =>
    refine ⟨?_, ?_⟩
    · simp [SvState.run, SvState.step, SvState.init, hr, hl, hd]
    · intro x hx
      cases hx
      simp [SvState.run, SvState.step, SvState.init, hr, hl, hd, svReplies]

/-- A service that defers the reply to a call of a resource of another one: both get the call, and the reply of the first one uses
the call the other one answered. -/
theorem C115_deferred_twice (a b : SvService) (r m x y : Nat) (ha : a.validate (some r) = false) (hb : b.validate (some r) = true)
    (hd : a.dispatch m = none) (he : b.dispatch m = some x) :
    let p := SvState.run [a, b] .init [.start (.boot r), .call (some m), .notify 0 0 y]
    svInvoked p.2 0 = [0, 1] ∧ p.1.bad = true := by
  simp [SvState.run, SvState.step, SvState.init, svLoop, ha, hb, hd, he, svInvoked]

/-- A start message without content stops the listener. -/
theorem C115_no_content (sv : List SvService) : (SvState.run sv .init [.start .absent]).1.bad = true := by
  simp [SvState.run, SvState.step, SvState.init]

/-- A message that is no method call never gets a reply. -/
theorem C115_no_reply (sv : List SvService) (r : Nat) :
    let p := SvState.run sv .init [.start (.boot r), .call none]
    svReceived p.2 0 ∧ p.1.held = [] ∧ svReplies p.2 0 = [] := by
  by_cases h : sv.any (fun v => v.validate (some r)) = true
  · simp [SvState.run, SvState.step, SvState.init, h, svReplies, svReceived]
  · simp [SvState.run, SvState.step, SvState.init, h, svReplies, svReceived]

theorem C115_statement_false : ¬ C115_statement := by
  intro h
  have := (h [] [.start .absent]).1
  rw [C115_no_content] at this
  cases this

/-- Two services, the first of which accepts resource 1, and defers even calls. -/
def svSampleServices : List SvService :=
  [⟨fun r => decide (r = some 1), fun m => if m % 2 = 1 then some (m + 1) else none⟩, ⟨fun _ => true, fun m => some m⟩]

def svSampleOps : List SvOp := [.start (.boot 1), .call (some 7), .call (some 8), .call (some 10), .notify 0 2 3, .notify 0 1 4]

example : svFirstAccepts svSampleServices svSampleOps :=
  ⟨_, _, rfl, by intro r h; simp [svSampleOps] at h; subst h; rfl⟩

example : svWellFormed svSampleOps := by unfold svWellFormed; decide

example : (SvState.run svSampleServices .init svSampleOps).1.held = [] ∧
    svReplies (SvState.run svSampleServices .init svSampleOps).2 0 = [8] ∧
    svReplies (SvState.run svSampleServices .init svSampleOps).2 1 = [4] ∧
    svReplies (SvState.run svSampleServices .init svSampleOps).2 2 = [3] := by decide +kernel

end Verif.Props
