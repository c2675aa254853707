import Verif.Spec.XmlRpcInvoke
/-!
# C114: each XML-RPC invocation is answered once, with its own answer
-/
namespace Verif.Props
open Verif.Model Verif.Spec

/-- C114: no released memory is used, each invocation is told at most one result, an answer being the reply of the peer to it; when nothing is
going on each invocation was told exactly one, and its method call was released; and the call returns true exactly if the invocation was
accepted. -/
def C114_statement : Prop :=
  ∀ ops : List XiOp,
    let s := (XiState.init.run ops).1
    let l := (XiState.init.run ops).2
    s.bad = false ∧
    (∀ c, (xiTolds l c).length ≤ 1) ∧
    (∀ c p, .answer p ∈ xiTolds l c → .replied c p ∈ l) ∧
    (xiQuiet s → ∀ c, xiMade l c → (xiTolds l c).length = 1 ∧ .released c ∈ l) ∧
    (∀ c r, .returned c r ∈ l → (r = true ↔ xiAccepted l c))

theorem aux_xi_tolds_append (a b : List XiEvent) (c : Nat) : xiTolds (a ++ b) c = xiTolds a c ++ xiTolds b c := by
  simp [xiTolds]

structure AuxXiOver (s : XiState) (l : List XiEvent) (n : Nat) : Prop where
  told : ∀ c, c < n → (xiTolds l c).length = 1
  over : ∀ c, c < n → s.calls[c]? = some ⟨.over, false⟩

inductive AuxXiStage (s : XiState) (l : List XiEvent) (k : Nat) : Prop
  | queued (h : s.calls[k]? = some ⟨.queued, true⟩) (o : s.outstanding = []) (a : s.arrived = [])
  | installed (h : s.calls[k]? = some ⟨.installed, true⟩) (d : s.handler = .data k) (o : s.outstanding = []) (a : s.arrived = [])
  | waiting (h : s.calls[k]? = some ⟨.over, true⟩) (d : s.handler = .data k) (o : s.outstanding = [k]) (a : s.arrived = []) (r : .released k ∈ l)
  | came (p : Nat) (h : s.calls[k]? = some ⟨.over, true⟩) (d : s.handler = .data k) (o : s.outstanding = []) (a : s.arrived = [p])
      (q : .replied k p ∈ l) (r : .released k ∈ l)

inductive AuxXiMode (s : XiState) (l : List XiEvent) : Prop
  | idle (h : AuxXiOver s l s.calls.length) (o : s.outstanding = []) (a : s.arrived = [])
  | active (k : Nat) (len : s.calls.length = k + 1) (h : AuxXiOver s l k) (t : xiTolds l k = []) (st : AuxXiStage s l k)

structure AuxXi (s : XiState) (l : List XiEvent) : Prop where
  bad : s.bad = false
  new : ∀ c, s.calls.length ≤ c → xiTolds l c = []
  ret : ∀ c, c < s.calls.length → .returned c false ∈ l
  made : ∀ c r, .returned c r ∈ l → c < s.calls.length ∧ r = false
  own : ∀ c p, .answer p ∈ xiTolds l c → .replied c p ∈ l
  rel : ∀ c r, r ∈ xiTolds l c → r = .notReady ∨ .released c ∈ l
  nw : ∀ c, .waitingPrevious ∉ xiTolds l c
  mode : AuxXiMode s l

theorem aux_xi_step (s : XiState) (l : List XiEvent) (op : XiOp) (hi : AuxXi s l) (hc : xiCareful l op = true) :
    AuxXi (s.step op).1 (l ++ (s.step op).2) := by
  have same : s.step op = (s, []) → AuxXi (s.step op).1 (l ++ (s.step op).2) := by
    intro e; rw [e, List.append_nil]; exact hi
  cases op with
  | message p => simp [xiCareful] at hc
  | invoke ready =>
    -- all that was invoked was told: idle
    have idle : AuxXiOver s l s.calls.length ∧ s.outstanding = [] ∧ s.arrived = [] := by
      cases hi.mode with
      | idle h o a => exact ⟨h, o, a⟩
      | active k len h t st =>
        exfalso
        simp only [xiCareful, List.all_eq_true] at hc
        have := hc _ (hi.ret k (by omega))
        simp [t] at this
    obtain ⟨hv, ho, ha⟩ := idle
    have lt : ∀ c, c < s.calls.length → s.calls.length ≠ c := by intro c h e; omega
    cases ready with
    | false =>
      have e : s.step (.invoke false) = ({ s with calls := s.calls ++ [⟨.over, false⟩] },
          [.told s.calls.length .notReady, .returned s.calls.length false]) := by
        simp [XiState.step, hi.bad]
      rw [e]
      have tn : ∀ c, xiTolds (l ++ [.told s.calls.length .notReady, .returned s.calls.length false]) c =
          xiTolds l c ++ if s.calls.length = c then [.notReady] else [] := by
        intro c
        rw [aux_xi_tolds_append]
        congr 1
        by_cases h : s.calls.length = c <;> simp [xiTolds, h]
      refine ⟨hi.bad, ?_, ?_, ?_, ?_, ?_, (by intro c hd; rw [tn] at hd; rcases List.mem_append.1 hd with hd | hd; exact hi.nw c hd; split at hd <;> simp at hd), .idle ⟨?_, ?_⟩ ho ha⟩
      · intro c h
        simp at h
        rw [tn, if_neg (by omega), hi.new c (by omega)]; rfl
      · intro c h
        simp at h
        by_cases q : c = s.calls.length
        · subst q; simp
        · exact List.mem_append_left _ (hi.ret c (by omega))
      · intro c r h
        simp at h
        rcases h with h | h
        · have := hi.made c r h; simp; exact ⟨by omega, this.2⟩
        · simp; exact ⟨by omega, h.2⟩
      · intro c p h
        rw [tn] at h
        split at h
        · simp at h; exact List.mem_append_left _ (hi.own c p h)
        · simp at h; exact List.mem_append_left _ (hi.own c p h)
      · intro c r h
        rw [tn] at h
        rcases List.mem_append.1 h with h | h
        · rcases hi.rel c r h with q | q
          · exact .inl q
          · exact .inr (List.mem_append_left _ q)
        · split at h
          · simp at h; exact .inl h
          · simp at h
      · intro c h
        simp at h
        rw [tn]
        by_cases q : s.calls.length = c
        · rw [if_pos q, hi.new c (by omega)]; rfl
        · rw [if_neg q, List.append_nil]; exact hv.told c (by omega)
      · intro c h
        simp at h
        by_cases q : c = s.calls.length
        · subst q; simp
        · simp only
          rw [List.getElem?_append_left (by omega)]; exact hv.over c (by omega)
    | true =>
      have e : s.step (.invoke true) = ({ s with calls := s.calls ++ [⟨.queued, true⟩] }, [.returned s.calls.length false]) := by
        simp [XiState.step, hi.bad, ho]
      rw [e]
      have tn : ∀ c, xiTolds (l ++ [.returned s.calls.length false]) c = xiTolds l c := by
        intro c; rw [aux_xi_tolds_append]; simp [xiTolds]
      refine ⟨hi.bad, ?_, ?_, ?_, ?_, ?_, (by intro c; rw [tn]; exact hi.nw c), .active s.calls.length (by simp) ⟨?_, ?_⟩ ?_ (.queued (by simp) ho ha)⟩
      · intro c h
        simp at h
        rw [tn, hi.new c (by omega)]
      · intro c h
        simp at h
        by_cases q : c = s.calls.length
        · subst q; simp
        · exact List.mem_append_left _ (hi.ret c (by omega))
      · intro c r h
        simp at h
        rcases h with h | h
        · have := hi.made c r h; simp; exact ⟨by omega, this.2⟩
        · simp; exact ⟨by omega, h.2⟩
      · intro c p h
        rw [tn] at h
        exact List.mem_append_left _ (hi.own c p h)
      · intro c r h
        rw [tn] at h
        rcases hi.rel c r h with q | q
        · exact .inl q
        · exact .inr (List.mem_append_left _ q)
      · intro c h
        rw [tn]; exact hv.told c h
      · intro c h
        simp only
        rw [List.getElem?_append_left h]; exact hv.over c h
      · rw [tn]; exact hi.new _ (Nat.le_refl _)
  | task c =>
    cases hi.mode with
    | idle h o a =>
      apply same
      rcases Nat.lt_or_ge c s.calls.length with q | q
      · simp [XiState.step, hi.bad, h.over c q]
      · simp [XiState.step, hi.bad, List.getElem?_eq_none q]
    | active k len h t st =>
      rcases Nat.lt_trichotomy c k with q | q | q
      · apply same; simp [XiState.step, hi.bad, h.over c q]
      · subst q
        cases st with
        | queued hk o a =>
          have e : s.step (.task c) = ({ s with calls := s.calls.set c ⟨.installed, true⟩, handler := .data c }, []) := by
            simp [XiState.step, hi.bad, hk]
          rw [e, List.append_nil]
          refine ⟨hi.bad, by simpa using hi.new, by simpa using hi.ret, by simpa using hi.made, hi.own, hi.rel, hi.nw,
            .active c (by simpa using len) ⟨h.told, ?_⟩ t (.installed ?_ rfl o a)⟩
          · intro d hd
            simp only
            rw [List.getElem?_set_ne (by omega)]; exact h.over d hd
          · simp [len]
        | installed hk _ _ _ => apply same; simp [XiState.step, hi.bad, hk]
        | waiting hk _ _ _ _ => apply same; simp [XiState.step, hi.bad, hk]
        | came p hk _ _ _ _ _ => apply same; simp [XiState.step, hi.bad, hk]
      · apply same; simp [XiState.step, hi.bad, List.getElem?_eq_none (show s.calls.length ≤ c by omega)]
  | send c ok =>
    cases hi.mode with
    | idle h o a =>
      apply same
      rcases Nat.lt_or_ge c s.calls.length with q | q
      · simp [XiState.step, hi.bad, h.over c q]
      · simp [XiState.step, hi.bad, List.getElem?_eq_none q]
    | active k len h t st =>
      rcases Nat.lt_trichotomy c k with q | q | q
      · apply same; simp [XiState.step, hi.bad, h.over c q]
      · subst q
        cases st with
        | queued hk o a => apply same; simp [XiState.step, hi.bad, hk]
        | installed hk d o a =>
          cases ok with
          | true =>
            have e : s.step (.send c true) = ({ s with calls := s.calls.set c ⟨.over, true⟩, outstanding := s.outstanding ++ [c] }, [.released c]) := by
              simp [XiState.step, hi.bad, hk]
            rw [e]
            have tn : ∀ d, xiTolds (l ++ [.released c]) d = xiTolds l d := by
              intro d; rw [aux_xi_tolds_append]; simp [xiTolds]
            refine ⟨hi.bad, ?_, ?_, ?_, ?_, ?_, (by intro c; rw [tn]; exact hi.nw c),
              .active c (by simpa using len) ⟨?_, ?_⟩ (by rw [tn]; exact t) (.waiting ?_ d (by simp [o]) a (by simp))⟩
            · intro d hd; rw [tn]; exact hi.new d (by simpa using hd)
            · intro d hd; exact List.mem_append_left _ (hi.ret d (by simpa using hd))
            · intro d r hd; simp at hd; simpa using hi.made d r hd
            · intro d p hd; rw [tn] at hd; exact List.mem_append_left _ (hi.own d p hd)
            · intro d r hd
              rw [tn] at hd
              rcases hi.rel d r hd with q | q
              · exact .inl q
              · exact .inr (List.mem_append_left _ q)
            · intro d hd; rw [tn]; exact h.told d hd
            · intro d hd
              simp only
              rw [List.getElem?_set_ne (by omega)]; exact h.over d hd
            · simp [len]
          | false =>
            have e : s.step (.send c false) =
                ({ s with calls := s.calls.set c ⟨.over, false⟩, handler := .null, bad := false }, [.told c .notSent, .released c]) := by
              simp [XiState.step, hi.bad, hk]
            rw [e]
            have tn : ∀ d, xiTolds (l ++ [.told c .notSent, .released c]) d = xiTolds l d ++ if c = d then [.notSent] else [] := by
              intro d; rw [aux_xi_tolds_append]
              congr 1
              by_cases q : c = d <;> simp [xiTolds, q]
            refine ⟨rfl, ?_, ?_, ?_, ?_, ?_, (by intro c hd; rw [tn] at hd; rcases List.mem_append.1 hd with hd | hd; exact hi.nw c hd; split at hd <;> simp at hd), .idle ⟨?_, ?_⟩ o a⟩
            · intro d hd
              simp at hd
              rw [tn, if_neg (by omega), hi.new d hd]; rfl
            · intro d hd; exact List.mem_append_left _ (hi.ret d (by simpa using hd))
            · intro d r hd; simp at hd; simpa using hi.made d r hd
            · intro d p hd
              rw [tn] at hd
              split at hd <;> simp at hd <;> exact List.mem_append_left _ (hi.own d p hd)
            · intro d r hd
              rw [tn] at hd
              rcases List.mem_append.1 hd with hd | hd
              · rcases hi.rel d r hd with q | q
                · exact .inl q
                · exact .inr (List.mem_append_left _ q)
              · split at hd
                · rename_i q; subst q; exact .inr (by simp)
                · simp at hd
            · intro d hd
              simp [len] at hd
              rw [tn]
              by_cases q : c = d
              · subst q; rw [if_pos rfl, t]; rfl
              · rw [if_neg q, List.append_nil]; exact h.told d (by omega)
            · intro d hd
              simp [len] at hd
              by_cases q : c = d
              · subst q; simp [len]
              · simp only
                rw [List.getElem?_set_ne q]; exact h.over d (by omega)
        | waiting hk _ _ _ _ => apply same; simp [XiState.step, hi.bad, hk]
        | came p hk _ _ _ _ _ => apply same; simp [XiState.step, hi.bad, hk]
      · apply same; simp [XiState.step, hi.bad, List.getElem?_eq_none (show s.calls.length ≤ c by omega)]
  | reply p =>
    have no : s.outstanding = [] → AuxXi (s.step (.reply p)).1 (l ++ (s.step (.reply p)).2) := by
      intro o; apply same; simp [XiState.step, hi.bad, o]
    cases hi.mode with
    | idle h o a => exact no o
    | active k len h t st =>
      cases st with
      | queued _ o _ => exact no o
      | installed _ _ o _ => exact no o
      | came _ _ _ o _ _ _ => exact no o
      | waiting hk d o a r =>
        have e : s.step (.reply p) = ({ s with outstanding := [], arrived := s.arrived ++ [p] }, [.replied k p]) := by
          simp [XiState.step, hi.bad, o]
        rw [e]
        have tn : ∀ d, xiTolds (l ++ [.replied k p]) d = xiTolds l d := by
          intro d; rw [aux_xi_tolds_append]; simp [xiTolds]
        refine ⟨hi.bad, ?_, ?_, ?_, ?_, ?_, (by intro c; rw [tn]; exact hi.nw c),
          .active k len ⟨?_, h.over⟩ (by rw [tn]; exact t)
          (.came p hk d rfl (by simp [a]) (by simp) (List.mem_append_left _ r))⟩
        · intro d hd; rw [tn]; exact hi.new d hd
        · intro d hd; exact List.mem_append_left _ (hi.ret d hd)
        · intro d r hd; simp at hd; exact hi.made d r hd
        · intro d p hd; rw [tn] at hd; exact List.mem_append_left _ (hi.own d p hd)
        · intro d r hd
          rw [tn] at hd
          rcases hi.rel d r hd with q | q
          · exact .inl q
          · exact .inr (List.mem_append_left _ q)
        · intro d hd; rw [tn]; exact h.told d hd
  | deliver j =>
    have no : s.arrived = [] → AuxXi (s.step (.deliver j)).1 (l ++ (s.step (.deliver j)).2) := by
      intro o; apply same; simp [XiState.step, hi.bad, o]
    cases hi.mode with
    | idle h o a => exact no a
    | active k len h t st =>
      cases st with
      | queued _ _ a => exact no a
      | installed _ _ _ a => exact no a
      | waiting _ _ _ a _ => exact no a
      | came p hk d o a q r =>
        cases j with
        | succ j => apply same; simp [XiState.step, hi.bad, a]
        | zero =>
          have e : s.step (.deliver 0) = ({ s with arrived := [], calls := s.calls.set k ⟨.over, false⟩ }, [.told k (.answer p)]) := by
            simp [XiState.step, hi.bad, a, d, hk]
          rw [e]
          have tn : ∀ d, xiTolds (l ++ [.told k (.answer p)]) d = xiTolds l d ++ if k = d then [.answer p] else [] := by
            intro d; rw [aux_xi_tolds_append]
            congr 1
            by_cases q : k = d <;> simp [xiTolds, q]
          refine ⟨hi.bad, ?_, ?_, ?_, ?_, ?_, (by intro c hd; rw [tn] at hd; rcases List.mem_append.1 hd with hd | hd; exact hi.nw c hd; split at hd <;> simp at hd), .idle ⟨?_, ?_⟩ o rfl⟩
          · intro d hd
            simp at hd
            rw [tn, if_neg (by omega), hi.new d hd]; rfl
          · intro d hd; exact List.mem_append_left _ (hi.ret d (by simpa using hd))
          · intro d r hd; simp at hd; simpa using hi.made d r hd
          · intro d p' hd
            rw [tn] at hd
            rcases List.mem_append.1 hd with h2 | h2
            · exact List.mem_append_left _ (hi.own d p' h2)
            · by_cases z : k = d
              · rw [if_pos z] at h2
                have := List.mem_singleton.1 h2
                injection this with this
                rw [this, ← z]; exact List.mem_append_left _ q
              · rw [if_neg z] at h2; simp at h2
          · intro d r' hd
            rw [tn] at hd
            rcases List.mem_append.1 hd with hd | hd
            · rcases hi.rel d r' hd with q | q
              · exact .inl q
              · exact .inr (List.mem_append_left _ q)
            · split at hd
              · rename_i z; subst z; exact .inr (List.mem_append_left _ r)
              · simp at hd
          · intro d hd
            simp [len] at hd
            rw [tn]
            by_cases q : k = d
            · subst q; rw [if_pos rfl, t]; rfl
            · rw [if_neg q, List.append_nil]; exact h.told d (by omega)
          · intro d hd
            simp [len] at hd
            by_cases q : k = d
            · subst q; simp [len]
            · simp only
              rw [List.getElem?_set_ne q]; exact h.over d (by omega)

theorem aux_xi_init : AuxXi .init [] :=
  ⟨rfl, fun _ _ => rfl, by simp [XiState.init], by simp, by simp [xiTolds], by simp [xiTolds], by simp [xiTolds],
    .idle ⟨by simp [XiState.init], by simp [XiState.init]⟩ rfl rfl⟩

theorem aux_xi_run (s : XiState) (l : List XiEvent) (ops : List XiOp) (hi : AuxXi s l) (ho : xiObeys s l ops = true) :
    AuxXi (s.run ops).1 (l ++ (s.run ops).2) := by
  induction ops generalizing s l with
  | nil => simpa [XiState.run] using hi
  | cons op r ih =>
    simp only [xiObeys, Bool.and_eq_true] at ho
    have := ih _ _ (aux_xi_step s l op hi ho.1) ho.2
    simpa [XiState.run] using this

theorem aux_xi (ops : List XiOp) (ho : xiObeys .init [] ops = true) : AuxXi (XiState.init.run ops).1 (XiState.init.run ops).2 := by
  simpa using aux_xi_run .init [] ops aux_xi_init ho

/-- If invocations are made one after the other, and the peer sends nothing but replies, no released memory is used, each invocation is told at
most one result, an answer is the reply of the peer to it, and none is refused because of another. Missing: invocations made before the last one was told,
by other threads or not; peers that send messages. -/
theorem C114_once_partial (ops : List XiOp) (ho : xiObeys .init [] ops = true) :
    let s := (XiState.init.run ops).1
    let l := (XiState.init.run ops).2
    s.bad = false ∧ (∀ c, (xiTolds l c).length ≤ 1) ∧ (∀ c p, .answer p ∈ xiTolds l c → .replied c p ∈ l) ∧
      (∀ c, .waitingPrevious ∉ xiTolds l c) := by
  have hi := aux_xi ops ho
  refine ⟨hi.bad, ?_, hi.own, hi.nw⟩
  · intro c
    cases hi.mode with
    | idle h o a =>
      rcases Nat.lt_or_ge c (XiState.init.run ops).1.calls.length with q | q
      · exact Nat.le_of_eq (h.told c q)
      · rw [hi.new c q]; simp
    | active k len h t st =>
      rcases Nat.lt_trichotomy c k with q | q | q
      · exact Nat.le_of_eq (h.told c q)
      · rw [q, t]; simp
      · rw [hi.new c (by omega)]; simp

/-- Then, when nothing is going on, each invocation was told exactly one result, and its method call was released unless the channel was not ready. -/
theorem C114_answered_partial (ops : List XiOp) (ho : xiObeys .init [] ops = true) (hq : xiQuiet (XiState.init.run ops).1) (c : Nat)
    (hm : xiMade (XiState.init.run ops).2 c) :
    (xiTolds (XiState.init.run ops).2 c).length = 1 ∧
      (.notReady ∉ xiTolds (XiState.init.run ops).2 c → .released c ∈ (XiState.init.run ops).2) := by
  have hi := aux_xi ops ho
  obtain ⟨r, hr⟩ := hm
  have hlt := (hi.made c r hr).1
  have told : (xiTolds (XiState.init.run ops).2 c).length = 1 := by
    cases hi.mode with
    | idle h o a => exact h.told c hlt
    | active k len h t st =>
      exfalso
      cases st with
      | queued hk _ _ => have := hq.2.2 _ (List.mem_of_getElem? hk); cases this
      | installed hk _ _ _ => have := hq.2.2 _ (List.mem_of_getElem? hk); cases this
      | waiting _ _ o _ _ => rw [hq.1] at o; cases o
      | came _ _ _ _ a _ _ => rw [hq.2.1] at a; cases a
  refine ⟨told, ?_⟩
  intro hn
  match ht : xiTolds (XiState.init.run ops).2 c with
  | [] => rw [ht] at told; cases told
  | r :: rest =>
    rcases hi.rel c r (by rw [ht]; simp) with q | q
    · subst q; rw [ht] at hn; simp at hn
    · exact q

/-- Something can always be done until nothing is going on: the task of the last invocation, its message, the reply, its delivery. So an invocation
whose peer replies is told. -/
theorem C114_told_partial (ops : List XiOp) (ho : xiObeys .init [] ops = true) (p : Nat) :
    ∃ more, xiObeys .init [] (ops ++ more) = true ∧ xiQuiet (XiState.init.run (ops ++ more)).1 ∧ more.length ≤ 4 ∧
      (∀ op, op ∈ more → op = .reply p ∨ op = .deliver 0 ∨ ∃ c, op = .task c ∨ op = .send c true) := by
  have obeys_append : ∀ (a : List XiOp) (s : XiState) (l : List XiEvent) (b : List XiOp),
      xiObeys s l (a ++ b) = (xiObeys s l a && xiObeys (s.run a).1 (l ++ (s.run a).2) b) := by
    intro a
    induction a with
    | nil => intro s l b; simp [xiObeys, XiState.run]
    | cons o r ih => intro s l b; simp [xiObeys, XiState.run, ih, Bool.and_assoc]
  have run_append : ∀ (a : List XiOp) (s : XiState) (b : List XiOp), (s.run (a ++ b)).1 = ((s.run a).1.run b).1 := by
    intro a
    induction a with
    | nil => intro s b; rfl
    | cons o r ih => intro s b; simp [XiState.run, ih]
  have hi := aux_xi ops ho
  simp only [obeys_append, ho, Bool.true_and, run_append, List.nil_append]
  generalize (XiState.init.run ops).1 = s at hi ⊢
  generalize (XiState.init.run ops).2 = l at hi ⊢
  have quiet : ∀ (s : XiState) (k : Nat) (x : XiCall), s.calls.length = k + 1 → (∀ c, c < k → s.calls[c]? = some ⟨.over, false⟩) → s.outstanding = [] → s.arrived = [] →
      s.calls[k]? = some x → x.phase = .over → xiQuiet s := by
    intro s k x hl h o a hk hx
    refine ⟨o, a, ?_⟩
    intro y hy
    obtain ⟨c, hc, e⟩ := List.getElem_of_mem hy
    have e' : s.calls[c]? = some y := by rw [List.getElem?_eq_getElem hc, e]
    by_cases q : c = k
    · subst q; rw [hk] at e'; rw [← Option.some.inj e']; exact hx
    · rw [h c (by omega)] at e'; rw [← Option.some.inj e']
  cases hi.mode with
  | idle h o a =>
    refine ⟨[], rfl, ?_, by simp, by simp⟩
    refine ⟨o, a, ?_⟩
    intro y hy
    replace hy : y ∈ s.calls := hy
    obtain ⟨c, hc, e⟩ := List.getElem_of_mem hy
    have e' : s.calls[c]? = some y := by rw [List.getElem?_eq_getElem hc, e]
    rw [h.over c hc] at e'; rw [← Option.some.inj e']
  | active k len h t st =>
    have bad := hi.bad
    have hlt : k < s.calls.length := by omega
    have gs : ∀ x, (s.calls.set k x)[k]? = some x := by intro x; exact List.getElem?_set_self hlt
    cases st with
    | queued hk o a =>
      refine ⟨[.task k, .send k true, .reply p, .deliver 0], by simp [xiObeys, xiCareful], ?_, by simp, by simp⟩
      simp [XiState.run, XiState.step, bad, hk, o, a, gs]
      apply quiet _ k ⟨.over, false⟩ (by simpa using len) _ rfl rfl (gs _) rfl
      intro c hc
      have := h.over c hc
      simp only [List.getElem?_set_ne (show k ≠ c by omega)]
      exact this
    | installed hk d o a =>
      refine ⟨[.send k true, .reply p, .deliver 0], by simp [xiObeys, xiCareful], ?_, by simp, by simp⟩
      simp [XiState.run, XiState.step, bad, hk, d, o, a, gs]
      apply quiet _ k ⟨.over, false⟩ (by simpa using len) _ rfl rfl (gs _) rfl
      intro c hc
      have := h.over c hc
      simp only [List.getElem?_set_ne (show k ≠ c by omega)]
      exact this
    | waiting hk d o a r =>
      refine ⟨[.reply p, .deliver 0], by simp [xiObeys, xiCareful], ?_, by simp, by simp⟩
      simp [XiState.run, XiState.step, bad, hk, d, o, a]
      apply quiet _ k ⟨.over, false⟩ (by simpa using len) _ rfl rfl (gs _) rfl
      intro c hc
      have := h.over c hc
      simp only [List.getElem?_set_ne (show k ≠ c by omega)]
      exact this
    | came p' hk d o a q r =>
      refine ⟨[.deliver 0], by simp [xiObeys, xiCareful], ?_, by simp, by simp⟩
      simp [XiState.run, XiState.step, bad, hk, d, o, a]
      apply quiet _ k ⟨.over, false⟩ (by simpa using len) _ rfl rfl (gs _) rfl
      intro c hc
      have := h.over c hc
      simp only [List.getElem?_set_ne (show k ≠ c by omega)]
      exact this

/-! ### the faults -/

/-- Every call returns false, accepted or not. -/
theorem C114_returns_false (ops : List XiOp) (c : Nat) (r : Bool) (h : .returned c r ∈ (XiState.init.run ops).2) : r = false := by
  have gen : ∀ (ops : List XiOp) (s : XiState), .returned c r ∈ (s.run ops).2 → r = false := by
    intro ops
    induction ops with
    | nil => intro s h; simp [XiState.run] at h
    | cons op rest ih =>
      intro s h
      simp only [XiState.run, List.mem_append] at h
      rcases h with h | h
      · cases op <;> simp only [XiState.step] at h <;> (repeat' split at h) <;> simp at h <;> exact h.2
      · exact ih _ h
  exact gen ops _ h

/-- Two threads invoke on the same channel: the first answer is told to the second one, the answer of the second uses what was freed, and the first
is told nothing. -/
def xiTwoOps : List XiOp := [.invoke true, .invoke true, .task 0, .task 1, .send 0 true, .send 1 true, .reply 10, .deliver 0, .reply 20, .deliver 0]

theorem C114_crossed :
    let s := (XiState.init.run xiTwoOps).1
    let l := (XiState.init.run xiTwoOps).2
    xiTolds l 1 = [.answer 10] ∧ .replied 0 10 ∈ l ∧ xiTolds l 0 = [] ∧ s.bad = true := by
  decide +kernel

/-- One thread: an invocation made when the reply to the one before has been received, but its handler not called yet, gets its answer. -/
def xiEarlyOps : List XiOp := [.invoke true, .task 0, .send 0 true, .reply 10, .invoke true, .task 1, .deliver 0]

theorem C114_early :
    let l := (XiState.init.run xiEarlyOps).2
    xiTolds l 1 = [.answer 10] ∧ .replied 0 10 ∈ l ∧ xiTolds l 0 = [] := by
  decide +kernel

/-- A message of the peer is taken as the answer. -/
def xiMessageOps : List XiOp := [.invoke true, .task 0, .send 0 true, .message 66, .deliver 0]

theorem C114_message_taken :
    xiTolds (XiState.init.run xiMessageOps).2 0 = [.answer 66] ∧ ∀ p, .replied 0 p ∉ (XiState.init.run xiMessageOps).2 := by
  have e : (XiState.init.run xiMessageOps).2 = [.returned 0 false, .released 0, .told 0 (.answer 66)] := by decide +kernel
  rw [e]
  exact ⟨rfl, by intro p h; simp at h⟩

/-- A message of the peer, before the first invocation or after any answer, makes the frame handler use released memory. -/
theorem C114_message_crash (ops : List XiOp) (ho : xiObeys .init [] ops = true) (hq : xiQuiet (XiState.init.run ops).1) (p : Nat) :
    (XiState.init.run (ops ++ [.message p, .deliver 0])).1.bad = true := by
  have run_append : ∀ (a : List XiOp) (s : XiState) (b : List XiOp), (s.run (a ++ b)).1 = ((s.run a).1.run b).1 := by
    intro a
    induction a with
    | nil => intro s b; rfl
    | cons o r ih => intro s b; simp [XiState.run, ih]
  have hi := aux_xi ops ho
  rw [run_append]
  generalize (XiState.init.run ops).1 = s at *
  have dead : ∀ (c : Nat) (x : XiCall), s.calls[c]? = some x → x.live = false := by
    intro c x hx
    cases hi.mode with
    | idle h o a =>
      have hc : c < s.calls.length := by
        rcases Nat.lt_or_ge c s.calls.length with q | q
        · exact q
        · rw [List.getElem?_eq_none q] at hx; cases hx
      rw [h.over c hc] at hx; rw [← Option.some.inj hx]
    | active k len h t st =>
      exfalso
      cases st with
      | queued hk _ _ => have := hq.2.2 _ (List.mem_of_getElem? hk); cases this
      | installed hk _ _ _ => have := hq.2.2 _ (List.mem_of_getElem? hk); cases this
      | waiting _ _ o _ _ => rw [hq.1] at o; cases o
      | came _ _ _ _ a _ _ => rw [hq.2.1] at a; cases a
  have bad := hi.bad
  have arr := hq.2.1
  cases hh : s.handler with
  | bootQueue => simp [XiState.run, XiState.step, bad, arr, hh]
  | null => simp [XiState.run, XiState.step, bad, arr, hh]
  | data c =>
    cases hc : s.calls[c]? with
    | none => simp [XiState.run, XiState.step, bad, arr, hh, hc]
    | some x =>
      have := dead c x hc
      obtain ⟨ph, lv⟩ := x
      simp only at this
      subst this
      simp [XiState.run, XiState.step, bad, arr, hh, hc]

/-- An invocation refused because another one waits: its method call is never released. -/
def xiRefusedOps : List XiOp := [.invoke true, .task 0, .send 0 true, .invoke true, .reply 1, .deliver 0]

theorem C114_refused_leak :
    let s := (XiState.init.run xiRefusedOps).1
    let l := (XiState.init.run xiRefusedOps).2
    xiTolds l 1 = [.waitingPrevious] ∧ .released 1 ∉ l ∧ s.outstanding = [] ∧ s.arrived = [] := by
  decide +kernel

/-- If the message of one of two invocations cannot be sent, the answer of the other one uses a null pointer. -/
def xiFailedOps : List XiOp := [.invoke true, .invoke true, .task 0, .send 0 true, .task 1, .send 1 false, .reply 5, .deliver 0]

theorem C114_failed_other :
    xiTolds (XiState.init.run xiFailedOps).2 0 = [] ∧ (XiState.init.run xiFailedOps).1.bad = true := by
  decide +kernel

theorem C114_statement_false : ¬ C114_statement := by
  intro h
  have := (h xiTwoOps).1
  exact absurd this (by decide +kernel)

/-- Three invocations one after the other, the second of which cannot be sent. -/
def xiSampleOps : List XiOp :=
  [.invoke true, .task 0, .send 0 true, .reply 1, .deliver 0, .invoke true, .task 1, .send 1 false, .invoke true, .task 2, .send 2 true, .reply 3, .deliver 0]

example : xiObeys .init [] xiSampleOps = true ∧
    (XiState.init.run xiSampleOps).1.outstanding = [] ∧ (XiState.init.run xiSampleOps).1.arrived = [] ∧
    (XiState.init.run xiSampleOps).1.calls.all (fun x => decide (x.phase = .over)) = true ∧
    xiTolds (XiState.init.run xiSampleOps).2 0 = [.answer 1] ∧ xiTolds (XiState.init.run xiSampleOps).2 1 = [.notSent] ∧
    xiTolds (XiState.init.run xiSampleOps).2 2 = [.answer 3] := by decide +kernel

end Verif.Props
