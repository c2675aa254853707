import Verif.Model.ListenShut
/-!
# C73: shutting down a listener
-/
namespace Verif.Props
open Verif.Model

/-- C73, full: when the call for a listener that worked returned, neither the listener nor any connection it accepted works, and
nothing else was closed by the call. The last part is C73_others. False of the code. -/
def C73_statement : Prop :=
  ∀ conns open_ target ops, open_.contains target = true →
    let s := (ListenShut.mk conns open_ target .idle).run ops
    s.pc = .returned → s.open_.contains target = false ∧ ∀ c ∈ s.conns, c.listener = some target → c.ok = false

/-- A connection that was there when the reader visited all connections. -/
theorem aux_ls_closed (ops : List ShutOp) : ∀ (s : ListenShut), s.pc = .returned → s.open_.contains s.target = false →
    (s.run ops).pc = .returned ∧ (s.run ops).open_.contains s.target = false ∧
    ((∀ c ∈ s.conns, c.listener = some s.target → c.ok = false) → ∀ c ∈ (s.run ops).conns, c.listener = some s.target → c.ok = false) := by
  induction ops with
  | nil => intro s h1 h2; exact ⟨h1, h2, fun h => h⟩
  | cons op ops ih =>
    intro s h1 h2
    have key : (s.step op).pc = .returned ∧ (s.step op).open_.contains s.target = false ∧ (s.step op).target = s.target ∧
        ((∀ c ∈ s.conns, c.listener = some s.target → c.ok = false) → ∀ c ∈ (s.step op).conns, c.listener = some s.target → c.ok = false) := by
      cases op with
      | accept id l =>
        cases l with
        | none => simp [ListenShut.step]; grind
        | some l => simp only [ListenShut.step]; split <;> grind
      | lose id => simp [ListenShut.step]; grind
      | next => simp [ListenShut.step, h1]; grind
    obtain ⟨k1, k2, k3, k4⟩ := key
    have := ih (s.step op) k1 (by rw [k3]; exact k2)
    rw [k3] at this
    exact ⟨this.1, this.2.1, fun h => this.2.2 (k4 h)⟩

/-- When the visit is done, every connection of the listener that is registered by then is closed, and it stays so. If none is accepted
between the visit and the end of the call, the property holds. Missing: that case. -/
theorem C73_closed_partial (conns : List ListenedConn) (open_ : List Nat) (target : Nat) (pre post : List ShutOp)
    (h : ((ListenShut.mk conns open_ target .idle).run pre).pc = .waiting) :
    let s := (ListenShut.mk conns open_ target .idle).run (pre ++ .next :: .next :: post)
    s.pc = .returned ∧ s.open_.contains target = false ∧ ∀ c ∈ s.conns, c.listener = some target → c.ok = false := by
  have ht : ∀ (ops : List ShutOp) (s : ListenShut), (s.run ops).target = s.target := by
    intro ops
    induction ops with
    | nil => intro s; rfl
    | cons op ops ih =>
      intro s
      show ((s.step op).run ops).target = _
      rw [ih]
      cases op with
      | accept id l => cases l <;> simp only [ListenShut.step] <;> split <;> rfl
      | lose id => rfl
      | next => simp only [ListenShut.step]; repeat' split
                all_goals rfl
  have htp := ht pre (ListenShut.mk conns open_ target .idle)
  dsimp only at htp ⊢
  rw [ListenShut.run, List.foldl_append]
  rw [show List.foldl ListenShut.step (ListenShut.mk conns open_ target .idle) pre = (ListenShut.mk conns open_ target .idle).run pre from rfl]
  generalize (ListenShut.mk conns open_ target .idle).run pre = t at h htp
  obtain ⟨tc, to, tt, tp⟩ := t
  dsimp only at h htp
  subst h htp
  have := aux_ls_closed post ⟨tc.map (shutVisit tt), to.filter (· != tt), tt, .returned⟩ rfl (by simp)
  refine ⟨this.1, this.2.1, this.2.2 ?_⟩
  intro c hc hl
  obtain ⟨x, _, rfl⟩ := List.mem_map.1 hc
  simp only [shutVisit] at hl ⊢
  split
  · rfl
  · next hn => rw [if_neg hn] at hl; exact absurd hl hn

/-- The steps of the call do not touch the connections of other listeners, those opened by this side, or other listeners. -/
theorem C73_others (s : ListenShut) :
    (s.step .next).conns.filter (fun c => c.listener != some s.target) = s.conns.filter (fun c => c.listener != some s.target) ∧
    ∀ l, l ≠ s.target → ((s.step .next).open_.contains l = s.open_.contains l) := by
  have hf : ∀ l : List ListenedConn, (l.map (shutVisit s.target)).filter (fun c => c.listener != some s.target) =
      l.filter (fun c => c.listener != some s.target) := by
    intro l
    induction l with
    | nil => rfl
    | cons c l ih =>
      simp only [List.map_cons, List.filter_cons, ih, shutVisit]
      by_cases hc : c.listener = some s.target <;> simp [hc]
  obtain ⟨tc, to, tt, tp⟩ := s
  cases tp
  · simp only [ListenShut.step]; split <;> exact ⟨rfl, fun _ _ => rfl⟩
  · exact ⟨hf _, fun _ _ => rfl⟩
  · refine ⟨rfl, fun l hl => ?_⟩
    rw [Bool.eq_iff_iff]; simp only [ListenShut.step]; simp at hl ⊢; simp [hl]
  · exact ⟨rfl, fun _ _ => rfl⟩

example : ((ListenShut.mk [⟨1, some 7, true⟩, ⟨2, some 8, true⟩, ⟨3, none, true⟩] [7, 8] 7 .idle).run
      [.next, .accept 4 (some 7), .next, .next, .accept 5 (some 7), .accept 6 (some 8)]) =
    ⟨[⟨1, some 7, false⟩, ⟨2, some 8, true⟩, ⟨3, none, true⟩, ⟨4, some 7, false⟩, ⟨6, some 8, true⟩], [8], 7, .returned⟩ := by decide

/-- A connection accepted after the visit and before the listener is closed stays open. -/
theorem C73_left_open : ((ListenShut.mk [] [7] 7 .idle).run [.next, .next, .accept 1 (some 7), .next]) =
    ⟨[⟨1, some 7, true⟩], [], 7, .returned⟩ := by decide

theorem C73_statement_false : ¬ C73_statement := by
  intro h
  have := (h [] [7] 7 [.next, .next, .accept 1 (some 7), .next] (by decide) (by decide)).2 ⟨1, some 7, true⟩ (by decide) rfl
  revert this; decide

end Verif.Props
