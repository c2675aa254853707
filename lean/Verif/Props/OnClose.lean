import Verif.Spec.OnClose
/-!
# C29 — close handlers of a connection
-/
namespace Verif.Props
open Verif.Model Verif.Spec

def aux_oc_stageId : CloseStage → Option Nat
  | .startPlain id => some id
  | .startFull id => some id
  | _ => none

def aux_oc_ids (l : Option (List CloseHd)) : List Nat := (l.getD []).map (·.id)

def aux_oc_flying (s : Closers) : List Nat := s.drains.filterMap aux_oc_stageId

theorem aux_oc_started_append (a b : List CloseEvent) : startedIn (a ++ b) = startedIn a ++ startedIn b := by
  simp [startedIn]

theorem aux_oc_removed_append (a b : List CloseEvent) : removedIn (a ++ b) = removedIn a ++ removedIn b := by
  simp [removedIn]

theorem aux_oc_lost_append (a b : List CloseEvent) : lostIn (a ++ b) = lostIn a ++ lostIn b := by
  simp [lostIn]

theorem aux_oc_set {l : List CloseStage} {i : Nat} {a b : CloseStage} (h : l[i]? = some a) (x : Nat) :
    ((l.set i b).filterMap aux_oc_stageId).count x + (aux_oc_stageId a).toList.count x =
      (l.filterMap aux_oc_stageId).count x + (aux_oc_stageId b).toList.count x := by
  induction l generalizing i with
  | nil => simp at h
  | cons c l ih =>
    cases i with
    | zero =>
      simp only [List.getElem?_cons_zero, Option.some.injEq] at h
      subst h
      simp only [List.set_cons_zero, List.filterMap_cons]
      cases aux_oc_stageId c <;> cases aux_oc_stageId b <;> simp [List.count_cons] <;> omega
    | succ i =>
      simp only [List.getElem?_cons_succ] at h
      have := ih h
      simp only [List.set_cons_succ, List.filterMap_cons]
      cases aux_oc_stageId c <;> simp only [List.count_cons] <;> omega

theorem aux_oc_erase {l : List CloseStage} {i : Nat} {a : CloseStage} (h : l[i]? = some a)
    (hn : aux_oc_stageId a = none) : (l.eraseIdx i).filterMap aux_oc_stageId = l.filterMap aux_oc_stageId := by
  induction l generalizing i with
  | nil => simp at h
  | cons c l ih =>
    cases i with
    | zero =>
      simp only [List.getElem?_cons_zero, Option.some.injEq] at h
      subst h
      simp [hn]
    | succ i =>
      simp only [List.getElem?_cons_succ] at h
      simp only [List.eraseIdx_cons_succ, List.filterMap_cons, ih h]

theorem aux_oc_removeKey {key : Nat} {l : List CloseHd} {id : Nat} {rest : List CloseHd}
    (h : removeKey key l = some (id, rest)) (x : Nat) :
    (l.map (·.id)).count x = (rest.map (·.id)).count x + [id].count x := by
  induction l generalizing rest with
  | nil => simp [removeKey] at h
  | cons a l ih =>
    simp only [removeKey] at h
    split at h
    · simp only [Option.some.injEq, Prod.mk.injEq] at h
      obtain ⟨rfl, rfl⟩ := h
      simp [List.count_cons]
    · split at h
      · simp at h
      · rename_i id' rest' hr
        simp only [Option.some.injEq, Prod.mk.injEq] at h
        obtain ⟨rfl, rfl⟩ := h
        have := ih hr
        simp only [List.map_cons, List.count_cons] at this ⊢
        omega

def aux_oc_one (n x : Nat) : Nat := if x < n then 1 else 0

/-- Every handler installed is in exactly one place. -/
def aux_oc_Count (log : List CloseEvent) (s : Closers) : Prop :=
  ∀ x, (aux_oc_ids s.plain).count x + (aux_oc_ids s.full).count x + (aux_oc_flying s).count x +
    (startedIn log).count x + (removedIn log).count x + (lostIn log).count x = aux_oc_one s.created x

theorem aux_oc_count_of {log : List CloseEvent} {s : Closers} (h : aux_oc_Count log s) (ev : List CloseEvent)
    (s' : Closers)
    (hd : ∀ x, (aux_oc_ids s'.plain).count x + (aux_oc_ids s'.full).count x + (aux_oc_flying s').count x +
      (startedIn ev).count x + (removedIn ev).count x + (lostIn ev).count x + aux_oc_one s.created x =
      (aux_oc_ids s.plain).count x + (aux_oc_ids s.full).count x + (aux_oc_flying s).count x +
      aux_oc_one s'.created x) : aux_oc_Count (log ++ ev) s' := by
  intro x
  have h1 := h x
  have h2 := hd x
  rw [aux_oc_started_append, aux_oc_removed_append, aux_oc_lost_append]
  simp only [List.count_append]
  omega

theorem aux_oc_count_new (x n : Nat) : aux_oc_one n x + [n].count x = aux_oc_one (n + 1) x := by
  simp only [aux_oc_one, List.count_cons, List.count_nil, beq_iff_eq]
  split <;> split <;> split <;> omega

theorem aux_oc_count_step {log : List CloseEvent} {s : Closers} (h : aux_oc_Count log s) (op : CloseOp) :
    aux_oc_Count (log ++ (s.step op).1) (s.step op).2 := by
  cases op with
  | install key =>
    refine aux_oc_count_of h _ _ ?_
    intro x
    have := aux_oc_count_new x s.created
    simp only [Closers.step, aux_oc_ids, Option.getD_some, List.map_append, List.count_append, List.map_cons,
      List.map_nil, aux_oc_flying]
    simp only [startedIn, removedIn, lostIn, List.filterMap_cons, List.filterMap_nil, List.count_nil]
    omega
  | installFull last key =>
    refine aux_oc_count_of h _ _ ?_
    intro x
    have := aux_oc_count_new x s.created
    simp only [List.count_cons, List.count_nil] at this
    cases last <;>
    simp only [Closers.step, aux_oc_ids, Option.getD_some, List.map_append, List.count_append, List.map_cons,
      List.map_nil, aux_oc_flying, if_true, Bool.false_eq_true, if_false] <;>
    simp only [startedIn, removedIn, lostIn, List.filterMap_cons, List.filterMap_nil, List.count_nil,
      List.count_cons] <;>
    omega
  | remove key =>
    simp only [Closers.step]
    split
    · exact aux_oc_count_of h _ _ (by intro x; simp [startedIn, removedIn, lostIn])
    · rename_i id rest hr
      refine aux_oc_count_of h _ _ ?_
      intro x
      have := aux_oc_removeKey hr x
      simp only [aux_oc_ids, aux_oc_flying, Option.getD_some]
      simp only [startedIn, removedIn, lostIn, List.filterMap_cons, List.filterMap_nil, List.count_nil]
      omega
  | shutdown =>
    simp only [Closers.step]
    split
    · have : [CloseStage.enterPlain].filterMap aux_oc_stageId = [] := rfl
      exact aux_oc_count_of h _ _ (by intro x; simp [startedIn, removedIn, lostIn, aux_oc_flying, this])
    · exact aux_oc_count_of h _ _ (by intro x; simp [startedIn, removedIn, lostIn])
  | reconnect =>
    simp only [Closers.step]
    split <;> exact aux_oc_count_of h _ _ (by intro x; simp [startedIn, removedIn, lostIn, aux_oc_flying])
  | exit => exact aux_oc_count_of h _ _ (by intro x; simp [Closers.step, startedIn, removedIn, lostIn, aux_oc_flying])
  | advance i ok =>
    simp only [Closers.step]
    split
    · exact aux_oc_count_of h _ _ (by intro x; simp [startedIn, removedIn, lostIn])
    · rename_i st hi
      have hset : ∀ b x, ((s.drains.set i b).filterMap aux_oc_stageId).count x +
          (aux_oc_stageId st).toList.count x =
          (s.drains.filterMap aux_oc_stageId).count x + (aux_oc_stageId b).toList.count x :=
        fun b x => aux_oc_set (b := b) hi x
      cases st with
      | enterPlain =>
        refine aux_oc_count_of h _ _ (fun x => ?_)
        have h1 := hset .enterFull x
        have h2 := hset .loopPlain x
        simp only [aux_oc_stageId, Option.toList] at h1 h2
        simp only [Closers.advance, aux_oc_flying]
        simp only [startedIn, removedIn, lostIn, List.filterMap_nil, List.count_nil] at h1 h2 ⊢
        split <;> omega
      | loopPlain =>
        simp only [Closers.advance]
        split
        · rename_i hd tl hp
          refine aux_oc_count_of h _ _ (fun x => ?_)
          have h1 := hset (.startPlain hd.id) x
          simp only [aux_oc_stageId, Option.toList] at h1
          simp only [aux_oc_flying, aux_oc_ids, hp, Option.getD_some, List.map_cons]
          simp only [startedIn, removedIn, lostIn, List.filterMap_nil, List.count_nil, List.count_cons] at h1 ⊢
          omega
        · refine aux_oc_count_of h _ _ (fun x => ?_)
          have h1 := hset .enterFull x
          simp only [aux_oc_stageId, Option.toList] at h1
          simp only [aux_oc_flying]
          simp only [startedIn, removedIn, lostIn, List.filterMap_nil, List.count_nil] at h1 ⊢
          omega
      | startPlain id =>
        refine aux_oc_count_of h _ _ (fun x => ?_)
        have h1 := hset .loopPlain x
        simp only [aux_oc_stageId, Option.toList] at h1
        cases ok <;> simp only [Closers.advance, aux_oc_flying, if_true, Bool.false_eq_true, if_false] <;>
        simp only [startedIn, removedIn, lostIn, List.filterMap_nil, List.count_nil, List.filterMap_cons] at h1 ⊢ <;>
        omega
      | enterFull =>
        refine aux_oc_count_of h _ _ (fun x => ?_)
        have h1 := hset .socket x
        have h2 := hset .loopFull x
        simp only [aux_oc_stageId, Option.toList] at h1 h2
        simp only [Closers.advance, aux_oc_flying]
        simp only [startedIn, removedIn, lostIn, List.filterMap_nil, List.count_nil] at h1 h2 ⊢
        split <;> omega
      | loopFull =>
        simp only [Closers.advance]
        split
        · rename_i hd tl hp
          refine aux_oc_count_of h _ _ (fun x => ?_)
          have h1 := hset (.startFull hd.id) x
          simp only [aux_oc_stageId, Option.toList] at h1
          simp only [aux_oc_flying, aux_oc_ids, hp, Option.getD_some, List.map_cons]
          simp only [startedIn, removedIn, lostIn, List.filterMap_nil, List.count_nil, List.count_cons] at h1 ⊢
          omega
        · refine aux_oc_count_of h _ _ (fun x => ?_)
          have h1 := hset .socket x
          simp only [aux_oc_stageId, Option.toList] at h1
          simp only [aux_oc_flying]
          simp only [startedIn, removedIn, lostIn, List.filterMap_nil, List.count_nil] at h1 ⊢
          omega
      | startFull id =>
        refine aux_oc_count_of h _ _ (fun x => ?_)
        have h1 := hset .loopFull x
        simp only [aux_oc_stageId, Option.toList] at h1
        cases ok <;> simp only [Closers.advance, aux_oc_flying, if_true, Bool.false_eq_true, if_false] <;>
        simp only [startedIn, removedIn, lostIn, List.filterMap_nil, List.count_nil, List.filterMap_cons] at h1 ⊢ <;>
        omega
      | socket =>
        have he := aux_oc_erase hi rfl
        simp only [Closers.advance]
        split <;> exact aux_oc_count_of h _ _ (by intro x; simp [aux_oc_flying, startedIn, removedIn, lostIn, he])

theorem aux_oc_count_run (ops : List CloseOp) : ∀ (log : List CloseEvent) (s : Closers), aux_oc_Count log s →
    aux_oc_Count (log ++ (s.run ops).1) (s.run ops).2 := by
  induction ops with
  | nil => intro log s h; simpa [Closers.run] using h
  | cons op ops ih =>
    intro log s h
    simp only [Closers.run]
    rw [← List.append_assoc]
    exact ih _ _ (aux_oc_count_step h op)

theorem aux_oc_count_init : aux_oc_Count [] Closers.init := by
  intro x; simp [Closers.init, aux_oc_one, aux_oc_ids, aux_oc_flying, startedIn, removedIn, lostIn]

/-- **C29** (at most once): whatever the threads do, and however many times the connection is shut down and
connected again, no close handler is started twice, and none is started that was removed, before or after. -/
theorem C29_at_most_once (ops : List CloseOp) (id : Nat) :
    (startedIn (Closers.init.run ops).1).count id ≤ 1 ∧
    (id ∈ removedIn (Closers.init.run ops).1 → id ∉ startedIn (Closers.init.run ops).1) := by
  have h := aux_oc_count_run ops [] Closers.init aux_oc_count_init id
  simp only [List.nil_append, aux_oc_one] at h
  refine ⟨by split at h <;> omega, fun h1 h2 => ?_⟩
  have h1 := List.count_pos_iff.mpr h1
  have h2 := List.count_pos_iff.mpr h2
  split at h <;> omega

/-- Three handlers, one removed while the first is being started, and two threads shutting down. -/
example : (Closers.init.run [.install 7, .installFull true 1, .installFull false 2, .shutdown, .shutdown,
    .advance 0 true, .advance 0 true, .remove 1, .advance 0 true, .advance 0 true, .advance 0 true,
    .advance 0 true, .advance 0 true]).1 =
    [.installed 0, .installedFull true 1, .installedFull false 2, .removed 1, .started 0, .started 2] := by
  decide +kernel

/-! ## Order -/

theorem aux_oc_fullOrder_append (a b : List CloseEvent) : ∀ l, fullOrder l (a ++ b) = fullOrder (fullOrder l a) b := by
  induction a with
  | nil => intro l; rfl
  | cons e a ih =>
    intro l
    cases e with
    | installedFull last id => cases last <;> simp [fullOrder, ih]
    | _ => simp [fullOrder, ih]

theorem aux_oc_plainOrder_append (a b : List CloseEvent) : plainOrder (a ++ b) = plainOrder a ++ plainOrder b := by
  simp [plainOrder]

theorem aux_oc_removeKey_filter {key : Nat} {l : List CloseHd} {id : Nat} {rest : List CloseHd}
    (h : removeKey key l = some (id, rest)) (hc : (l.map (·.id)).count id ≤ 1) :
    rest.map (·.id) = (l.map (·.id)).filter (· != id) := by
  induction l generalizing rest with
  | nil => simp [removeKey] at h
  | cons a l ih =>
    simp only [removeKey] at h
    split at h
    · simp only [Option.some.injEq, Prod.mk.injEq] at h
      obtain ⟨rfl, rfl⟩ := h
      simp only [List.map_cons, List.count_cons, beq_self_eq_true, if_true] at hc
      have h0 : (l.map (·.id)).count a.id = 0 := by omega
      have h0 := List.count_eq_zero.mp h0
      simp only [List.map_cons, List.filter_cons, bne_self_eq_false, Bool.false_eq_true, if_false]
      symm
      apply List.filter_eq_self.mpr
      intro x hx
      simp only [bne_iff_ne, ne_eq]
      rintro rfl
      exact h0 hx
    · split at h
      · simp at h
      · rename_i id' rest' hr
        simp only [Option.some.injEq, Prod.mk.injEq] at h
        obtain ⟨rfl, rfl⟩ := h
        have h1 := aux_oc_removeKey hr id'
        simp only [List.map_cons, List.count_cons, List.count_nil, beq_self_eq_true, if_true] at hc h1
        have hne : a.id ≠ id' := by
          intro he
          simp only [he, beq_self_eq_true, if_true] at hc
          omega
        have hb : (a.id != id') = true := by simpa using hne
        simp only [List.map_cons, List.filter_cons, hb, if_true]
        rw [ih hr (by omega)]

/-- Until the connection breaks. -/
structure aux_oc_Before (log : List CloseEvent) (s : Closers) : Prop where
  ex : s.exiting = false
  lists : s.connected = true → s.drains = [] ∧ aux_oc_ids s.plain = plainOrder log ∧
    aux_oc_ids s.full = fullOrder [] log ∧ startedIn log = []

theorem aux_oc_before_step {log : List CloseEvent} {s : Closers} (hc : aux_oc_Count log s) (h : aux_oc_Before log s)
    (op : CloseOp) (h1 : op ≠ .reconnect) (h2 : op ≠ .exit) :
    aux_oc_Before (log ++ (s.step op).1) (s.step op).2 := by
  have quiet : ∀ (ev : List CloseEvent), (∀ l, fullOrder l ev = l) → plainOrder ev = [] → startedIn ev = [] →
      aux_oc_Before (log ++ ev) s := by
    intro ev e1 e2 e3
    refine ⟨h.ex, fun hcon => ?_⟩
    obtain ⟨a, b, c, d⟩ := h.lists hcon
    exact ⟨a, by rw [aux_oc_plainOrder_append, e2, List.append_nil, b], by rw [aux_oc_fullOrder_append, e1, c],
      by rw [aux_oc_started_append, e3, d]; rfl⟩
  cases op with
  | reconnect => exact absurd rfl h1
  | exit => exact absurd rfl h2
  | install key =>
    refine ⟨h.ex, fun hcon => ?_⟩
    obtain ⟨a, b, c, d⟩ := h.lists hcon
    refine ⟨a, ?_, ?_, ?_⟩
    · rw [aux_oc_plainOrder_append, ← b]; simp [Closers.step, aux_oc_ids, plainOrder]
    · rw [aux_oc_fullOrder_append, ← c]; rfl
    · rw [aux_oc_started_append, d]; rfl
  | installFull last key =>
    refine ⟨h.ex, fun hcon => ?_⟩
    obtain ⟨a, b, c, d⟩ := h.lists hcon
    refine ⟨a, ?_, ?_, ?_⟩
    · rw [aux_oc_plainOrder_append, ← b]; simp [Closers.step, aux_oc_ids, plainOrder]
    · rw [aux_oc_fullOrder_append, ← c]; cases last <;> simp [Closers.step, aux_oc_ids, fullOrder]
    · rw [aux_oc_started_append, d]; rfl
  | remove key =>
    simp only [Closers.step]
    split
    · exact quiet _ (fun _ => rfl) rfl rfl
    · rename_i id rest hr
      refine ⟨h.ex, fun hcon => ?_⟩
      obtain ⟨a, b, c, d⟩ := h.lists hcon
      refine ⟨a, ?_, ?_, ?_⟩
      · rw [aux_oc_plainOrder_append, ← b]; simp [plainOrder]
      · rw [aux_oc_fullOrder_append, ← c]
        have hcount := hc id
        refine aux_oc_removeKey_filter hr ?_
        simp only [aux_oc_ids, aux_oc_one] at hcount
        split at hcount <;> omega
      · rw [aux_oc_started_append, d]; rfl
  | shutdown =>
    simp only [Closers.step]
    split
    · exact ⟨h.ex, by simp⟩
    · exact quiet _ (fun _ => rfl) rfl rfl
  | advance i ok =>
    simp only [Closers.step]
    split
    · exact quiet _ (fun _ => rfl) rfl rfl
    · rename_i st hi
      have key : (s.advance i ok st).2.connected = s.connected ∧ (s.advance i ok st).2.exiting = s.exiting := by
        unfold Closers.advance
        split <;> (try split) <;> exact ⟨rfl, rfl⟩
      refine ⟨key.2.trans h.ex, fun hcon => ?_⟩
      rw [key.1] at hcon
      obtain ⟨a, _⟩ := h.lists hcon
      rw [a] at hi
      simp at hi

theorem aux_oc_before_run (ops : List CloseOp) : ∀ (log : List CloseEvent) (s : Closers), aux_oc_Count log s →
    aux_oc_Before log s → .reconnect ∉ ops → .exit ∉ ops →
    aux_oc_Before (log ++ (s.run ops).1) (s.run ops).2 := by
  induction ops with
  | nil => intro log s _ h _ _; simpa [Closers.run] using h
  | cons op ops ih =>
    intro log s hc h h1 h2
    simp only [List.mem_cons, not_or] at h1 h2
    simp only [Closers.run]
    rw [← List.append_assoc]
    exact ih _ _ (aux_oc_count_step hc op) (aux_oc_before_step hc h op (Ne.symm h1.1) (Ne.symm h2.1)) h1.2 h2.2

theorem aux_oc_before_init : aux_oc_Before [] Closers.init := ⟨rfl, fun _ => ⟨rfl, rfl, rfl, rfl⟩⟩

/-- How much of the lists was done. -/
def aux_oc_rank : List CloseStage → Nat
  | [] => 2
  | .socket :: _ => 2
  | .enterFull :: _ => 1
  | .loopFull :: _ => 1
  | .startFull _ :: _ => 1
  | _ => 0

def aux_oc_left (s : Closers) : List Nat := aux_oc_flying s ++ (aux_oc_ids s.plain ++ aux_oc_ids s.full)

/-- After the connection broke, `L` being the handlers there were then. -/
structure aux_oc_After (L : List Nat) (log : List CloseEvent) (s : Closers) : Prop where
  ex : s.exiting = false
  con : s.connected = false
  dr : s.drains = [] ∨ ∃ st, s.drains = [st]
  lt : ∀ x ∈ L, x < s.created
  eq : (startedIn log ++ aux_oc_left s).filter (L.contains ·) = L.filter (fun x => !(removedIn log).contains x)
  pl : 1 ≤ aux_oc_rank s.drains → ∀ x ∈ aux_oc_ids s.plain, x ∉ L
  fu : 2 ≤ aux_oc_rank s.drains → ∀ x ∈ aux_oc_ids s.full, x ∉ L

theorem aux_oc_after_quiet {L : List Nat} {log : List CloseEvent} {s : Closers} (h : aux_oc_After L log s)
    (ev : List CloseEvent) (e1 : startedIn ev = []) (e2 : removedIn ev = []) : aux_oc_After L (log ++ ev) s := by
  refine ⟨h.ex, h.con, h.dr, h.lt, ?_, h.pl, h.fu⟩
  rw [aux_oc_started_append, aux_oc_removed_append, e1, e2, List.append_nil, List.append_nil]
  exact h.eq

theorem aux_oc_filter_none {L l : List Nat} (h : ∀ x ∈ l, x ∉ L) : l.filter (L.contains ·) = [] := by
  apply List.filter_eq_nil_iff.mpr
  intro x hx
  simpa using h x hx

theorem aux_oc_after_step {L : List Nat} {log0 log : List CloseEvent} {s : Closers}
    (hc : aux_oc_Count (log0 ++ log) s) (h : aux_oc_After L log s) (op : CloseOp) (h1 : op ≠ .reconnect)
    (h2 : op ≠ .exit) (h3 : ∀ i, op ≠ .advance i false) :
    aux_oc_After L (log ++ (s.step op).1) (s.step op).2 := by
  have hnew : ∀ x ∈ [s.created], x ∉ L := by
    intro x hx hL
    simp only [List.mem_singleton] at hx
    subst hx
    exact Nat.lt_irrefl _ (h.lt _ hL)
  cases op with
  | reconnect => exact absurd rfl h1
  | exit => exact absurd rfl h2
  | install key =>
    refine ⟨h.ex, h.con, h.dr, fun x hx => Nat.lt_succ_of_lt (h.lt x hx), ?_, ?_, h.fu⟩
    · rw [aux_oc_started_append, aux_oc_removed_append]
      simp only [Closers.step, startedIn, removedIn, List.filterMap_cons, List.filterMap_nil, List.append_nil]
      have := h.eq
      simp only [aux_oc_left, aux_oc_flying, aux_oc_ids, Option.getD_some, List.map_append, List.map_cons, List.map_nil,
        List.filter_append, aux_oc_filter_none hnew, List.append_nil] at this ⊢
      exact this
    · intro hr x hx
      simp only [Closers.step, aux_oc_ids, Option.getD_some, List.map_append, List.mem_append] at hx
      rcases hx with hx | hx
      · exact h.pl hr x hx
      · exact hnew x hx
  | installFull last key =>
    refine ⟨h.ex, h.con, h.dr, fun x hx => Nat.lt_succ_of_lt (h.lt x hx), ?_, h.pl, ?_⟩
    · rw [aux_oc_started_append, aux_oc_removed_append]
      simp only [Closers.step, startedIn, removedIn, List.filterMap_cons, List.filterMap_nil, List.append_nil]
      have := h.eq
      have hn : (L.contains s.created) = false := by simpa using hnew _ (List.mem_singleton.mpr rfl)
      cases last <;>
      simp only [aux_oc_left, aux_oc_flying, aux_oc_ids, Option.getD_some, List.map_append, List.map_cons, List.map_nil,
        List.filter_append, List.filter_cons, hn, Bool.false_eq_true, if_false, if_true, List.filter_nil,
        List.append_nil] at this ⊢ <;>
      exact this
    · intro hr x hx
      cases last <;> simp only [Closers.step, aux_oc_ids, Option.getD_some, List.map_append, List.mem_append,
        Bool.false_eq_true, if_false, if_true, List.map_cons, List.map_nil, List.mem_cons, List.not_mem_nil, or_false] at hx
      · rcases hx with rfl | hx
        · exact hnew _ (List.mem_singleton.mpr rfl)
        · exact h.fu hr x hx
      · rcases hx with hx | rfl
        · exact h.fu hr x hx
        · exact hnew _ (List.mem_singleton.mpr rfl)
  | remove key =>
    simp only [Closers.step]
    split
    · exact aux_oc_after_quiet h _ rfl rfl
    · rename_i id rest hr
      have hcount := hc id
      have hk := aux_oc_removeKey hr id
      rw [aux_oc_started_append] at hcount
      simp only [aux_oc_ids, aux_oc_one, List.count_append, List.count_cons, List.count_nil, beq_self_eq_true,
        if_true] at hcount hk
      have hle : (if id < s.created then 1 else 0) ≤ 1 := by split <;> omega
      have hf := aux_oc_removeKey_filter hr (by omega)
      have n1 : id ∉ startedIn log := List.count_eq_zero.mp (by omega)
      have n2 : id ∉ aux_oc_flying s := List.count_eq_zero.mp (by omega)
      have n3 : id ∉ aux_oc_ids s.plain := List.count_eq_zero.mp (by show (aux_oc_ids s.plain).count id = 0; simp only [aux_oc_ids]; omega)
      have hself : ∀ l : List Nat, id ∉ l → l.filter (· != id) = l := by
        intro l hl
        apply List.filter_eq_self.mpr
        intro x hx
        simp only [bne_iff_ne, ne_eq]
        rintro rfl
        exact hl hx
      refine ⟨h.ex, h.con, h.dr, h.lt, ?_, h.pl, ?_⟩
      · rw [aux_oc_started_append, aux_oc_removed_append]
        have e := congrArg (List.filter (· != id)) h.eq
        have e1 : startedIn [CloseEvent.removed id] = [] := rfl
        have e2 : removedIn [CloseEvent.removed id] = [id] := rfl
        rw [e1, e2, List.append_nil]
        have : startedIn log ++ aux_oc_left { s with full := some rest } =
            (startedIn log ++ aux_oc_left s).filter (· != id) := by
          simp only [aux_oc_left, List.filter_append]
          rw [hself _ n1, hself _ n2, hself _ n3]
          simp only [aux_oc_ids, Option.getD_some, hf]
          rfl
        rw [this, List.filter_filter]
        rw [List.filter_filter, List.filter_filter] at e
        have e3 : (fun x => L.contains x && (x != id)) = (fun x => (x != id) && L.contains x) := by
          funext x; exact Bool.and_comm _ _
        rw [e3, e]
        congr 1
        funext x
        simp only [List.contains_append, Bool.not_or]
        rw [Bool.and_comm]
        congr 1
        by_cases hx : x = id <;> simp [hx]
      · intro hrk x hx
        simp only [aux_oc_ids, Option.getD_some, hf, List.mem_filter] at hx
        exact h.fu hrk x hx.1
  | shutdown =>
    simp only [Closers.step, h.con, Bool.false_eq_true, if_false]
    exact aux_oc_after_quiet h _ rfl rfl
  | advance i ok =>
    have hok : ok = true := by
      cases ok with
      | true => rfl
      | false => exact absurd rfl (h3 i)
    subst hok
    simp only [Closers.step]
    split
    · exact aux_oc_after_quiet h _ rfl rfl
    · rename_i st hi
      rcases h.dr with hd | ⟨st', hd⟩
      · rw [hd] at hi; simp at hi
      · rw [hd] at hi
        have hi0 : i = 0 := by
          cases i with
          | zero => rfl
          | succ i => simp at hi
        subst hi0
        simp only [List.getElem?_cons_zero, Option.some.injEq] at hi
        subst hi
        have heq := h.eq
        have hpl := h.pl
        have hfu := h.fu
        simp only [aux_oc_left, aux_oc_flying, hd, List.filterMap_cons, List.filterMap_nil] at heq
        rw [hd] at hpl hfu
        have hset : ∀ b, s.drains.set 0 b = [b] := by intro b; rw [hd]; rfl
        cases st' with
        | enterPlain =>
          simp only [Closers.advance, hset, h.ex, Bool.or_false]
          refine ⟨rfl, h.con, .inr ⟨_, rfl⟩, h.lt, ?_, ?_, ?_⟩
          · rw [List.append_nil]
            rw [← heq]
            simp only [aux_oc_left, aux_oc_flying]
            split <;> rfl
          · intro hr x hx
            cases hp : s.plain with
            | none => simp [aux_oc_ids, hp] at hx
            | some l => simp [hp, aux_oc_rank] at hr
          · intro hr x hx
            cases hp : s.plain <;> simp [hp, aux_oc_rank] at hr
        | loopPlain =>
          simp only [Closers.advance]
          split
          · rename_i a l hp
            refine ⟨h.ex, h.con, .inr ⟨_, hset _⟩, h.lt, ?_, ?_, ?_⟩
            · rw [List.append_nil, ← heq]
              simp [aux_oc_left, aux_oc_flying, hset, aux_oc_stageId, aux_oc_ids, hp]
            · intro hr; simp [hset, aux_oc_rank] at hr
            · intro hr; simp [hset, aux_oc_rank] at hr
          · rename_i hp
            have hnil : aux_oc_ids s.plain = [] := by
              cases hq : s.plain with
              | none => rfl
              | some l => cases l with
                | nil => rfl
                | cons a l => exact absurd hq (hp a l)
            refine ⟨h.ex, h.con, .inr ⟨_, hset _⟩, h.lt, ?_, ?_, ?_⟩
            · rw [List.append_nil, ← heq]
              simp only [aux_oc_left, aux_oc_flying, hset]
              rfl
            · intro _ x hx; rw [hnil] at hx; simp at hx
            · intro hr; simp [hset, aux_oc_rank] at hr
        | startPlain id =>
          simp only [Closers.advance, if_true]
          refine ⟨h.ex, h.con, .inr ⟨_, hset _⟩, h.lt, ?_, ?_, ?_⟩
          · rw [aux_oc_started_append, aux_oc_removed_append]
            simp only [aux_oc_left, aux_oc_flying, hset]
            simp only [startedIn, removedIn, aux_oc_stageId, List.filterMap_cons, List.filterMap_nil, List.append_nil,
              List.nil_append, List.append_assoc, List.cons_append] at heq ⊢
            exact heq
          · intro hr; simp [hset, aux_oc_rank] at hr
          · intro hr; simp [hset, aux_oc_rank] at hr
        | enterFull =>
          simp only [Closers.advance, hset, h.ex, Bool.or_false]
          refine ⟨rfl, h.con, .inr ⟨_, rfl⟩, h.lt, ?_, ?_, ?_⟩
          · rw [List.append_nil]
            rw [← heq]
            simp only [aux_oc_left, aux_oc_flying]
            split <;> rfl
          · intro _; exact hpl (Nat.le_refl _)
          · intro hr x hx
            cases hp : s.full with
            | none => simp [aux_oc_ids, hp] at hx
            | some l => simp [hp, aux_oc_rank] at hr
        | loopFull =>
          simp only [Closers.advance]
          split
          · rename_i a l hp
            refine ⟨h.ex, h.con, .inr ⟨_, hset _⟩, h.lt, ?_, ?_, ?_⟩
            · rw [List.append_nil, ← heq]
              have hn := aux_oc_filter_none (hpl (Nat.le_refl _))
              simp only [aux_oc_left, aux_oc_flying, hset, aux_oc_stageId, List.filterMap_cons, List.filterMap_nil,
                List.filter_append, hn, List.nil_append]
              simp only [aux_oc_ids, hp, Option.getD_some, List.map_cons, List.filter_cons, List.filter_nil]
              split <;> rfl
            · intro _; exact hpl (Nat.le_refl _)
            · intro hr; simp [hset, aux_oc_rank] at hr
          · rename_i hp
            have hnil : aux_oc_ids s.full = [] := by
              cases hq : s.full with
              | none => rfl
              | some l => cases l with
                | nil => rfl
                | cons a l => exact absurd hq (hp a l)
            refine ⟨h.ex, h.con, .inr ⟨_, hset _⟩, h.lt, ?_, ?_, ?_⟩
            · rw [List.append_nil, ← heq]
              simp only [aux_oc_left, aux_oc_flying, hset]
              rfl
            · intro _; exact hpl (Nat.le_refl _)
            · intro _ x hx; rw [hnil] at hx; simp at hx
        | startFull id =>
          simp only [Closers.advance, if_true]
          refine ⟨h.ex, h.con, .inr ⟨_, hset _⟩, h.lt, ?_, ?_, ?_⟩
          · rw [aux_oc_started_append, aux_oc_removed_append]
            simp only [aux_oc_left, aux_oc_flying, hset]
            simp only [startedIn, removedIn, aux_oc_stageId, List.filterMap_cons, List.filterMap_nil, List.append_nil,
              List.nil_append, List.append_assoc, List.cons_append] at heq ⊢
            exact heq
          · intro _; exact hpl (Nat.le_refl _)
          · intro hr; simp [hset, aux_oc_rank] at hr
        | socket =>
          have herase : s.drains.eraseIdx 0 = [] := by rw [hd]; rfl
          have fin : ∀ (ev : List CloseEvent) ss, startedIn ev = [] → removedIn ev = [] →
              aux_oc_After L (log ++ ev) { s with session := ss, drains := s.drains.eraseIdx 0 } := by
            intro ev ss e1 e2
            refine ⟨h.ex, h.con, .inl herase, h.lt, ?_, fun _ => hpl (by simp [aux_oc_rank]),
              fun _ => hfu (by simp [aux_oc_rank])⟩
            rw [aux_oc_started_append, aux_oc_removed_append, e1, e2, List.append_nil, List.append_nil, ← heq]
            simp only [aux_oc_left, aux_oc_flying, herase]
            rfl
          simp only [Closers.advance]
          split
          · rename_i hs
            have := fin [] none rfl rfl
            rw [← hs] at this
            exact this
          · exact fin _ _ rfl rfl

theorem aux_oc_after_run (L : List Nat) (log0 : List CloseEvent) (ops : List CloseOp) :
    ∀ (log : List CloseEvent) (s : Closers), aux_oc_Count (log0 ++ log) s →
    aux_oc_After L log s → .reconnect ∉ ops → .exit ∉ ops → (∀ i, .advance i false ∉ ops) →
    aux_oc_After L (log ++ (s.run ops).1) (s.run ops).2 := by
  induction ops with
  | nil => intro log s _ h _ _ _; simpa [Closers.run] using h
  | cons op ops ih =>
    intro log s hc h h1 h2 h3
    simp only [List.mem_cons, not_or] at h1 h2 h3
    simp only [Closers.run]
    rw [← List.append_assoc]
    refine ih _ _ ?_ (aux_oc_after_step hc h op (Ne.symm h1.1) (Ne.symm h2.1) (fun i => Ne.symm (h3 i).1)) h1.2 h2.2
      (fun i => (h3 i).2)
    rw [← List.append_assoc]
    exact aux_oc_count_step hc op

/-- **C29 (partial)** (exactly once and in order): let a connection that is never connected again be shut down
at any point, with any threads installing and removing handlers before, during and after. No handler was
started before. The handlers there were then, less those removed later, are started in their order: those
started so far are the first ones, and all of them when the shutdown has ended. -/
theorem C29_once_in_order_partial (before after : List CloseOp) (hb : OneLife before) (ha : OneLife after)
    (ht : ThreadsWork after) (hc : (Closers.init.run before).2.connected = true) :
    let order := closeOrder (Closers.init.run before).1
    let r := ((Closers.init.run before).2.step .shutdown).2.run after
    startedIn (Closers.init.run before).1 = [] ∧
    (startedIn r.1).filter (order.contains ·) <+: order.filter (fun id => !(removedIn r.1).contains id) ∧
    (r.2.drains = [] →
      (startedIn r.1).filter (order.contains ·) = order.filter (fun id => !(removedIn r.1).contains id)) := by
  have hcount := aux_oc_count_run before [] Closers.init aux_oc_count_init
  have hbef := aux_oc_before_run before [] Closers.init aux_oc_count_init aux_oc_before_init hb.1 hb.2
  simp only [List.nil_append] at hcount hbef
  generalize (Closers.init.run before).1 = log0 at *
  generalize (Closers.init.run before).2 = s at *
  obtain ⟨h1, h2, h3, h4⟩ := hbef.lists hc
  intro order r
  have hord : order = aux_oc_ids s.plain ++ aux_oc_ids s.full := by rw [h2, h3]; rfl
  have hstep : s.step .shutdown = ([], { s with connected := false, drains := [.enterPlain] }) := by
    simp [Closers.step, hc, h1]
  have hinit : aux_oc_After order [] (s.step .shutdown).2 := by
    rw [hstep]
    refine ⟨hbef.ex, rfl, .inr ⟨_, rfl⟩, ?_, ?_, ?_, ?_⟩
    · intro x hx
      have hx0 := hcount x
      have : 0 < (aux_oc_ids s.plain ++ aux_oc_ids s.full).count x := List.count_pos_iff.mpr (hord ▸ hx)
      rw [List.count_append] at this
      simp only [aux_oc_one] at hx0
      split at hx0
      · assumption
      · omega
    · have : startedIn [] ++ aux_oc_left { s with connected := false, drains := [.enterPlain] } = order := by
        rw [hord]; rfl
      rw [this]
      have e1 : order.filter (order.contains ·) = order := by
        apply List.filter_eq_self.mpr
        intro x hx
        simpa using hx
      rw [e1]
      symm
      apply List.filter_eq_self.mpr
      intro x _
      rfl
    · intro hr; simp [aux_oc_rank] at hr
    · intro hr; simp [aux_oc_rank] at hr
  have hcnt : aux_oc_Count (log0 ++ []) (s.step .shutdown).2 := by
    have := aux_oc_count_step hcount .shutdown
    rw [hstep] at this ⊢
    exact this
  have hfin := aux_oc_after_run order log0 after [] _ hcnt hinit ha.1 ha.2 ht
  simp only [List.nil_append] at hfin
  refine ⟨h4, ?_, ?_⟩
  · rw [← hfin.eq, List.filter_append]
    exact List.prefix_append _ _
  · intro hd
    rw [← hfin.eq, List.filter_append]
    have : (aux_oc_left r.2).filter (order.contains ·) = [] := by
      apply aux_oc_filter_none
      intro x hx
      simp only [aux_oc_left, aux_oc_flying, List.mem_append] at hx
      rcases hx with hx | hx | hx
      · rw [hd] at hx; simp at hx
      · exact hfin.pl (by rw [hd]; decide) x hx
      · exact hfin.fu (by rw [hd]; decide) x hx
    show _ = _ ++ List.filter (order.contains ·) (aux_oc_left r.2)
    rw [this, List.append_nil]

/-- Four handlers, installed at both ends; while the first runs, one is removed and one is installed. -/
example :
    let before : List CloseOp := [.install 7, .installFull true 1, .installFull false 2, .installFull true 3]
    let after : List CloseOp := [.advance 0 true, .advance 0 true, .advance 0 true, .remove 1, .installFull true 9,
      .advance 0 true, .advance 0 true, .advance 0 true, .advance 0 true, .advance 0 true, .advance 0 true,
      .advance 0 true, .advance 0 true, .advance 0 true, .advance 0 true]
    let r := ((Closers.init.run before).2.step .shutdown).2.run after
    closeOrder (Closers.init.run before).1 = [0, 2, 1, 3] ∧ removedIn r.1 = [1] ∧
    startedIn r.1 = [0, 2, 3, 4] ∧ r.2.drains = [] := by decide +kernel

/-- The work left to a thread that shuts the connection down. -/
def aux_oc_work (s : Closers) : List CloseStage → Nat
  | [] => 0
  | .enterPlain :: _ => 2 * (s.plain.getD []).length + 2 * (s.full.getD []).length + 5
  | .loopPlain :: _ => 2 * (s.plain.getD []).length + 2 * (s.full.getD []).length + 4
  | .startPlain _ :: _ => 2 * (s.plain.getD []).length + 2 * (s.full.getD []).length + 5
  | .enterFull :: _ => 2 * (s.full.getD []).length + 3
  | .loopFull :: _ => 2 * (s.full.getD []).length + 2
  | .startFull _ :: _ => 2 * (s.full.getD []).length + 3
  | .socket :: _ => 1

theorem aux_oc_work_step (s : Closers) (hs : s.drains.length ≤ 1) :
    (s.step (.advance 0 true)).2.drains.length ≤ 1 ∧
    aux_oc_work (s.step (.advance 0 true)).2 (s.step (.advance 0 true)).2.drains ≤ aux_oc_work s s.drains - 1 := by
  cases hd : s.drains with
  | nil => simp [Closers.step, hd, aux_oc_work]
  | cons st l =>
    have : l = [] := by
      rw [hd] at hs
      cases l with
      | nil => rfl
      | cons a l => simp at hs
    subst this
    have hg : s.drains[0]? = some st := by rw [hd]; rfl
    have hset : ∀ b, s.drains.set 0 b = [b] := by intro b; rw [hd]; rfl
    have herase : s.drains.eraseIdx 0 = [] := by rw [hd]; rfl
    simp only [Closers.step, hg]
    cases st with
    | enterPlain =>
      simp only [Closers.advance, hset]
      split <;> refine ⟨Nat.le_refl _, ?_⟩ <;> simp only [aux_oc_work] <;> omega
    | loopPlain =>
      simp only [Closers.advance]
      split
      · rename_i hp
        simp only [hset]
        refine ⟨Nat.le_refl _, ?_⟩
        simp only [aux_oc_work, hp, Option.getD_some, List.length_cons]
        omega
      · simp only [hset]
        refine ⟨Nat.le_refl _, ?_⟩
        simp only [aux_oc_work]
        omega
    | startPlain id =>
      simp only [Closers.advance, hset]
      refine ⟨Nat.le_refl _, ?_⟩
      simp only [aux_oc_work]
      omega
    | enterFull =>
      simp only [Closers.advance, hset]
      split <;> refine ⟨Nat.le_refl _, ?_⟩ <;> simp only [aux_oc_work] <;> omega
    | loopFull =>
      simp only [Closers.advance]
      split
      · rename_i hp
        simp only [hset]
        refine ⟨Nat.le_refl _, ?_⟩
        simp only [aux_oc_work, hp, Option.getD_some, List.length_cons]
        omega
      · simp only [hset]
        refine ⟨Nat.le_refl _, ?_⟩
        simp only [aux_oc_work]
        omega
    | startFull id =>
      simp only [Closers.advance, hset]
      refine ⟨Nat.le_refl _, ?_⟩
      simp only [aux_oc_work]
      omega
    | socket =>
      simp only [Closers.advance]
      split <;> simp [herase, aux_oc_work]

theorem aux_oc_work_run (n : Nat) : ∀ s : Closers, s.drains.length ≤ 1 → aux_oc_work s s.drains ≤ n →
    (s.run (List.replicate n (.advance 0 true))).2.drains = [] := by
  induction n with
  | zero =>
    intro s _ h
    simp only [List.replicate, Closers.run]
    cases hd : s.drains with
    | nil => rfl
    | cons st l => rw [hd] at h; cases st <;> simp [aux_oc_work] at h
  | succ n ih =>
    intro s hs h
    have := aux_oc_work_step s hs
    simp only [List.replicate, Closers.run]
    exact ih _ this.1 (by omega)

theorem aux_oc_single (ops : List CloseOp) : ∀ s : Closers, (s.connected = true → s.drains = []) →
    s.drains.length ≤ 1 → .reconnect ∉ ops → (s.run ops).2.drains.length ≤ 1 := by
  induction ops with
  | nil => intro s _ h _; exact h
  | cons op ops ih =>
    intro s h1 h2 hn
    simp only [List.mem_cons, not_or] at hn
    simp only [Closers.run]
    have key : ((s.step op).2.connected = true → (s.step op).2.drains = []) ∧ (s.step op).2.drains.length ≤ 1 := by
      cases op with
      | reconnect => exact absurd rfl hn.1
      | exit => exact ⟨h1, h2⟩
      | install key => exact ⟨h1, h2⟩
      | installFull last key => exact ⟨h1, h2⟩
      | remove key => simp only [Closers.step]; split <;> exact ⟨h1, h2⟩
      | shutdown =>
        simp only [Closers.step]
        split
        · rename_i hc; simp [h1 hc]
        · exact ⟨h1, h2⟩
      | advance i ok =>
        simp only [Closers.step]
        split
        · exact ⟨h1, h2⟩
        · rename_i st hi
          have hnc : s.connected = false := by
            cases hc : s.connected with
            | false => rfl
            | true => rw [h1 hc] at hi; simp at hi
          have : (s.advance i ok st).2.connected = s.connected ∧
              (s.advance i ok st).2.drains.length ≤ s.drains.length := by
            unfold Closers.advance
            split <;> (try split) <;> refine ⟨rfl, ?_⟩ <;>
              first | (simp only [List.length_set]; exact Nat.le_refl _) | exact List.length_eraseIdx_le ..
          exact ⟨by rw [this.1, hnc]; simp, Nat.le_trans this.2 h2⟩
    exact ih _ key.1 key.2 hn.2

/-- **C29** (it ends): after any history of a connection that is not connected again, a shutdown in course ends
after as many steps of its thread as twice the handlers there are and five, if no more are installed. -/
theorem C29_shutdown_ends (ops : List CloseOp) (h : OneLife ops) :
    let s := (Closers.init.run ops).2
    (s.run (List.replicate (2 * (s.plain.getD []).length + 2 * (s.full.getD []).length + 5)
      (.advance 0 true))).2.drains = [] := by
  intro s
  have hs : s.drains.length ≤ 1 := aux_oc_single ops Closers.init (by simp [Closers.init]) (by simp [Closers.init]) h.1
  refine aux_oc_work_run _ s hs ?_
  cases s.drains with
  | nil => simp [aux_oc_work]
  | cons st l => cases st <;> simp only [aux_oc_work] <;> omega

/-- **C29** (full statement, violated by `vortex_connection_reconnect`). -/
def C29_statement : Prop :=
  ∀ (before after : List CloseOp), OneLife before → CloseOp.exit ∉ after → ThreadsWork after →
    (Closers.init.run before).2.connected = true →
    let order := closeOrder (Closers.init.run before).1
    let r := ((Closers.init.run before).2.step .shutdown).2.run after
    r.2.drains = [] →
      (startedIn r.1).filter (order.contains ·) = order.filter (fun id => !(removedIn r.1).contains id)

/-- Two handlers. While the thread of the first shutdown is about to start the first of them, the connection
is connected again and shut down by another thread, which starts the second one before. -/
theorem C29_out_of_order :
    let before : List CloseOp := [.installFull true 1, .installFull true 2]
    let after : List CloseOp := [.advance 0 true, .advance 0 true, .advance 0 true, .reconnect, .shutdown,
      .advance 1 true, .advance 1 true, .advance 1 true, .advance 1 true, .advance 1 true, .advance 1 true,
      .advance 0 true, .advance 0 true, .advance 0 true]
    let r := ((Closers.init.run before).2.step .shutdown).2.run after
    r.2.drains = [] ∧ closeOrder (Closers.init.run before).1 = [0, 1] ∧ startedIn r.1 = [1, 0] ∧
    removedIn r.1 = [] := by decide +kernel

theorem C29_statement_false : ¬ C29_statement := by
  intro h
  have := h [.installFull true 1, .installFull true 2] [.advance 0 true, .advance 0 true, .advance 0 true, .reconnect,
    .shutdown, .advance 1 true, .advance 1 true, .advance 1 true, .advance 1 true, .advance 1 true, .advance 1 true,
    .advance 0 true, .advance 0 true, .advance 0 true] (by constructor <;> decide) (by decide)
    (by intro i hi; simp at hi) (by decide +kernel) (by decide +kernel)
  revert this
  decide +kernel

/-- **C29 (fault)**: the application connects again from its close handler, as the documentation shows. The
thread that is still in the shutdown then closes the new socket. -/
theorem C29_new_socket_closed :
    let r := Closers.init.run [.installFull true 1, .shutdown, .advance 0 true, .advance 0 true, .advance 0 true,
      .advance 0 true, .reconnect, .advance 0 true, .advance 0 true]
    r.1 = [.installedFull true 0, .started 0, .socketClosed 1] ∧ r.2.connected = true ∧ r.2.session = none := by
  decide +kernel

/-- **C29 (fault)**: if it installs its handler again then, the handler is started although the connection is
not broken. -/
theorem C29_started_while_connected :
    let s := (Closers.init.run [.installFull true 1, .shutdown, .advance 0 true, .advance 0 true, .advance 0 true,
      .advance 0 true, .reconnect, .installFull true 1, .advance 0 true]).2
    s.connected = true ∧ (s.step (.advance 0 true)).1 = [.started 1] := by decide +kernel

end Verif.Props
