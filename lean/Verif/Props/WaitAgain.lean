import Verif.Spec.WaitAgain
/-!
# C106: wait reply objects used for several messages
-/
namespace Verif.Props
open Verif.Model Verif.Spec

theorem aux_wg_run_append (a b : List WaOp) : ∀ x : WaState, x.run (a ++ b) = (((x.run a).1.run b).1, (x.run a).2 ++ ((x.run a).1.run b).2) := by
  induction a with
  | nil => intro x; rfl
  | cons op a ih => intro x; simp only [List.cons_append, WaState.run, ih]

theorem aux_wg_snoc (x : WaState) (a : List WaOp) (op : WaOp) :
    x.run (a ++ [op]) = (((x.run a).1.step op).1, (x.run a).2 ++ [((x.run a).1.step op).2]) := by
  rw [aux_wg_run_append]; rfl

/-- Induction over a history, at its end. -/
theorem aux_wg_ind (P : List WaOp → Prop) (h0 : P []) (h1 : ∀ a op, P a → P (a ++ [op])) (ops : List WaOp) : P ops := by
  have : ∀ n, ∀ l : List WaOp, l.length = n → P l := by
    intro n
    induction n with
    | zero => intro l hl; rw [List.length_eq_zero_iff.mp hl]; exact h0
    | succ n ih =>
      intro l hl
      have hne : l ≠ [] := by intro he; rw [he] at hl; simp at hl
      rw [← List.dropLast_concat_getLast hne]
      exact h1 _ _ (ih _ (by rw [List.length_dropLast, hl]; rfl))
  exact this _ ops rfl

/-! ## Memory -/

/-- The references of an object are those of the thread that created it and of the list of those waiting. -/
def aux_wg_M (x : WaState) : Prop :=
  (∀ o p, x.objs[o]? = some p → p.refs = (if p.owned then 1 else 0) + x.waiting.count o) ∧ ∀ o ∈ x.waiting, o < x.objs.length

theorem aux_wg_M_unref {x : WaState} {o : Nat} {p : WaObj} (hp : x.objs[o]? = some p)
    (h : ∀ i q, x.objs[i]? = some q → q.refs = (if q.owned then 1 else 0) + x.waiting.count i + (if i = o then 1 else 0))
    (hw : ∀ i ∈ x.waiting, i < x.objs.length) :
    aux_wg_M (x.unref o p).1 ∧ .fault ∉ (x.unref o p).2 := by
  have h0 := h o p hp
  rw [if_pos rfl] at h0
  have hlt : o < x.objs.length := by
    rcases Nat.lt_or_ge o x.objs.length with hh | hh
    · exact hh
    · rw [List.getElem?_eq_none hh] at hp; cases hp
  have hn : p.refs ≠ 0 := by omega
  simp only [WaState.unref]
  rw [if_neg hn]
  split
  · rename_i h1
    refine ⟨⟨?_, by simpa using hw⟩, by simp⟩
    intro i q hq
    rw [List.getElem?_set] at hq
    by_cases hi : o = i
    · subst hi
      simp only [if_true, hlt] at hq
      rw [← Option.some.inj hq]
      simp only
      have : (if p.owned then 1 else 0) + x.waiting.count o = 0 := by omega
      exact this.symm
    · simp only [hi, if_false] at hq
      have := h i q hq
      rw [if_neg (fun e : i = o => hi e.symm)] at this
      simpa using this
  · refine ⟨⟨?_, by simpa using hw⟩, by simp⟩
    intro i q hq
    rw [List.getElem?_set] at hq
    by_cases hi : o = i
    · subst hi
      simp only [if_true, hlt] at hq
      rw [← Option.some.inj hq]
      simp only
      omega
    · simp only [hi, if_false] at hq
      have := h i q hq
      rw [if_neg (fun e : i = o => hi e.symm)] at this
      simpa using this

theorem aux_wg_lt {x : WaState} {o : Nat} {p : WaObj} (hp : x.objs[o]? = some p) : o < x.objs.length := by
  rcases Nat.lt_or_ge o x.objs.length with hh | hh
  · exact hh
  · rw [List.getElem?_eq_none hh] at hp; cases hp

theorem aux_wg_M_step (x : WaState) (op : WaOp) (h : aux_wg_M x) : aux_wg_M (x.step op).1 ∧ .fault ∉ (x.step op).2 := by
  obtain ⟨h1, h2⟩ := h
  cases op with
  | create =>
    simp only [WaState.step]
    refine ⟨⟨?_, ?_⟩, by simp⟩
    · intro o p hp
      rw [List.getElem?_append] at hp
      by_cases hlt : o < x.objs.length
      · rw [if_pos hlt] at hp; exact h1 o p hp
      · rw [if_neg hlt] at hp
        have hc : x.waiting.count o = 0 := List.count_eq_zero.mpr (fun hm => hlt (h2 o hm))
        cases hd : o - x.objs.length with
        | zero => rw [hd] at hp; simp at hp; rw [← hp]; simp [hc]
        | succ n => rw [hd] at hp; simp at hp
    · intro o ho
      simp only [List.length_append, List.length_singleton]
      have := h2 o ho
      omega
  | send q =>
    cases q with
    | none => exact ⟨⟨h1, h2⟩, by simp [WaState.step]⟩
    | some o =>
      simp only [WaState.step]
      cases hp : x.objs[o]? with
      | none => exact ⟨⟨h1, h2⟩, by simp⟩
      | some p =>
        simp only
        split
        · exact ⟨⟨h1, h2⟩, by simp⟩
        · have hlt := aux_wg_lt hp
          refine ⟨⟨?_, ?_⟩, by simp⟩
          · intro i r hr
            simp only [List.count_append]
            rw [List.getElem?_set] at hr
            by_cases hi : o = i
            · subst hi
              simp only [if_true, hlt] at hr
              rw [← Option.some.inj hr]
              have := h1 o p hp
              simp only [List.count_singleton_self]
              omega
            · simp only [hi, if_false] at hr
              have hz : List.count i [o] = 0 := List.count_eq_zero.mpr (by simp; exact fun e => hi e.symm)
              rw [hz]; exact h1 i r hr
          · intro i hi
            simp only [List.length_set]
            rcases List.mem_append.mp hi with hi | hi
            · exact h2 i hi
            · rw [List.mem_singleton.mp hi]; exact hlt
  | reply one =>
    simp only [WaState.step]
    cases hk : x.open_ with
    | nil => exact ⟨⟨h1, h2⟩, by simp⟩
    | cons k rest =>
      simp only
      cases one with
      | false => exact ⟨⟨h1, h2⟩, by simp⟩
      | true =>
        simp only [if_true, WaState.dispatch]
        cases hw : x.waiting with
        | nil => exact ⟨⟨by simpa [hw] using h1, by simp⟩, by simp⟩
        | cons o ws =>
          have hlt : o < x.objs.length := h2 o (by rw [hw]; simp)
          simp only [List.getElem?_eq_getElem hlt]
          have hp : x.objs[o]? = some x.objs[o] := List.getElem?_eq_getElem hlt
          generalize x.objs[o] = p at hp
          have hr := h1 o p hp
          rw [hw, List.count_cons_self] at hr
          rw [if_neg (by omega)]
          split
          · exact ⟨⟨by simpa [hw] using h1, by simpa [hw] using h2⟩, by simp⟩
          · have := aux_wg_M_unref (x := { x with open_ := rest, waiting := ws, objs := x.objs.set o { p with box := p.box ++ [k] } }) (o := o) (p := { p with box := p.box ++ [k] }) (by simp [hlt])
              (by
                intro i q hq
                simp only at hq ⊢
                rw [List.getElem?_set] at hq
                by_cases hi : o = i
                · subst hi
                  simp only [if_true, hlt] at hq
                  rw [← Option.some.inj hq]
                  simp only [if_true]
                  omega
                · simp only [hi, if_false] at hq
                  rw [if_neg (fun e : i = o => hi e.symm)]
                  have := h1 i q hq
                  rw [hw, List.count_cons_of_ne hi] at this
                  exact this)
              (by
                intro i hi
                simp only [List.length_set]
                exact h2 i (by rw [hw]; exact List.mem_cons_of_mem _ hi))
            exact ⟨this.1, by simp [this.2]⟩
  | wait o =>
    simp only [WaState.step]
    cases hp : x.objs[o]? with
    | none => exact ⟨⟨h1, h2⟩, by simp⟩
    | some p =>
      have hlt := aux_wg_lt hp
      simp only
      split
      · exact ⟨⟨h1, h2⟩, by simp⟩
      · rename_i how
        cases hb : p.box with
        | nil => exact ⟨⟨h1, h2⟩, by simp⟩
        | cons k rest =>
          simp only
          have hr := h1 o p hp
          have := aux_wg_M_unref (x := { x with objs := x.objs.set o { p with box := rest, owned := false } }) (o := o) (p := { p with box := rest, owned := false }) (by simp [hlt])
            (by
              intro i q hq
              simp only at hq ⊢
              rw [List.getElem?_set] at hq
              by_cases hi : o = i
              · subst hi
                simp only [if_true, hlt] at hq
                rw [← Option.some.inj hq]
                simp only [if_true]
                rw [hr, if_pos (by simpa using how)]; simp; omega
              · simp only [hi, if_false] at hq
                rw [if_neg (fun e : i = o => hi e.symm)]
                exact h1 i q hq)
            (by intro i hi; simp only [List.length_set]; exact h2 i hi)
          exact ⟨this.1, by simp [this.2]⟩
  | drop o =>
    simp only [WaState.step]
    cases hp : x.objs[o]? with
    | none => exact ⟨⟨h1, h2⟩, by simp⟩
    | some p =>
      have hlt := aux_wg_lt hp
      simp only
      split
      · exact ⟨⟨h1, h2⟩, by simp⟩
      · rename_i how
        have hr := h1 o p hp
        exact aux_wg_M_unref (x := { x with objs := x.objs.set o { p with owned := false } }) (o := o) (p := { p with owned := false }) (by simp [hlt])
          (by
            intro i q hq
            simp only at hq ⊢
            rw [List.getElem?_set] at hq
            by_cases hi : o = i
            · subst hi
              simp only [if_true, hlt] at hq
              rw [← Option.some.inj hq]
              simp only [if_true]
              rw [hr, if_pos (by simpa using how)]; simp; omega
            · simp only [hi, if_false] at hq
              rw [if_neg (fun e : i = o => hi e.symm)]
              exact h1 i q hq)
          (by intro i hi; simp only [List.length_set]; exact h2 i hi)

theorem aux_wg_M_run (ops : List WaOp) : aux_wg_M (WaState.init.run ops).1 ∧ ∀ ev ∈ (WaState.init.run ops).2, .fault ∉ ev := by
  induction ops using aux_wg_ind with
  | h0 => exact ⟨⟨by intro o p hp; simp [WaState.run, WaState.init] at hp, by simp [WaState.run, WaState.init]⟩, by simp [WaState.run]⟩
  | h1 a op ih =>
    rw [aux_wg_snoc]
    have := aux_wg_M_step _ op ih.1
    refine ⟨this.1, fun ev he => ?_⟩
    rcases List.mem_append.mp he with he | he
    · exact ih.2 ev he
    · rw [List.mem_singleton.mp he]; exact this.2

/-- However objects are used, memory of an object is not used after it was released: an object that was given up is kept as long as the
channel has it in its list of those waiting. -/
theorem C106_memory (ops : List WaOp) : ∀ ev ∈ (WaState.init.run ops).2, .fault ∉ ev := (aux_wg_M_run ops).2

example : (WaState.init.run [.create, .send (some 0), .wait 0, .send (some 0), .reply true, .reply true, .wait 0, .drop 0]).2 =
    [[.created 0], [.sent 0 (some 0)], [.returned 0 none], [.sent 1 (some 0)], [.handler 0], [.given 1 0], [.returned 0 (some 1)], [.ignored]] := by decide

/-- An object that its thread gave up while its only message is unanswered is released with the reply, which is released as well. -/
theorem C106_given_up : (WaState.init.run [.create, .send (some 0), .wait 0, .drop 0, .reply true]).2 =
    [[.created 0], [.sent 0 (some 0)], [.returned 0 none], [], [.given 0 0, .freed 0 [0]]] := by decide

/-! ## Replies -/

/-- `f` says which object a message was sent with. -/
structure aux_wg_G (f : Nat → Option Nat) (x : WaState) (log : List (List WaEvent)) : Prop where
  mem : ∀ k o, .sent k (some o) ∈ log.flatten ↔ f k = some o
  lt : ∀ k o, f k = some o → k < x.sent
  obj : ∀ k o, f k = some o → ∃ p, x.objs[o]? = some p ∧ p.msg = k % 2 ^ 31
  inj : ∀ k k' o, f k = some o → f k' = some o → k = k'
  opened : ∀ k ∈ x.open_, k < x.sent
  waits : ∀ o ∈ x.waiting, ∃ k, f k = some o
  box : ∀ o p, x.objs[o]? = some p → ∀ k ∈ p.box, f k = some o

/-- With the objects of the list of those waiting in the order of the messages. -/
def aux_wg_A (f : Nat → Option Nat) (x : WaState) : Prop := x.waiting = x.open_.filterMap f ∧ x.open_.Nodup

/-- What a step that sends nothing has to keep. -/
theorem aux_wg_G_keep {f : Nat → Option Nat} {x y : WaState} {log : List (List WaEvent)} {ev : List WaEvent} (h : aux_wg_G f x log)
    (hs : y.sent = x.sent) (hn : ∀ k o, .sent k (some o) ∉ ev) (hop : ∀ k ∈ y.open_, k ∈ x.open_) (hw : ∀ o ∈ y.waiting, o ∈ x.waiting)
    (hm : ∀ (o : Nat) (p : WaObj), x.objs[o]? = some p → ∃ q : WaObj, y.objs[o]? = some q ∧ q.msg = p.msg)
    (hb : ∀ (o : Nat) (q : WaObj), y.objs[o]? = some q → ∀ k ∈ q.box, f k = some o) : aux_wg_G f y (log ++ [ev]) where
  mem k o := by
    rw [List.flatten_append, List.mem_append, ← h.mem]
    simp [hn]
  lt k o hf := by rw [hs]; exact h.lt k o hf
  obj k o hf := by
    obtain ⟨p, hp, hk⟩ := h.obj k o hf
    obtain ⟨q, hq, he⟩ := hm o p hp
    exact ⟨q, hq, by rw [he, hk]⟩
  inj := h.inj
  opened k hk := by rw [hs]; exact h.opened k (hop k hk)
  waits o ho := h.waits o (hw o ho)
  box := hb

/-- Releasing a reference. -/
theorem aux_wg_unref {x : WaState} {o : Nat} {p : WaObj} (hp : x.objs[o]? = some p) :
    (x.unref o p).1.sent = x.sent ∧ (x.unref o p).1.open_ = x.open_ ∧ (x.unref o p).1.waiting = x.waiting ∧
    (∀ e ∈ (x.unref o p).2, (∀ k i, e ≠ .sent k i) ∧ (∀ k, e ≠ .handler k) ∧ (∀ k i, e ≠ .given k i) ∧ ∀ i k, e ≠ .returned i k) ∧
    (∀ (i : Nat) (r : WaObj), x.objs[i]? = some r → ∃ q : WaObj, (x.unref o p).1.objs[i]? = some q ∧ q.msg = r.msg) ∧
    (∀ (i : Nat) (q : WaObj), (x.unref o p).1.objs[i]? = some q → ∃ r : WaObj, x.objs[i]? = some r ∧ ∀ k ∈ q.box, k ∈ r.box) := by
  have hlt := aux_wg_lt hp
  simp only [WaState.unref]
  split
  · exact ⟨rfl, rfl, rfl, by simp, fun i r hr => ⟨r, hr, rfl⟩, fun i q hq => ⟨q, hq, fun k hk => hk⟩⟩
  · have set : ∀ p' : WaObj, p'.msg = p.msg → (∀ k ∈ p'.box, k ∈ p.box) →
        (∀ (i : Nat) (r : WaObj), x.objs[i]? = some r → ∃ q : WaObj, (x.objs.set o p')[i]? = some q ∧ q.msg = r.msg) ∧
        (∀ (i : Nat) (q : WaObj), (x.objs.set o p')[i]? = some q → ∃ r : WaObj, x.objs[i]? = some r ∧ ∀ k ∈ q.box, k ∈ r.box) := by
      intro p' hm hb
      constructor
      · intro i r hr
        by_cases hi : o = i
        · subst hi
          rw [hp] at hr
          exact ⟨p', by simp [hlt], by rw [hm, Option.some.inj hr]⟩
        · exact ⟨r, by rw [List.getElem?_set, if_neg hi]; exact hr, rfl⟩
      · intro i q hq
        rw [List.getElem?_set] at hq
        by_cases hi : o = i
        · subst hi
          simp only [if_true, hlt] at hq
          exact ⟨p, hp, by rw [← Option.some.inj hq]; exact hb⟩
        · rw [if_neg hi] at hq
          exact ⟨q, hq, fun k hk => hk⟩
    split
    · obtain ⟨a, b⟩ := set { p with refs := 0, box := [] } rfl (by simp)
      exact ⟨rfl, rfl, rfl, by simp, a, b⟩
    · obtain ⟨a, b⟩ := set { p with refs := p.refs - 1 } rfl (fun k hk => hk)
      exact ⟨rfl, rfl, rfl, by simp, a, b⟩

/-- The reply to the oldest message. -/
theorem aux_wg_dispatch {f : Nat → Option Nat} {x : WaState} {log : List (List WaEvent)} {k : Nat} {rest : List Nat} (h : aux_wg_G f x log)
    (hM : aux_wg_M x) (hk : x.open_ = k :: rest) (hb : x.sent ≤ 2 ^ 31) :
    let y := (x.step (.reply true)).1
    let ev := (x.step (.reply true)).2
    aux_wg_G f y (log ++ [ev]) ∧
    (aux_wg_A f x → aux_wg_A f y ∧ (∀ o, f k = some o → .given k o ∈ ev) ∧ (f k = none → ev = [.handler k])) ∧
    (∀ o j, .returned o j ∉ ev) ∧ (∀ j i, .given j i ∈ ev → f j = some i) := by
  have hklt : k < x.sent := h.opened k (by rw [hk]; simp)
  simp only [WaState.step, hk, if_true, WaState.dispatch]
  cases hw : x.waiting with
  | nil =>
    simp only
    refine ⟨aux_wg_G_keep h rfl (by simp) (fun j hj => by rw [hk]; exact List.mem_cons_of_mem _ hj) (by intro o ho; simp at ho) (fun o p hp => ⟨p, hp, rfl⟩) h.box, ?_, by simp, by simp⟩
    intro ⟨ha, hnd⟩
    rw [hw, hk] at ha
    have hfn : f k = none := by
      cases hf : f k with
      | none => rfl
      | some o => rw [List.filterMap_cons_some hf] at ha; cases ha
    rw [List.filterMap_cons_none hfn] at ha
    rw [hk] at hnd
    exact ⟨⟨by simp [ha], (List.nodup_cons.mp hnd).2⟩, by simp [hfn], by simp⟩
  | cons o ws =>
    obtain ⟨k', hf'⟩ := h.waits o (by rw [hw]; simp)
    obtain ⟨p, hp, hpk⟩ := h.obj k' o hf'
    have hk' := h.lt k' o hf'
    have hlt := aux_wg_lt hp
    have hr := hM.1 o p hp
    rw [hw, List.count_cons_self] at hr
    simp only [hp]
    rw [if_neg (by omega)]
    have e1 : k % 2 ^ 31 = k := Nat.mod_eq_of_lt (by omega)
    have e2 : k' % 2 ^ 31 = k' := Nat.mod_eq_of_lt (by omega)
    by_cases he : k = k'
    · subst he
      rw [if_neg (by rw [hpk]; simp)]
      have hp' : ({ x with open_ := rest, waiting := ws, objs := x.objs.set o { p with box := p.box ++ [k] } } : WaState).objs[o]? = some { p with box := p.box ++ [k] } := by simp [hlt]
      obtain ⟨u1, u2, u3, u4, u5, u6⟩ := aux_wg_unref hp'
      simp only
      refine ⟨aux_wg_G_keep h u1 ?_ ?_ ?_ ?_ ?_, ?_, ?_, ?_⟩
      · intro j i hm
        rcases List.mem_cons.mp hm with hm | hm
        · cases hm
        · exact (u4 _ hm).1 _ _ rfl
      · intro j hj; rw [u2] at hj; rw [hk]; exact List.mem_cons_of_mem _ hj
      · intro i hi; rw [u3] at hi; rw [hw]; exact List.mem_cons_of_mem _ hi
      · intro i r hri
        by_cases hi : o = i
        · subst hi
          rw [hp] at hri
          obtain ⟨q, hq, hqm⟩ := u5 o _ hp'
          exact ⟨q, hq, by rw [hqm, ← Option.some.inj hri]⟩
        · exact u5 i r (by simp only; rw [List.getElem?_set, if_neg hi]; exact hri)
      · intro i q hq j hj
        obtain ⟨r, hri, hrb⟩ := u6 i q hq
        have hj := hrb j hj
        simp only at hri
        rw [List.getElem?_set] at hri
        by_cases hi : o = i
        · subst hi
          simp only [if_true, hlt] at hri
          rw [← Option.some.inj hri] at hj
          rcases List.mem_append.mp hj with hj | hj
          · exact h.box o p hp j hj
          · rw [List.mem_singleton.mp hj]; exact hf'
        · rw [if_neg hi] at hri
          exact h.box i r hri j hj
      · intro ⟨ha, hnd⟩
        rw [hw, hk, List.filterMap_cons_some hf'] at ha
        rw [hk] at hnd
        refine ⟨⟨by rw [u3, u2]; simpa using ha, by rw [u2]; exact (List.nodup_cons.mp hnd).2⟩, ?_, ?_⟩
        · intro i hi
          rw [hf'] at hi
          rw [Option.some.inj hi]; simp
        · intro hn; rw [hf'] at hn; cases hn
      · intro i j hm
        rcases List.mem_cons.mp hm with hm | hm
        · cases hm
        · exact (u4 _ hm).2.2.2 _ _ rfl
      · intro j i hm
        rcases List.mem_cons.mp hm with hm | hm
        · cases hm; exact hf'
        · exact absurd rfl ((u4 _ hm).2.2.1 _ _)
    · rw [if_pos (by rw [hpk, e1, e2]; exact he)]
      refine ⟨aux_wg_G_keep h rfl (by simp) (fun j hj => by rw [hk]; exact List.mem_cons_of_mem _ hj) (by intro i hi; rw [hw]; exact hi) (fun i r hr => ⟨r, hr, rfl⟩) h.box, ?_, by simp, by simp⟩
      intro ⟨ha, hnd⟩
      rw [hw, hk] at ha
      rw [hk] at hnd
      have hfn : f k = none := by
        cases hf : f k with
        | none => rfl
        | some i =>
          rw [List.filterMap_cons_some hf] at ha
          have hi : o = i := (List.cons.inj ha).1
          rw [← hi] at hf
          exact absurd (h.inj k k' o hf hf') he
      rw [List.filterMap_cons_none hfn] at ha
      exact ⟨⟨ha, (List.nodup_cons.mp hnd).2⟩, by simp [hfn], by simp⟩

theorem aux_wg_once_init {a : List WaOp} {op : WaOp} (h : waOnce (a ++ [op])) : waOnce a := by
  intro a' o b he
  exact h a' o (b ++ [op]) (by rw [he]; simp)

theorem aux_wg_sent_le {a : List WaOp} (x : WaState) (op : WaOp) : x.sent ≤ (x.step op).1.sent := by
  have un : ∀ (y : WaState) o p, (y.unref o p).1.sent = y.sent := by
    intro y o p
    simp only [WaState.unref]; split
    · rfl
    · split <;> rfl
  cases op with
  | create => exact Nat.le_refl _
  | send q =>
    cases q with
    | none => exact Nat.le_succ _
    | some o =>
      simp only [WaState.step]
      split
      · exact Nat.le_refl _
      · split
        · exact Nat.le_refl _
        · exact Nat.le_succ _
  | reply one =>
    simp only [WaState.step]
    split
    · exact Nat.le_refl _
    · split
      · simp only [WaState.dispatch]
        split
        · exact Nat.le_refl _
        · split
          · exact Nat.le_refl _
          · split
            · exact Nat.le_refl _
            · split
              · exact Nat.le_refl _
              · rw [un]; exact Nat.le_refl _
      · exact Nat.le_refl _
  | wait o =>
    simp only [WaState.step]
    split
    · exact Nat.le_refl _
    · split
      · exact Nat.le_refl _
      · split
        · exact Nat.le_refl _
        · rw [un]; exact Nat.le_refl _
  | drop o =>
    simp only [WaState.step]
    split
    · exact Nat.le_refl _
    · split
      · exact Nat.le_refl _
      · rw [un]; exact Nat.le_refl _

theorem aux_wg_waSent {o k : Nat} {log : List (List WaEvent)} : k ∈ waSent o log ↔ .sent k (some o) ∈ log.flatten := by
  simp only [waSent, List.mem_filterMap]
  constructor
  · rintro ⟨e, he, hm⟩
    cases e with
    | sent j i =>
      cases i with
      | none => simp at hm
      | some i =>
        simp only at hm
        split at hm
        · rename_i hi; rw [← Option.some.inj hm, ← hi]; exact he
        · cases hm
    | _ => simp at hm
  · intro h
    exact ⟨_, h, by simp⟩

def aux_wg_pick (o : Nat) (e : WaEvent) : Option Nat := match e with | .sent k (some i) => if i = o then some k else none | _ => none

theorem aux_wg_waSent_eq (o : Nat) (log : List (List WaEvent)) : waSent o log = log.flatten.filterMap (aux_wg_pick o) := rfl

/-- A step. -/
theorem aux_wg_G_step {f : Nat → Option Nat} {x : WaState} {log : List (List WaEvent)} {op : WaOp} (h : aux_wg_G f x log) (hM : aux_wg_M x)
    (hb : x.sent ≤ 2 ^ 31) (ho : ∀ o, op = .send (some o) → waSent o log = []) :
    ∃ f', aux_wg_G f' (x.step op).1 (log ++ [(x.step op).2]) ∧ (op ≠ .reply false → aux_wg_A f x → aux_wg_A f' (x.step op).1) ∧
      (∀ o k, .returned o (some k) ∈ (x.step op).2 → f' k = some o) ∧ (∀ j i, .given j i ∈ (x.step op).2 → f' j = some i) := by
  have same : ∀ {ev : List WaEvent}, (∀ e ∈ ev, (∀ k i, e ≠ .sent k i)) → aux_wg_G f x (log ++ [ev]) := fun hev =>
    aux_wg_G_keep h rfl (fun k o hm => hev _ hm _ _ rfl) (fun k hk => hk) (fun o ho => ho) (fun o p hp => ⟨p, hp, rfl⟩) h.box
  -- the cases where an object is changed by its thread
  have own : ∀ {o : Nat} {p p' : WaObj} {ev : List WaEvent}, x.objs[o]? = some p → p'.msg = p.msg → (∀ k ∈ p'.box, k ∈ p.box) →
      (∀ e ∈ ev, ∀ k i, e ≠ .sent k i) →
      aux_wg_G f (WaState.unref { x with objs := x.objs.set o p' } o p').1 (log ++ [ev ++ (WaState.unref { x with objs := x.objs.set o p' } o p').2]) ∧
      (aux_wg_A f x → aux_wg_A f (WaState.unref { x with objs := x.objs.set o p' } o p').1) := by
    intro o p p' ev hp hm hbx hev
    have hlt := aux_wg_lt hp
    have hp' : ({ x with objs := x.objs.set o p' } : WaState).objs[o]? = some p' := by simp [hlt]
    obtain ⟨u1, u2, u3, u4, u5, u6⟩ := aux_wg_unref hp'
    refine ⟨aux_wg_G_keep h u1 ?_ (by rw [u2]; exact fun k hk => hk) (by rw [u3]; exact fun k hk => hk) ?_ ?_, ?_⟩
    · intro k i hmem
      rcases List.mem_append.mp hmem with hmem | hmem
      · exact hev _ hmem _ _ rfl
      · exact (u4 _ hmem).1 _ _ rfl
    · intro i r hr
      by_cases hi : o = i
      · subst hi
        rw [hp] at hr
        obtain ⟨q, hq, hqm⟩ := u5 o _ hp'
        exact ⟨q, hq, by rw [hqm, hm, Option.some.inj hr]⟩
      · exact u5 i r (by simp only; rw [List.getElem?_set, if_neg hi]; exact hr)
    · intro i q hq j hj
      obtain ⟨r, hri, hrb⟩ := u6 i q hq
      have hj := hrb j hj
      simp only at hri
      rw [List.getElem?_set] at hri
      by_cases hi : o = i
      · subst hi
        simp only [if_true, hlt] at hri
        rw [← Option.some.inj hri] at hj
        exact h.box o p hp j (hbx j hj)
      · rw [if_neg hi] at hri
        exact h.box i r hri j hj
    · intro ⟨ha, hnd⟩
      exact ⟨by rw [u3, u2]; exact ha, by rw [u2]; exact hnd⟩
  cases op with
  | create =>
    refine ⟨f, aux_wg_G_keep h rfl (by simp [WaState.step]) (fun k hk => hk) (fun o ho => ho) ?_ ?_, fun _ ha => ha, by simp [WaState.step], by simp [WaState.step]⟩
    · intro o p hp
      exact ⟨p, by simp only [WaState.step]; rw [List.getElem?_append_left (aux_wg_lt hp)]; exact hp, rfl⟩
    · intro o q hq
      simp only [WaState.step] at hq
      rw [List.getElem?_append] at hq
      by_cases hlt : o < x.objs.length
      · rw [if_pos hlt] at hq; exact h.box o q hq
      · rw [if_neg hlt] at hq
        cases hd : o - x.objs.length with
        | zero => rw [hd] at hq; simp at hq; rw [← hq]; simp
        | succ n => rw [hd] at hq; simp at hq
  | send q =>
    cases q with
    | none =>
      have hfn : f x.sent = none := by
        cases hf : f x.sent with
        | none => rfl
        | some o => exact absurd (h.lt _ _ hf) (Nat.lt_irrefl _)
      refine ⟨f, ?_, ?_, by simp [WaState.step], by simp [WaState.step]⟩
      · exact {
          mem := fun k o => by rw [List.flatten_append, List.mem_append, ← h.mem]; simp [WaState.step]
          lt := fun k o hf => Nat.lt_succ_of_lt (h.lt k o hf)
          obj := h.obj
          inj := h.inj
          opened := fun k hk => by
            simp only [WaState.step] at hk ⊢
            rcases List.mem_append.mp hk with hk | hk
            · exact Nat.lt_succ_of_lt (h.opened k hk)
            · rw [List.mem_singleton.mp hk]; exact Nat.lt_succ_self _
          waits := h.waits
          box := h.box }
      · intro _ ⟨ha, hnd⟩
        simp only [WaState.step]
        refine ⟨?_, ?_⟩
        · simp only [List.filterMap_append]
          rw [← ha, List.filterMap_cons_none hfn]; simp
        · rw [List.nodup_append]
          refine ⟨hnd, by simp, ?_⟩
          intro a ha' b hb'
          rw [List.mem_singleton.mp hb']
          exact Nat.ne_of_lt (h.opened a ha')
    | some o =>
      simp only [WaState.step]
      cases hp : x.objs[o]? with
      | none => exact ⟨f, same (by simp), fun _ ha => ha, by simp, by simp⟩
      | some p =>
        simp only
        split
        · exact ⟨f, same (by simp), fun _ ha => ha, by simp, by simp⟩
        · have hlt := aux_wg_lt hp
          have hfresh : ∀ k, f k ≠ some o := by
            intro k hf
            have := aux_wg_waSent.mpr ((h.mem k o).mpr hf)
            rw [ho o rfl] at this; cases this
          have hfn : f x.sent = none := by
            cases hf : f x.sent with
            | none => rfl
            | some o => exact absurd (h.lt _ _ hf) (Nat.lt_irrefl _)
          refine ⟨fun k => if k = x.sent then some o else f k, ?_, ?_, by simp, by simp⟩
          · exact {
              mem := fun k i => by
                rw [List.flatten_append, List.mem_append, h.mem]
                by_cases hk : k = x.sent
                · subst hk; simp [hfn]; exact ⟨fun e => e.symm, fun e => e.symm⟩
                · simp [hk]
              lt := fun k i hf => by
                by_cases hk : k = x.sent
                · rw [hk]; exact Nat.lt_succ_self _
                · rw [if_neg hk] at hf; exact Nat.lt_succ_of_lt (h.lt k i hf)
              obj := fun k i hf => by
                simp only at hf ⊢
                by_cases hk : k = x.sent
                · rw [if_pos hk] at hf
                  rw [← Option.some.inj hf, hk]
                  exact ⟨{ p with msg := x.sent % 2 ^ 31, refs := p.refs + 1 }, by simp [hlt], rfl⟩
                · rw [if_neg hk] at hf
                  have hi : o ≠ i := fun e => hfresh k (by rw [e]; exact hf)
                  rw [List.getElem?_set, if_neg hi]
                  exact h.obj k i hf
              inj := fun k k' i hf hf' => by
                by_cases hk : k = x.sent
                · rw [if_pos hk] at hf
                  by_cases hk' : k' = x.sent
                  · rw [hk, hk']
                  · rw [if_neg hk', ← hf] at hf'; exact absurd hf' (hfresh k')
                · rw [if_neg hk] at hf
                  by_cases hk' : k' = x.sent
                  · rw [if_pos hk'] at hf'; rw [← hf'] at hf; exact absurd hf (hfresh k)
                  · rw [if_neg hk'] at hf'; exact h.inj k k' i hf hf'
              opened := fun k hk => by
                rcases List.mem_append.mp hk with hk | hk
                · exact Nat.lt_succ_of_lt (h.opened k hk)
                · rw [List.mem_singleton.mp hk]; exact Nat.lt_succ_self _
              waits := fun i hi => by
                rcases List.mem_append.mp hi with hi | hi
                · obtain ⟨k, hk⟩ := h.waits i hi
                  exact ⟨k, by rw [if_neg (Nat.ne_of_lt (h.lt k i hk))]; exact hk⟩
                · rw [List.mem_singleton.mp hi]; exact ⟨x.sent, by simp⟩
              box := fun i q hq j hj => by
                simp only at hq ⊢
                have : f j = some i := by
                  rw [List.getElem?_set] at hq
                  by_cases hi : o = i
                  · subst hi
                    simp only [if_true, hlt] at hq
                    rw [← Option.some.inj hq] at hj
                    exact h.box o p hp j hj
                  · rw [if_neg hi] at hq; exact h.box i q hq j hj
                rw [if_neg (Nat.ne_of_lt (h.lt j i this))]; exact this }
          · intro _ ⟨ha, hnd⟩
            refine ⟨?_, ?_⟩
            · simp only [List.filterMap_append]
              have cong : ∀ l : List Nat, (∀ a ∈ l, a < x.sent) → List.filterMap (fun k => if k = x.sent then some o else f k) l = List.filterMap f l := by
                intro l
                induction l with
                | nil => intro _; rfl
                | cons a l ih =>
                  intro hl
                  have e : (if a = x.sent then some o else f a) = f a := if_neg (Nat.ne_of_lt (hl a (by simp)))
                  have ih := ih (fun b hb => hl b (List.mem_cons_of_mem _ hb))
                  cases hf : f a with
                  | none => rw [List.filterMap_cons_none (by rw [e, hf]), List.filterMap_cons_none hf, ih]
                  | some i => rw [List.filterMap_cons_some (by rw [e, hf]), List.filterMap_cons_some hf, ih]
              have := cong x.open_ h.opened
              rw [this, ← ha]; simp
            · rw [List.nodup_append]
              refine ⟨hnd, by simp, ?_⟩
              intro a ha' b hb'
              rw [List.mem_singleton.mp hb']
              exact Nat.ne_of_lt (h.opened a ha')
  | reply one =>
    cases hk : x.open_ with
    | nil =>
      simp only [WaState.step, hk]
      exact ⟨f, same (by simp), fun _ ha => ha, by simp, by simp⟩
    | cons k rest =>
      cases one with
      | true =>
        obtain ⟨a, b, c, d⟩ := aux_wg_dispatch h hM hk hb
        exact ⟨f, a, fun _ ha => (b ha).1, fun o j hm => absurd hm (c o (some j)), d⟩
      | false =>
        simp only [WaState.step, hk]
        exact ⟨f, aux_wg_G_keep h rfl (by simp) (fun j hj => by rw [hk]; exact List.mem_cons_of_mem _ hj) (fun o ho => ho) (fun o p hp => ⟨p, hp, rfl⟩) h.box, fun hc => absurd rfl hc, by simp, by simp⟩
  | wait o =>
    simp only [WaState.step]
    cases hp : x.objs[o]? with
    | none => exact ⟨f, same (by simp), fun _ ha => ha, by simp, by simp⟩
    | some p =>
      simp only
      split
      · exact ⟨f, same (by simp), fun _ ha => ha, by simp, by simp⟩
      · cases hbx : p.box with
        | nil => exact ⟨f, same (by simp), fun _ ha => ha, by simp, by simp⟩
        | cons k rest =>
          simp only
          obtain ⟨a, b⟩ := own (p' := { p with box := rest, owned := false }) (ev := [.returned o (some k)]) hp rfl (by intro j hj; rw [hbx]; exact List.mem_cons_of_mem _ hj) (by simp)
          have hp' : ({ x with objs := x.objs.set o { p with box := rest, owned := false } } : WaState).objs[o]? = some { p with box := rest, owned := false } := by simp [aux_wg_lt hp]
          obtain ⟨_, _, _, u4, _, _⟩ := aux_wg_unref hp'
          refine ⟨f, by simpa using a, fun _ ha => b ha, ?_, ?_⟩
          · intro i j hm
            rcases List.mem_cons.mp hm with hm | hm
            · cases hm; exact h.box o p hp k (by rw [hbx]; simp)
            · exact absurd rfl ((u4 _ hm).2.2.2 _ _)
          · intro j i hm
            rcases List.mem_cons.mp hm with hm | hm
            · cases hm
            · exact absurd rfl ((u4 _ hm).2.2.1 _ _)
  | drop o =>
    simp only [WaState.step]
    cases hp : x.objs[o]? with
    | none => exact ⟨f, same (by simp), fun _ ha => ha, by simp, by simp⟩
    | some p =>
      simp only
      split
      · exact ⟨f, same (by simp), fun _ ha => ha, by simp, by simp⟩
      · obtain ⟨a, b⟩ := own (p' := { p with owned := false }) (ev := []) hp rfl (fun j hj => hj) (by simp)
        have hp' : ({ x with objs := x.objs.set o { p with owned := false } } : WaState).objs[o]? = some { p with owned := false } := by simp [aux_wg_lt hp]
        obtain ⟨_, _, _, u4, _, _⟩ := aux_wg_unref hp'
        exact ⟨f, by simpa using a, fun _ ha => b ha, fun i j hm => absurd rfl ((u4 _ hm).2.2.2 _ _), fun j i hm => absurd rfl ((u4 _ hm).2.2.1 _ _)⟩

theorem aux_wg_G_run (ops : List WaOp) (ho : waOnce ops) (hb : (WaState.init.run ops).1.sent ≤ 2 ^ 31) :
    ∃ f, aux_wg_G f (WaState.init.run ops).1 (WaState.init.run ops).2 ∧ (waOneToOne ops → aux_wg_A f (WaState.init.run ops).1) := by
  induction ops using aux_wg_ind with
  | h0 =>
    refine ⟨fun _ => none, ⟨by simp [WaState.run], by simp, by simp, by simp, by simp [WaState.run, WaState.init], by simp [WaState.run, WaState.init], by simp [WaState.run, WaState.init]⟩, ?_⟩
    intro _
    exact ⟨rfl, by simp [WaState.run, WaState.init]⟩
  | h1 a op ih =>
    have hb' : (WaState.init.run a).1.sent ≤ 2 ^ 31 := by
      refine Nat.le_trans (aux_wg_sent_le (a := a) _ op) ?_
      rw [aux_wg_snoc] at hb; exact hb
    obtain ⟨f, hG, hA⟩ := ih (aux_wg_once_init ho) hb'
    rw [aux_wg_snoc]
    obtain ⟨f', h1, h2, _, _⟩ := aux_wg_G_step (op := op) hG (aux_wg_M_run a).1 hb' (fun o he => ho a o [] (by rw [he]))
    refine ⟨f', h1, fun h11 => h2 ?_ (hA ?_)⟩
    · intro he; exact h11 (by rw [he]; simp)
    · intro hm; exact h11 (List.mem_append_left _ hm)

/-- If every object is used for one message, a thread that is given a reply is given the one to its own message. What is missing: objects
used again (`C106_wrong_reply`). -/
theorem C106_own_reply_partial (ops : List WaOp) (o k : Nat) (ho : waOnce ops) (hb : (WaState.init.run ops).1.sent ≤ 2 ^ 31)
    (h : .returned o (some k) ∈ ((WaState.init.run ops).1.step (.wait o)).2) : waSent o (WaState.init.run ops).2 = [k] := by
  obtain ⟨f, hG, _⟩ := aux_wg_G_run ops ho hb
  have hf : f k = some o := by
    simp only [WaState.step] at h
    cases hp : (WaState.init.run ops).1.objs[o]? with
    | none => rw [hp] at h; simp at h
    | some p =>
      rw [hp] at h
      simp only at h
      split at h
      · simp at h
      · cases hbx : p.box with
        | nil => rw [hbx] at h; simp at h
        | cons j rest =>
          rw [hbx] at h
          simp only at h
          have hp' : ({ (WaState.init.run ops).1 with objs := (WaState.init.run ops).1.objs.set o { p with box := rest, owned := false } } : WaState).objs[o]? = some { p with box := rest, owned := false } := by simp [aux_wg_lt hp]
          obtain ⟨_, _, _, u4, _, _⟩ := aux_wg_unref hp'
          rcases List.mem_cons.mp h with h | h
          · cases h; exact hG.box o p hp k (by rw [hbx]; simp)
          · exact absurd rfl ((u4 _ h).2.2.2 _ _)
  have all : ∀ j ∈ waSent o (WaState.init.run ops).2, j = k := fun j hj => hG.inj j k o ((hG.mem j o).mp (aux_wg_waSent.mp hj)) hf
  have hmem : k ∈ waSent o (WaState.init.run ops).2 := aux_wg_waSent.mpr ((hG.mem k o).mpr hf)
  have len : ∀ b, waOnce b → (waSent o (WaState.init.run b).2).length ≤ 1 := by
    intro b
    induction b using aux_wg_ind with
    | h0 => intro _; simp [waSent, WaState.run]
    | h1 a op ih =>
      intro hob
      rw [aux_wg_snoc]
      have ih := ih (aux_wg_once_init hob)
      simp only [aux_wg_waSent_eq, List.flatten_append, List.filterMap_append, List.length_append] at ih ⊢
      generalize hev : ((WaState.init.run a).1.step op).2 = ev
      have key : (List.filterMap (aux_wg_pick o) [ev].flatten).length = 0 ∨
          (op = .send (some o) ∧ (List.filterMap (aux_wg_pick o) [ev].flatten).length ≤ 1) := by
        have none_of : (∀ e ∈ ev, ∀ k, e ≠ .sent k (some o)) → (List.filterMap (aux_wg_pick o) [ev].flatten).length = 0 := by
          intro hn
          rw [List.length_eq_zero_iff]
          apply List.filterMap_eq_nil_iff.mpr
          intro e he
          simp only [List.flatten_cons, List.flatten_nil, List.append_nil] at he
          cases e with
          | sent j i =>
            cases i with
            | none => rfl
            | some i =>
              simp only [aux_wg_pick]
              rw [if_neg]
              intro hi; subst hi; exact hn _ he _ rfl
          | _ => rfl
        have unr : ∀ (y : WaState) i p, ∀ e ∈ (y.unref i p).2, ∀ k, e ≠ .sent k (some o) := by
          intro y i p e he k hk
          subst hk
          simp only [WaState.unref] at he
          split at he
          · simp at he
          · split at he <;> simp at he
        cases op with
        | create => left; apply none_of; rw [← hev]; simp [WaState.step]
        | send q =>
          cases q with
          | none => left; apply none_of; rw [← hev]; simp [WaState.step]
          | some i =>
            by_cases hi : i = o
            · subst hi
              right
              refine ⟨rfl, ?_⟩
              rw [← hev]
              simp only [WaState.step]
              refine Nat.le_trans (List.length_filterMap_le _ _) ?_
              split
              · simp
              · split <;> simp
            · left
              apply none_of; rw [← hev]
              simp only [WaState.step]
              split
              · simp
              · split
                · simp
                · intro e he k hk; subst hk; simp at he; exact hi he.2.symm
        | reply one =>
          left; apply none_of; rw [← hev]
          intro e he k hk
          subst hk
          simp only [WaState.step] at he
          split at he
          · simp at he
          · split at he
            · simp only [WaState.dispatch] at he
              split at he
              · simp at he
              · split at he
                · simp at he
                · split at he
                  · simp at he
                  · split at he
                    · simp at he
                    · rcases List.mem_cons.mp he with he | he
                      · cases he
                      · exact unr _ _ _ _ he _ rfl
            · simp at he
        | wait i =>
          left; apply none_of; rw [← hev]
          intro e he k hk
          subst hk
          simp only [WaState.step] at he
          split at he
          · simp at he
          · split at he
            · simp at he
            · split at he
              · simp at he
              · rcases List.mem_cons.mp he with he | he
                · cases he
                · exact unr _ _ _ _ he _ rfl
        | drop i =>
          left; apply none_of; rw [← hev]
          intro e he k hk
          subst hk
          simp only [WaState.step] at he
          split at he
          · simp at he
          · split at he
            · simp at he
            · exact unr _ _ _ _ he _ rfl
      rcases key with key | ⟨hop, key⟩
      · omega
      · have h0 := hob a o [] (by rw [hop])
        simp only [aux_wg_waSent_eq] at h0
        rw [h0]; simp only [List.length_nil]; omega
  have hl := len ops ho
  generalize waSent o (WaState.init.run ops).2 = l at *
  match l, hl, all, hmem with
  | [], _, _, hm => cases hm
  | [a], _, all, _ => rw [all a (by simp)]
  | _ :: _ :: _, hl, _, _ => simp at hl

example : waSent 1 (WaState.init.run [.create, .create, .send (some 0), .send (some 1), .reply true, .reply true]).2 = [1] ∧
    ((WaState.init.run [.create, .create, .send (some 0), .send (some 1), .reply true, .reply true]).1.step (.wait 1)).2 = [.returned 1 (some 1), .freed 1 []] := by
  decide

/-- Then the reply to the oldest message goes to the thread that sent it with an object, or to the received handler. What is missing:
objects used again (`C106_blocks`), and messages answered with ANS and NUL frames (C20). -/
theorem C106_reply_partial (ops : List WaOp) (k : Nat) (rest : List Nat) (ho : waOnce ops) (h11 : waOneToOne ops)
    (hb : (WaState.init.run ops).1.sent ≤ 2 ^ 31) (hk : (WaState.init.run ops).1.open_ = k :: rest) :
    (∀ o, k ∈ waSent o (WaState.init.run ops).2 → .given k o ∈ ((WaState.init.run ops).1.step (.reply true)).2) ∧
    ((∀ o, k ∉ waSent o (WaState.init.run ops).2) → ((WaState.init.run ops).1.step (.reply true)).2 = [.handler k]) := by
  obtain ⟨f, hG, hA⟩ := aux_wg_G_run ops ho hb
  obtain ⟨_, b, _, _⟩ := aux_wg_dispatch hG (aux_wg_M_run ops).1 hk hb
  obtain ⟨_, b1, b2⟩ := b (hA h11)
  refine ⟨fun o hm => b1 o ((hG.mem k o).mp (aux_wg_waSent.mp hm)), fun hn => b2 ?_⟩
  cases hf : f k with
  | none => rfl
  | some o => exact absurd (aux_wg_waSent.mpr ((hG.mem k o).mpr hf)) (hn o)

theorem aux_wg_once_ex : waOnce [.create, .send none, .send (some 0)] := by
  intro a o b he
  rcases a with _ | ⟨_, _ | ⟨_, _ | ⟨_, a⟩⟩⟩ <;> simp at he
  rw [← he.1, ← he.2.1, ← he.2.2.1]; decide

example : waOnce [.create, .send none, .send (some 0)] ∧ waOneToOne [.create, .send none, .send (some 0)] ∧
    (WaState.init.run [.create, .send none, .send (some 0)]).1.open_ = [0, 1] := ⟨aux_wg_once_ex, by simp [waOneToOne], by decide⟩

/-! ## Violations -/

/-- **Violation**: an object used again as documented, after a call that gave NULL: the reply to the first message comes before the second
is sent. The thread that waits for the reply to the second message gets the reply to the first. -/
theorem C106_wrong_reply :
    waSent 0 (WaState.init.run [.create, .send (some 0), .wait 0, .reply true, .send (some 0)]).2 = [0, 1] ∧
    ((WaState.init.run [.create, .send (some 0), .wait 0, .reply true, .send (some 0)]).1.step (.wait 0)).2 = [.returned 0 (some 0)] := by decide

theorem aux_wg_doc1 : waDocumented [.create, .send (some 0), .wait 0, .reply true, .send (some 0)] := by
  intro a o b he
  rcases a with _ | ⟨_, _ | ⟨_, _ | ⟨_, _ | ⟨_, _ | ⟨_, a⟩⟩⟩⟩⟩ <;> simp at he
  · rw [← he.1, ← he.2.1]; decide
  · rw [← he.1, ← he.2.1, ← he.2.2.1, ← he.2.2.2.1, ← he.2.2.2.2.1]; decide

/-- The object at the head of the list is one that was given up, and the message it is waiting for was answered. -/
structure aux_wg_B (x : WaState) : Prop where
  head : ∃ ws, x.waiting = 0 :: ws
  obj : ∃ p, x.objs[0]? = some p ∧ p.msg = 1 ∧ p.refs ≠ 0 ∧ p.owned = false
  late : ∀ k ∈ x.open_, 1 < k ∧ k < x.sent
  two : 2 ≤ x.sent

theorem aux_wg_B_unref {x : WaState} {o : Nat} {p : WaObj} (h : aux_wg_B x) (ho : o ≠ 0) : aux_wg_B (x.unref o p).1 ∧ ∀ k i, .given k i ∉ (x.unref o p).2 := by
  have set : ∀ p' : WaObj, aux_wg_B { x with objs := x.objs.set o p' } := fun p' =>
    ⟨h.head, by simp only [List.getElem?_set, ho, if_false]; exact h.obj, h.late, h.two⟩
  simp only [WaState.unref]
  split
  · exact ⟨h, by simp⟩
  · split
    · exact ⟨set _, by simp⟩
    · exact ⟨set _, by simp⟩

theorem aux_wg_B_step (x : WaState) (op : WaOp) (h : aux_wg_B x) (hb : x.sent ≤ 2 ^ 31) :
    aux_wg_B (x.step op).1 ∧ ∀ k i, .given k i ∉ (x.step op).2 := by
  obtain ⟨ws, hw⟩ := h.head
  obtain ⟨p, hp, hm, hr, hno⟩ := h.obj
  have hlt := aux_wg_lt hp
  cases op with
  | create =>
    exact ⟨⟨⟨ws, hw⟩, ⟨p, by simp only [WaState.step]; rw [List.getElem?_append_left hlt]; exact hp, hm, hr, hno⟩, h.late, h.two⟩, by simp [WaState.step]⟩
  | send q =>
    have late : ∀ k ∈ x.open_ ++ [x.sent], 1 < k ∧ k < x.sent + 1 := by
      intro k hk
      rcases List.mem_append.mp hk with hk | hk
      · have := h.late k hk; omega
      · rw [List.mem_singleton.mp hk]; have := h.two; omega
    cases q with
    | none => exact ⟨⟨⟨ws, hw⟩, ⟨p, hp, hm, hr, hno⟩, late, Nat.le_succ_of_le h.two⟩, by simp [WaState.step]⟩
    | some o =>
      simp only [WaState.step]
      cases hq : x.objs[o]? with
      | none => exact ⟨h, by simp⟩
      | some q =>
        simp only
        split
        · exact ⟨h, by simp⟩
        · rename_i how
          have ho : o ≠ 0 := by
            intro he; subst he
            rw [hp] at hq; rw [← Option.some.inj hq] at how; exact how hno
          exact ⟨⟨⟨ws ++ [o], by simp [hw]⟩, ⟨p, by simp only [List.getElem?_set, ho, if_false]; exact hp, hm, hr, hno⟩, late, Nat.le_succ_of_le h.two⟩, by simp⟩
  | reply one =>
    simp only [WaState.step]
    cases hk : x.open_ with
    | nil => exact ⟨h, by simp⟩
    | cons k rest =>
      have hkl := h.late k (by rw [hk]; simp)
      have hB : aux_wg_B { x with open_ := rest } := ⟨⟨ws, hw⟩, ⟨p, hp, hm, hr, hno⟩, fun j hj => h.late j (by rw [hk]; exact List.mem_cons_of_mem _ hj), h.two⟩
      simp only
      split
      · simp only [WaState.dispatch, hw, hp]
        rw [if_neg hr, hm, if_pos (by rw [Nat.mod_eq_of_lt (by omega)]; omega)]
        rw [← hw]
        exact ⟨hB, by simp⟩
      · exact ⟨hB, by simp⟩
  | wait o =>
    simp only [WaState.step]
    cases hq : x.objs[o]? with
    | none => exact ⟨h, by simp⟩
    | some q =>
      simp only
      split
      · exact ⟨h, by simp⟩
      · rename_i how
        have ho : o ≠ 0 := by
          intro he; subst he
          rw [hp] at hq; rw [← Option.some.inj hq] at how; exact how hno
        split
        · exact ⟨h, by simp⟩
        · rename_i k rest _
          have := aux_wg_B_unref (x := { x with objs := x.objs.set o { q with box := rest, owned := false } }) (o := o) (p := { q with box := rest, owned := false })
            ⟨⟨ws, hw⟩, ⟨p, by simp only [List.getElem?_set, ho, if_false]; exact hp, hm, hr, hno⟩, h.late, h.two⟩ ho
          exact ⟨this.1, by simp [this.2]⟩
  | drop o =>
    simp only [WaState.step]
    cases hq : x.objs[o]? with
    | none => exact ⟨h, by simp⟩
    | some q =>
      simp only
      split
      · exact ⟨h, by simp⟩
      · rename_i how
        have ho : o ≠ 0 := by
          intro he; subst he
          rw [hp] at hq; rw [← Option.some.inj hq] at how; exact how hno
        exact aux_wg_B_unref (x := { x with objs := x.objs.set o { q with owned := false } }) (o := o) (p := { q with owned := false })
            ⟨⟨ws, hw⟩, ⟨p, by simp only [List.getElem?_set, ho, if_false]; exact hp, hm, hr, hno⟩, h.late, h.two⟩ ho

theorem aux_wg_B_run (ops : List WaOp) : ∀ x, aux_wg_B x → (x.run ops).1.sent ≤ 2 ^ 31 → ∀ ev ∈ (x.run ops).2, ∀ k i, .given k i ∉ ev := by
  have mono : ∀ (ops : List WaOp) (x : WaState), x.sent ≤ (x.run ops).1.sent := by
    intro ops
    induction ops with
    | nil => intro x; exact Nat.le_refl _
    | cons op r ih => intro x; exact Nat.le_trans (aux_wg_sent_le (a := []) x op) (ih _)
  induction ops with
  | nil => intro x _ _ ev he; cases he
  | cons op r ih =>
    intro x h hb ev he
    have hs := aux_wg_B_step x op h (Nat.le_trans (mono (op :: r) x) hb)
    rcases List.mem_cons.mp he with he | he
    · rw [he]; exact hs.2
    · exact ih _ hs.1 hb ev he

/-- **Violation**: an object is used again as documented, after a call that gave NULL, while its first message is unanswered. Both
messages are answered, and the thread gets the second reply. From then on no thread that waits for a reply on this channel is given
any, whatever happens, until the message numbers begin again. -/
theorem C106_blocks (ops : List WaOp)
    (hb : (WaState.init.run ([.create, .send (some 0), .wait 0, .send (some 0), .reply true, .reply true, .wait 0] ++ ops)).1.sent ≤ 2 ^ 31) :
    let x := (WaState.init.run [.create, .send (some 0), .wait 0, .send (some 0), .reply true, .reply true, .wait 0]).1
    (∀ ev ∈ (x.run ops).2, ∀ k o, .given k o ∉ ev) := by
  rw [aux_wg_run_append] at hb
  exact aux_wg_B_run ops _ ⟨⟨[], by decide⟩, ⟨_, rfl, by decide, by decide, by decide⟩, by decide, by decide⟩ hb

/-- For instance a thread with an object of its own. -/
example : (WaState.init.run ([.create, .send (some 0), .wait 0, .send (some 0), .reply true, .reply true, .wait 0] ++
      [.create, .send (some 1), .reply true, .wait 1])).2.drop 6 =
    [[.returned 0 (some 1)], [.created 1], [.sent 2 (some 1)], [.handler 2], [.returned 1 none]] := by decide

/-- C106: with objects used as documented, threads get the replies to the last message they sent with the object, and every such reply is
given to its thread. -/
def C106_statement : Prop :=
  ∀ ops : List WaOp, waDocumented ops → waOneToOne ops → (WaState.init.run ops).1.sent ≤ 2 ^ 31 →
    (∀ o k, .returned o (some k) ∈ ((WaState.init.run ops).1.step (.wait o)).2 → (waSent o (WaState.init.run ops).2).getLast? = some k) ∧
    (∀ k rest o, (WaState.init.run ops).1.open_ = k :: rest → (waSent o (WaState.init.run ops).2).getLast? = some k →
      .given k o ∈ ((WaState.init.run ops).1.step (.reply true)).2)

theorem C106_statement_false : ¬ C106_statement := by
  intro h
  have := (h _ aux_wg_doc1 (by simp [waOneToOne]) (by decide)).1 0 0 (by decide)
  revert this; decide

/-- The second part fails as well. -/
theorem C106_blocks_documented : let ops : List WaOp := [.create, .send (some 0), .wait 0, .send (some 0), .reply true, .reply true, .wait 0, .create, .send (some 1)]
    waDocumented ops ∧ (waSent 1 (WaState.init.run ops).2).getLast? = some 2 ∧ ((WaState.init.run ops).1.step (.reply true)).2 = [.handler 2] := by
  refine ⟨?_, by decide, by decide⟩
  intro a o b he
  rcases a with _ | ⟨_, _ | ⟨_, _ | ⟨_, _ | ⟨_, _ | ⟨_, _ | ⟨_, _ | ⟨_, _ | ⟨_, _ | ⟨_, a⟩⟩⟩⟩⟩⟩⟩⟩⟩ <;> simp at he
  · rw [← he.1, ← he.2.1]; decide
  · rw [← he.1, ← he.2.1, ← he.2.2.1, ← he.2.2.2.1]; decide
  · obtain ⟨e1, e2, e3, e4, e5, e6, e7, e8, e9, _⟩ := he
    rw [← e1, ← e2, ← e3, ← e4, ← e5, ← e6, ← e7, ← e8, ← e9]; decide

end Verif.Props
