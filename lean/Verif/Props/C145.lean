import Verif.Spec.LuaQueue
/-!
# C145: queues of the Lua bindings
-/
namespace Verif.Props
open Verif.Model Verif.Spec

theorem aux_lq_run (ops : List LuqOp) (op : LuqOp) : luqRun (ops ++ [op]) = luqStep (luqRun ops) op := by
  simp [luqRun, List.foldl_append]

/-- The list of references released. -/
def aux_lq_chain (slots : List LuqSlot) : Nat → List Nat → Prop
  | f, [] => f = 0
  | f, r :: rs => f = r ∧ r ≠ 0 ∧ ∃ next, slots[r - 1]? = some (.free next) ∧ aux_lq_chain slots next rs

/-- The object stands for the value. -/
def aux_lq_holds (slots : List LuqSlot) (o : LuqItem) : LuqValue → Prop
  | .nil => o.type = .nil
  | .bool _ => o.type = .bool
  | .other x => o.type = .stored ∧ o.ref ≠ 0 ∧ slots[o.ref - 1]? = some (.value x)

/-- The reference of an object. -/
def aux_lq_refOf (p : LuqItem × LuqValue) : Option Nat := match p.2 with
  | .other _ => some p.1.ref
  | _ => none

/-- The value it keeps. -/
def aux_lq_valOf (p : LuqItem × LuqValue) : Option Nat := match p.2 with
  | .other x => some x
  | _ => none

def aux_lq_slotVal (x : LuqSlot) : Option Nat := match x with
  | .value x => some x
  | .free _ => none

/-- The table keeps these objects. -/
def aux_lq_ok (slots : List LuqSlot) (first : Nat) (A : List (LuqItem × LuqValue)) : Prop :=
  (∃ fl, aux_lq_chain slots first fl ∧ fl.Nodup ∧ ∀ p ∈ A, ∀ r, aux_lq_refOf p = some r → r ∉ fl) ∧
  (A.filterMap aux_lq_refOf).Nodup ∧
  (∀ p ∈ A, aux_lq_holds slots p.1 p.2) ∧
  (slots.filterMap aux_lq_slotVal).Perm (A.filterMap aux_lq_valOf)

theorem aux_lq_chainSet (slots : List LuqSlot) (k : Nat) (b : LuqSlot) (hk : k ≠ 0) : ∀ (fl : List Nat) (f : Nat), k ∉ fl → aux_lq_chain slots f fl →
    aux_lq_chain (slots.set (k - 1) b) f fl := by
  intro fl
  induction fl with
  | nil => intro f _ h; exact h
  | cons r rs ih =>
    intro f hn h
    simp only [List.mem_cons, not_or] at hn
    obtain ⟨e, h0, next, hs, hc⟩ := h
    exact ⟨e, h0, next, by rw [List.getElem?_set_ne (by omega)]; exact hs, ih next hn.2 hc⟩

theorem aux_lq_chainApp (slots : List LuqSlot) (b : LuqSlot) : ∀ (fl : List Nat) (f : Nat), aux_lq_chain slots f fl →
    aux_lq_chain (slots ++ [b]) f fl := by
  intro fl
  induction fl with
  | nil => intro f h; exact h
  | cons r rs ih =>
    intro f h
    obtain ⟨e, h0, next, hs, hc⟩ := h
    refine ⟨e, h0, next, ?_, ih next hc⟩
    have hl : r - 1 < slots.length := (List.getElem?_eq_some_iff.1 hs).1
    rw [List.getElem?_append_left hl]; exact hs

theorem aux_lq_setPerm (l : List LuqSlot) : ∀ (i : Nat) (a b : LuqSlot), l[i]? = some a →
    ((aux_lq_slotVal a).toList ++ (l.set i b).filterMap aux_lq_slotVal).Perm ((aux_lq_slotVal b).toList ++ l.filterMap aux_lq_slotVal) := by
  induction l with
  | nil => intro i a b h; simp at h
  | cons c r ih =>
    intro i a b h
    cases i with
    | zero =>
      simp at h; subst h
      simp only [List.set_cons_zero, List.filterMap_cons]
      cases h1 : aux_lq_slotVal c <;> cases h2 : aux_lq_slotVal b <;> simp
      exact List.Perm.swap _ _ _
    | succ i =>
      simp at h
      have := ih i a b h
      simp only [List.set_cons_succ, List.filterMap_cons]
      cases h3 : aux_lq_slotVal c with
      | none => exact this
      | some x =>
        dsimp only
        exact (List.perm_middle.trans (this.cons x)).trans List.perm_middle.symm

theorem aux_lq_okPerm (slots : List LuqSlot) (first : Nat) (A B : List (LuqItem × LuqValue)) (h : A.Perm B) (ha : aux_lq_ok slots first A) :
    aux_lq_ok slots first B := by
  obtain ⟨⟨fl, h1, h2, h3⟩, h4, h5, h6⟩ := ha
  exact ⟨⟨fl, h1, h2, fun p hp => h3 p (h.mem_iff.2 hp)⟩, (h.filterMap _).nodup_iff.1 h4, fun p hp => h5 p (h.mem_iff.2 hp), h6.trans (h.filterMap _)⟩

theorem aux_lq_add (slots : List LuqSlot) (first x : Nat) (A : List (LuqItem × LuqValue)) (ha : aux_lq_ok slots first A) :
    aux_lq_ok (luqRef slots first x).2.1 (luqRef slots first x).2.2 ((⟨.stored, (luqRef slots first x).1⟩, .other x) :: A) := by
  obtain ⟨⟨fl, h1, h2, h3⟩, h4, h5, h6⟩ := ha
  unfold luqRef
  by_cases hf : first = 0
  · simp only [hf, if_true]
    have hold : ∀ p ∈ A, aux_lq_holds (slots ++ [.value x]) p.1 p.2 ∧ ∀ r, aux_lq_refOf p = some r → r ≤ slots.length := by
      intro p hp
      have := h5 p hp
      obtain ⟨o, v⟩ := p
      cases v with
      | nil => exact ⟨this, fun r hr => by cases hr⟩
      | bool b => exact ⟨this, fun r hr => by cases hr⟩
      | other y =>
        obtain ⟨e1, e2, e3⟩ := this
        have hl := (List.getElem?_eq_some_iff.1 e3).1
        refine ⟨⟨e1, e2, by dsimp only at *; rw [List.getElem?_append_left hl]; exact e3⟩, fun r hr => ?_⟩
        injection hr with hr; dsimp only at *; omega
    have hfl : fl = [] := by
      cases fl with
      | nil => rfl
      | cons r rs => obtain ⟨e, h0, _⟩ := h1; omega
    subst hfl
    refine ⟨⟨[], rfl, List.nodup_nil, by simp⟩, ?_, ?_, ?_⟩
    · rw [List.filterMap_cons]
      simp only [aux_lq_refOf]
      refine List.nodup_cons.2 ⟨?_, h4⟩
      intro hm
      obtain ⟨p, hp, e⟩ := List.mem_filterMap.1 hm
      have := (hold p hp).2 _ e
      omega
    · intro p hp
      rcases List.mem_cons.1 hp with e | hp
      · subst e; exact ⟨rfl, by simp, by simp⟩
      · exact (hold p hp).1
    · simp only [List.filterMap_append, List.filterMap_cons, List.filterMap_nil, aux_lq_slotVal, aux_lq_valOf]
      exact (List.perm_append_singleton x _).trans (h6.cons x)
  · simp only [hf, if_false]
    cases fl with
    | nil => exact absurd h1 hf
    | cons r rs =>
      obtain ⟨e, h0, next, hs, hc⟩ := h1
      subst e
      rw [hs]
      dsimp only
      have hn := List.nodup_cons.1 h2
      have hlt := (List.getElem?_eq_some_iff.1 hs).1
      refine ⟨⟨rs, aux_lq_chainSet slots first _ h0 rs next hn.1 hc, hn.2, ?_⟩, ?_, ?_, ?_⟩
      · intro p hp k hk
        rcases List.mem_cons.1 hp with e | hp
        · subst e; injection hk with hk; rw [← hk]; exact hn.1
        · exact fun hm => h3 p hp k hk (List.mem_cons_of_mem _ hm)
      · rw [List.filterMap_cons]
        simp only [aux_lq_refOf]
        refine List.nodup_cons.2 ⟨?_, h4⟩
        intro hm
        obtain ⟨p, hp, e⟩ := List.mem_filterMap.1 hm
        exact h3 p hp _ e (by simp)
      · intro p hp
        rcases List.mem_cons.1 hp with e | hp
        · subst e; exact ⟨rfl, h0, by dsimp only; rw [List.getElem?_set_self hlt]⟩
        · have hh := h5 p hp
          have hr := h3 p hp
          obtain ⟨o, v⟩ := p
          cases v with
          | nil => exact hh
          | bool b => exact hh
          | other y =>
            obtain ⟨e1, e2, e3⟩ := hh
            have hne : o.ref ≠ first := fun e => hr o.ref rfl (by rw [e]; simp)
            refine ⟨e1, e2, ?_⟩
            dsimp only at *
            rw [List.getElem?_set_ne (by omega)]; exact e3
      · have := aux_lq_setPerm slots (first - 1) _ (.value x) hs
        simp only [aux_lq_slotVal, Option.toList_none, Option.toList_some, List.nil_append] at this
        rw [List.filterMap_cons]
        simp only [aux_lq_valOf]
        exact this.trans (h6.cons x)

theorem aux_lq_addPlain (slots : List LuqSlot) (first : Nat) (A : List (LuqItem × LuqValue)) (p : LuqItem × LuqValue) (ha : aux_lq_ok slots first A)
    (hp : aux_lq_holds slots p.1 p.2) (hr : aux_lq_refOf p = none) : aux_lq_ok slots first (p :: A) := by
  obtain ⟨⟨fl, h1, h2, h3⟩, h4, h5, h6⟩ := ha
  have hv : aux_lq_valOf p = none := by
    obtain ⟨o, v⟩ := p
    cases v with
    | other x => cases hr
    | nil => rfl
    | bool b => rfl
  refine ⟨⟨fl, h1, h2, ?_⟩, ?_, ?_, ?_⟩
  · intro q hq r hk
    rcases List.mem_cons.1 hq with e | hq
    · subst e; rw [hr] at hk; cases hk
    · exact h3 q hq r hk
  · rw [List.filterMap_cons, hr]; exact h4
  · intro q hq
    rcases List.mem_cons.1 hq with e | hq
    · subst e; exact hp
    · exact h5 q hq
  · rw [List.filterMap_cons, hv]; exact h6

theorem aux_lq_del (slots : List LuqSlot) (first : Nat) (A : List (LuqItem × LuqValue)) (p : LuqItem × LuqValue) (ha : aux_lq_ok slots first (p :: A)) :
    aux_lq_ok (luqUnref slots first p.1).1 (luqUnref slots first p.1).2 A := by
  obtain ⟨⟨fl, h1, h2, h3⟩, h4, h5, h6⟩ := ha
  have hp := h5 p (by simp)
  obtain ⟨o, v⟩ := p
  have plain : aux_lq_refOf (o, v) = none → aux_lq_valOf (o, v) = none → aux_lq_ok slots first A := by
    intro e1 e2
    rw [List.filterMap_cons, e1] at h4
    rw [List.filterMap_cons, e2] at h6
    exact ⟨⟨fl, h1, h2, fun q hq => h3 q (List.mem_cons_of_mem _ hq)⟩, h4, fun q hq => h5 q (List.mem_cons_of_mem _ hq), h6⟩
  cases v with
  | nil =>
    have e : o.type = .nil := hp
    simp only [luqUnref, e]; exact plain rfl rfl
  | bool b =>
    have e : o.type = .bool := hp
    simp only [luqUnref, e]; exact plain rfl rfl
  | other x =>
    obtain ⟨e1, e2, e3⟩ := hp
    dsimp only at e1 e2 e3
    simp only [luqUnref, e1]
    have hlt := (List.getElem?_eq_some_iff.1 e3).1
    have hof : o.ref ∉ fl := h3 (o, .other x) (by simp) o.ref rfl
    rw [List.filterMap_cons] at h4 h6
    simp only [aux_lq_refOf, aux_lq_valOf] at h4 h6
    have h4' := List.nodup_cons.1 h4
    have hne : ∀ q ∈ A, ∀ r, aux_lq_refOf q = some r → r ≠ o.ref := by
      intro q hq r hr e
      exact h4'.1 (List.mem_filterMap.2 ⟨q, hq, by rw [hr, e]⟩)
    refine ⟨⟨o.ref :: fl, ⟨rfl, e2, first, by rw [List.getElem?_set_self hlt], aux_lq_chainSet slots o.ref _ e2 fl first hof h1⟩, List.nodup_cons.2 ⟨hof, h2⟩, ?_⟩, h4'.2, ?_, ?_⟩
    · intro q hq r hr hm
      rcases List.mem_cons.1 hm with e | hm
      · exact hne q hq r hr e
      · exact h3 q (List.mem_cons_of_mem _ hq) r hr hm
    · intro q hq
      have hh := h5 q (List.mem_cons_of_mem _ hq)
      have hn := hne q hq
      obtain ⟨o', v'⟩ := q
      cases v' with
      | nil => exact hh
      | bool b => exact hh
      | other y =>
        obtain ⟨f1, f2, f3⟩ := hh
        have hn' := hn o'.ref rfl
        refine ⟨f1, f2, ?_⟩
        dsimp only at *
        rw [List.getElem?_set_ne (by omega)]; exact f3
    · have := aux_lq_setPerm slots (o.ref - 1) _ (.free first) e3
      simp only [aux_lq_slotVal, Option.toList_none, Option.toList_some, List.nil_append] at this
      exact List.Perm.cons_inv (this.trans h6)

theorem aux_lq_drain (G : List (LuqItem × LuqValue)) : ∀ (slots : List LuqSlot) (first : Nat), aux_lq_ok slots first G →
    aux_lq_ok (luqDrain slots first (G.map (·.1))).1 (luqDrain slots first (G.map (·.1))).2 [] := by
  induction G with
  | nil => intro slots first h; exact h
  | cons p G ih =>
    intro slots first h
    have := aux_lq_del slots first G p h
    simp only [List.map_cons, luqDrain]
    exact ih _ _ this

/-- The state and the queue that it implements. -/
def aux_lq_rel (s : LuqState) (w : LuqIdeal) : Prop :=
  ∃ (G : List (LuqItem × LuqValue)) (H : List (Bool × LuqItem × LuqValue)),
    s.items = G.map (·.1) ∧ w.queue = G.map (·.2) ∧ s.waiting = H.map (fun e => (e.1, e.2.1)) ∧ w.taken = H.map (fun e => (e.1, e.2.2)) ∧
    s.answers = w.returned.map LuqSeen ∧ s.gone = w.gone ∧ aux_lq_ok s.slots s.first (G ++ H.map (·.2))

theorem aux_lq_answer (slots : List LuqSlot) (o : LuqItem) (v : LuqValue) (timed : Bool) (h : aux_lq_holds slots o v) : luqAnswer slots timed o = LuqSeen (timed, v) := by
  cases v with
  | nil => have e : o.type = .nil := h; cases timed <;> simp [luqAnswer, e, LuqSeen]
  | bool b => have e : o.type = .bool := h; cases timed <;> simp [luqAnswer, e, LuqSeen]
  | other x =>
    obtain ⟨e1, e2, e3⟩ := h
    cases timed <;> simp [luqAnswer, e1, e3, LuqSeen]

theorem aux_lq_erase {α : Type} (l : List α) : ∀ (i : Nat) (e : α), l[i]? = some e → l.Perm (e :: l.eraseIdx i) := by
  induction l with
  | nil => intro i e h; simp at h
  | cons a r ih =>
    intro i e h
    cases i with
    | zero => simp at h; subst h; simp
    | succ i =>
      simp at h
      simp only [List.eraseIdx_cons_succ]
      exact ((ih i e h).cons a).trans (List.Perm.swap _ _ _)

theorem aux_lq_eraseMap {α β : Type} (f : α → β) (l : List α) : ∀ i, (l.map f).eraseIdx i = (l.eraseIdx i).map f := by
  induction l with
  | nil => intro i; simp
  | cons a r ih => intro i; cases i <;> simp [ih]

theorem aux_lq_step (s : LuqState) (w w' : LuqIdeal) (op : LuqOp) (h : aux_lq_rel s w) (hd : LuqDoes w op w') : aux_lq_rel (luqStep s op) w' := by
  obtain ⟨G, H, e1, e2, e3, e4, e5, e6, hok⟩ := h
  cases hd with
  | push q t r v =>
    dsimp only at *
    simp only [luqStep, e6, Bool.false_eq_true, if_false]
    cases v with
    | nil =>
      refine ⟨G ++ [(⟨.nil, 0⟩, .nil)], H, by simp [e1], by simp [e2], e3, e4, e5, by simp [e6], ?_⟩
      exact aux_lq_okPerm _ _ _ _ (by simp [List.perm_middle.symm]) (aux_lq_addPlain _ _ _ (⟨.nil, 0⟩, .nil) hok rfl rfl)
    | bool b =>
      refine ⟨G ++ [(⟨.bool, 0⟩, .bool b)], H, by simp [e1], by simp [e2], e3, e4, e5, by simp [e6], ?_⟩
      exact aux_lq_okPerm _ _ _ _ (by simp [List.perm_middle.symm]) (aux_lq_addPlain _ _ _ (⟨.bool, 0⟩, .bool b) hok rfl rfl)
    | other x =>
      refine ⟨G ++ [(⟨.stored, (luqRef s.slots s.first x).1⟩, .other x)], H, by simp [e1], by simp [e2], e3, e4, e5, by simp [e6], ?_⟩
      exact aux_lq_okPerm _ _ _ _ (by simp [List.perm_middle.symm]) (aux_lq_add s.slots s.first x _ hok)
  | pushGone q t r v =>
    simp only [luqStep, e6, if_true]
    exact ⟨G, H, e1, e2, e3, e4, e5, e6, hok⟩
  | take q t r g v timed =>
    cases G with
    | nil => simp at e2
    | cons p G =>
      simp only [List.map_cons] at e1 e2
      injection e2 with e2 e2'
      simp only [luqStep, e1]
      refine ⟨G, H ++ [(timed, p)], rfl, e2', by simp [e3], ?_, e5, e6, ?_⟩
      · dsimp only at *; simp [e4, e2]
      · refine aux_lq_okPerm _ _ _ _ ?_ hok
        simp only [List.map_append, List.map_cons, List.map_nil, List.cons_append]
        rw [← List.append_assoc]
        exact (List.perm_append_singleton p _).symm
  | takeNone t r g timed =>
    have hG : G = [] := by simpa using e2.symm
    subst hG
    simp only [List.map_nil] at e1
    simp only [luqStep, e1]
    exact ⟨[], H, e1, rfl, e3, e4, e5, e6, hok⟩
  | finish q t r g i e hi =>
    dsimp only at e4
    rw [e4, List.getElem?_map] at hi
    obtain ⟨x, hx, ex⟩ := Option.map_eq_some_iff.1 hi
    obtain ⟨timed, o, v⟩ := x
    have hw : s.waiting[i]? = some (timed, o) := by rw [e3, List.getElem?_map, hx]; rfl
    simp only [luqStep, hw]
    have hperm : (G ++ H.map (·.2)).Perm ((o, v) :: (G ++ (H.eraseIdx i).map (·.2))) := by
      refine (List.Perm.append_left G ((aux_lq_erase H i _ hx).map _)).trans ?_
      simp only [List.map_cons]
      exact List.perm_middle
    have hok' := aux_lq_okPerm _ _ _ _ hperm hok
    have hh : aux_lq_holds s.slots o v := hok'.2.2.1 (o, v) (by simp)
    refine ⟨G, H.eraseIdx i, e1, e2, ?_, ?_, ?_, e6, aux_lq_del _ _ _ (o, v) hok'⟩
    · dsimp only; rw [e3, aux_lq_eraseMap]
    · dsimp only; rw [e4, aux_lq_eraseMap]
    · dsimp only at *; simp [e5, ← ex, aux_lq_answer s.slots o v timed hh]
  | finishNone q t r g i hi =>
    dsimp only at e4
    rw [e4, List.getElem?_map] at hi
    have hx : H[i]? = none := by simpa using hi
    have hw : s.waiting[i]? = none := by rw [e3, List.getElem?_map, hx]; rfl
    simp only [luqStep, hw]
    exact ⟨G, H, e1, e2, e3, e4, e5, e6, hok⟩
  | gc q r =>
    have hH : H = [] := by simpa using e4.symm
    subst hH
    simp only [List.map_nil, List.append_nil] at e3 hok
    dsimp only at e6
    simp only [luqStep, e6, e3]
    simp only [Bool.false_eq_true, ne_eq, not_true_eq_false, or_self, if_false]
    refine ⟨[], [], rfl, rfl, by simp [e3], rfl, e5, rfl, ?_⟩
    have := aux_lq_drain G s.slots s.first hok
    rw [← e1] at this
    exact this
  | gcUsed q t r ht =>
    dsimp only at e4
    have hw : s.waiting ≠ [] := by
      intro e; rw [e] at e3
      have : H = [] := by simpa using e3.symm
      subst this; exact ht (by simpa using e4)
    simp only [luqStep]
    rw [if_pos (Or.inr hw)]
    exact ⟨G, H, e1, e2, e3, e4, e5, e6, hok⟩
  | gcGone q t r =>
    simp only [luqStep]
    rw [if_pos (Or.inl e6)]
    exact ⟨G, H, e1, e2, e3, e4, e5, e6, hok⟩

theorem aux_lq_history (ops : List LuqOp) (w : LuqIdeal) (h : LuqHistory ops w) : aux_lq_rel (luqRun ops) w := by
  induction h with
  | nil => exact ⟨[], [], rfl, rfl, rfl, rfl, rfl, rfl, ⟨[], rfl, List.nodup_nil, by simp⟩, by simp, by simp, by simp [luqRun]⟩
  | snoc ops op w w' _ hd ih => rw [aux_lq_run]; exact aux_lq_step _ _ _ _ ih hd

/-- Every history has a meaning. -/
theorem C145_total (ops : List LuqOp) : ∃ w, LuqHistory ops w := by
  have : ∀ r : List LuqOp, ∃ w, LuqHistory r.reverse w := by
    intro r
    induction r with
    | nil => exact ⟨_, .nil⟩
    | cons op r ih =>
      obtain ⟨w, hw⟩ := ih
      rw [List.reverse_cons]
      have : ∃ w', LuqDoes w op w' := by
        obtain ⟨q, t, r, g⟩ := w
        cases op with
        | push v =>
          cases g with
          | false => exact ⟨_, .push ..⟩
          | true => exact ⟨_, .pushGone ..⟩
        | take timed =>
          cases q with
          | nil => exact ⟨_, .takeNone ..⟩
          | cons v q => exact ⟨_, .take ..⟩
        | finish i =>
          cases hi : t[i]? with
          | none => exact ⟨_, .finishNone _ _ _ _ _ hi⟩
          | some e => exact ⟨_, .finish _ _ _ _ _ e hi⟩
        | gc =>
          cases g with
          | true => exact ⟨_, .gcGone ..⟩
          | false =>
            cases t with
            | nil => exact ⟨_, .gc ..⟩
            | cons a t => exact ⟨_, .gcUsed _ _ _ (by simp)⟩
      obtain ⟨w', hd⟩ := this
      exact ⟨w', .snoc _ _ _ _ hw hd⟩
  simpa using this ops.reverse

/-- **C145, answers.** In every history calls return what was pushed, in the order of a queue, except that instead of a boolean `pop` returns the queue, and `timedpop` its own argument. -/
theorem C145_answers_partial (ops : List LuqOp) (w : LuqIdeal) (h : LuqHistory ops w) : (luqRun ops).answers = w.returned.map LuqSeen := by
  obtain ⟨G, H, _, _, _, _, e, _⟩ := aux_lq_history ops w h
  exact e

/-- **C145, number of items and references.** The number of items is right, and the values kept are exactly those inside. -/
theorem C145_kept_partial (ops : List LuqOp) (w : LuqIdeal) (h : LuqHistory ops w) :
    (luqRun ops).items.length = w.queue.length ∧ (LuqKept (luqRun ops)).Perm (LuqInside w) := by
  obtain ⟨G, H, e1, e2, e3, e4, e5, e6, hok⟩ := aux_lq_history ops w h
  refine ⟨by rw [e1, e2]; simp, ?_⟩
  have := hok.2.2.2
  have e : LuqInside w = (G ++ H.map (·.2)).filterMap aux_lq_valOf := by
    unfold LuqInside
    have : (H.map (fun e => (e.1, e.2.2))).map (·.2) = (H.map (·.2)).map (·.2) := by simp
    rw [e2, e4, this, ← List.map_append, List.filterMap_map]
    rfl
  rw [e]
  exact this

/-- **C145, collection.** A queue that is collected keeps nothing. -/
theorem C145_collected_partial (ops : List LuqOp) (w : LuqIdeal) (h : LuqHistory ops w) (hg : w.gone = false) (ht : w.taken = []) :
    LuqKept (luqRun (ops ++ [.gc])) = [] := by
  obtain ⟨q, t, r, g⟩ := w
  dsimp only at hg ht
  subst hg ht
  exact ((C145_kept_partial _ _ (.snoc _ _ _ _ h (.gc q r))).2).eq_nil

theorem aux_lq_noBool (ops : List LuqOp) (w : LuqIdeal) (h : LuqHistory ops w) (hn : LuqNoBooleans ops) :
    (∀ b, LuqValue.bool b ∉ w.queue) ∧ (∀ e ∈ w.taken, ∀ b, e.2 ≠ .bool b) ∧ (∀ e ∈ w.returned, ∀ b, e.2 ≠ .bool b) := by
  induction h with
  | nil => simp
  | snoc ops op w w' _ hd ih =>
    have ih := ih (fun b hm => hn b (by simp [hm]))
    cases hd with
    | push q t r v =>
      refine ⟨?_, ih.2⟩
      intro b hm
      rcases List.mem_append.1 hm with hm | hm
      · exact ih.1 b hm
      · simp at hm; subst hm; exact hn b (by simp)
    | pushGone => exact ih
    | take q t r g v timed =>
      refine ⟨fun b hm => ih.1 b (List.mem_cons_of_mem _ hm), ?_, ih.2.2⟩
      intro e he b
      rcases List.mem_append.1 he with he | he
      · exact ih.2.1 e he b
      · simp at he; subst he; intro hb; exact ih.1 b (by dsimp only at *; rw [hb]; simp)
    | takeNone => exact ih
    | finish q t r g i e hi =>
      refine ⟨ih.1, fun x hx => ih.2.1 x (List.mem_of_mem_eraseIdx hx), ?_⟩
      intro x hx b
      rcases List.mem_append.1 hx with hx | hx
      · exact ih.2.2 x hx b
      · simp at hx; subst hx; exact ih.2.1 x (List.mem_of_getElem? hi) b
    | finishNone => exact ih
    | gc q r => exact ⟨by simp, by simp, ih.2.2⟩
    | gcUsed => exact ih
    | gcGone => exact ih

/-- **C145 without booleans.** If no boolean is pushed, calls return the values pushed, first in, first out. -/
theorem C145_fifo_partial (ops : List LuqOp) (w : LuqIdeal) (h : LuqHistory ops w) (hn : LuqNoBooleans ops) :
    (luqRun ops).answers = w.returned.map (fun e => .value e.2) := by
  rw [C145_answers_partial ops w h]
  apply List.map_congr_left
  intro e he
  have := (aux_lq_noBool ops w h hn).2.2 e he
  obtain ⟨t, v⟩ := e
  cases v with
  | bool b => exact absurd rfl (this b)
  | nil => cases t <;> rfl
  | other x => cases t <;> rfl

example : LuqNoBooleans [.push (.other 7), .push .nil, .push (.other 9), .take false, .take true, .take false, .finish 2, .push (.other 4), .finish 0] ∧
    (luqRun [.push (.other 7), .push .nil, .push (.other 9), .take false, .take true, .take false, .finish 2, .push (.other 4), .finish 0]).answers =
      [.value (.other 9), .value (.other 7)] ∧
    LuqKept (luqRun [.push (.other 7), .push .nil, .push (.other 9), .take false, .take true, .take false, .finish 2, .push (.other 4), .finish 0]) = [4] := by
  refine ⟨?_, by decide +kernel, by decide +kernel⟩
  intro b; simp

/-- **C145 is violated**: a boolean pushed is lost; the call of `pop` returns the queue, the call of `timedpop` returns its argument. -/
theorem C145_booleanLost (ops : List LuqOp) (w : LuqIdeal) (h : LuqHistory ops w) (i : Nat) (timed b : Bool) (hi : w.taken[i]? = some (timed, .bool b)) :
    (luqRun (ops ++ [.finish i])).answers = (luqRun ops).answers ++ [if timed then .timeout else .queue] := by
  obtain ⟨q, t, r, g⟩ := w
  rw [C145_answers_partial _ _ (.snoc _ _ _ _ h (.finish q t r g i _ hi)), C145_answers_partial _ _ h]
  cases timed <;> simp [LuqSeen]

example : LuqHistory [.push (.bool true), .take false] ⟨[], [(false, .bool true)], [], false⟩ ∧
    (luqRun [.push (.bool true), .take false, .finish 0]).answers = [.queue] :=
  ⟨.snoc [_] _ _ _ (.snoc [] _ _ _ .nil (.push [] [] [] (.bool true))) (.take [] [] [] false (.bool true) false), by decide +kernel⟩

/-- C145 does not hold as stated. -/
theorem C145_statement_false : ¬ C145_statement := by
  intro h
  have := (h [.push (.bool true), .take false, .finish 0] ⟨[], [], [(false, .bool true)], false⟩
    (.snoc [_, _] _ _ _ (.snoc [_] _ _ _ (.snoc [] _ _ _ .nil (.push [] [] [] (.bool true))) (.take [] [] [] false (.bool true) false))
      (.finish [] [(false, .bool true)] [] false 0 (false, .bool true) rfl))).1
  revert this; decide +kernel

end Verif.Props
