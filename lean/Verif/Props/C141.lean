import Verif.Spec.PyRefs
/-!
# C141: references of the objects `vortex.Connection`
-/
namespace Verif.Props
open Verif.Model Verif.Spec

/-- Objects that refer to the connection. -/
def aux_pw_users (objs : List PyrObj) (c : Nat) : Nat := objs.countP (fun x => x.conn == some c)

/-- `lk c`: references to `c` that nobody will drop. -/
structure aux_pw_I (lk : Nat → Nat) (s : PyrState) : Prop where
  bad : s.bad = false
  valid : ∀ x ∈ s.objs, ∀ c, x.conn = some c → c < s.conns.length
  refs : ∀ (c : Nat) k, s.conns[c]? = some k → k.refs = aux_pw_users s.objs c + k.engine.toNat + k.owed.toNat + lk c

theorem aux_pw_used {objs : List PyrObj} {c : Nat} : (∃ x ∈ objs, x.conn = some c) ↔ 0 < aux_pw_users objs c := by
  simp [aux_pw_users, List.countP_pos_iff]

theorem aux_pw_none {objs : List PyrObj} {o c : Nat} {x : PyrObj} (h : objs[o]? = some x) (hx : x.conn = some c) (d : Nat) :
    aux_pw_users objs d = aux_pw_users (objs.set o { x with conn := none }) d + if d = c then 1 else 0 := by
  obtain ⟨hlt, he⟩ := List.getElem?_eq_some_iff.1 h
  have hpos : objs[o].conn = some d → 0 < aux_pw_users objs d := fun hh => aux_pw_used.1 ⟨objs[o], List.getElem_mem hlt, hh⟩
  rw [he] at hpos
  unfold aux_pw_users at *
  rw [List.countP_set hlt, he]
  by_cases hd : d = c
  · subst hd
    have hpos := hpos hx
    simp [hx]
    omega
  · have : ¬ c = d := fun e => hd e.symm
    simp [hx, hd, this]

/-- An object forgets its connection. -/
theorem aux_pw_forget {lk lk' : Nat → Nat} {s : PyrState} {o c : Nat} {x : PyrObj} {k k' : PyrConn} (h : aux_pw_I lk s)
    (ho : s.objs[o]? = some x) (hx : x.conn = some c) (hk : s.conns[c]? = some k)
    (hr : k'.refs + 1 + k.engine.toNat + k.owed.toNat + lk c = k.refs + k'.engine.toNat + k'.owed.toNat + lk' c)
    (hlk : ∀ d, d ≠ c → lk' d = lk d) :
    aux_pw_I lk' { s with conns := s.conns.set c k', objs := s.objs.set o { x with conn := none } } := by
  have hclt : c < s.conns.length := (List.getElem?_eq_some_iff.1 hk).1
  refine ⟨h.bad, ?_, ?_⟩
  · intro y hy d hd
    rcases List.mem_or_eq_of_mem_set hy with hy | rfl
    · simpa using h.valid y hy d hd
    · simp at hd
  · intro d k2 hk2
    have hu := aux_pw_none ho hx d
    simp only [List.getElem?_set] at hk2
    by_cases hd : d = c
    · subst hd
      rw [if_pos rfl, if_pos hclt] at hk2
      cases hk2
      have := h.refs d k hk
      simp only [if_true] at hu
      dsimp only
      omega
    · rw [if_neg (fun e => hd e.symm)] at hk2
      have := h.refs d k2 hk2
      rw [hlk d hd]
      simp only [hd, if_false] at hu
      dsimp only
      omega

/-- A connection changes, the objects do not. -/
theorem aux_pw_change {lk : Nat → Nat} {s : PyrState} {c : Nat} {k k' : PyrConn} (h : aux_pw_I lk s) (hk : s.conns[c]? = some k)
    (hr : k'.refs + k.engine.toNat + k.owed.toNat = k.refs + k'.engine.toNat + k'.owed.toNat) :
    aux_pw_I lk { s with conns := s.conns.set c k' } := by
  have hclt : c < s.conns.length := (List.getElem?_eq_some_iff.1 hk).1
  refine ⟨h.bad, by simpa using h.valid, ?_⟩
  intro d k2 hk2
  simp only [List.getElem?_set] at hk2
  by_cases hd : d = c
  · subst hd
    rw [if_pos rfl, if_pos hclt] at hk2
    cases hk2
    have := h.refs d k hk
    simp only
    omega
  · rw [if_neg (fun e => hd e.symm)] at hk2
    exact h.refs d k2 hk2

/-- A new connection with a new object, or without one. -/
theorem aux_pw_new {lk : Nat → Nat} {s : PyrState} {k : PyrConn} {xs : List PyrObj} (h : aux_pw_I lk s)
    (hx : ∀ x ∈ xs, x.conn = some s.conns.length) (hr : k.refs = xs.length + k.engine.toNat + k.owed.toNat) (hlk : lk s.conns.length = 0) :
    aux_pw_I lk { s with conns := s.conns ++ [k], objs := s.objs ++ xs } := by
  refine ⟨h.bad, ?_, ?_⟩
  · intro y hy d hd
    simp only [List.length_append, List.length_singleton]
    rcases List.mem_append.1 hy with hy | hy
    · have := h.valid y hy d hd; omega
    · rw [hx y hy] at hd; cases hd; omega
  · intro d k2 hk2
    have hu : aux_pw_users (s.objs ++ xs) d = aux_pw_users s.objs d + aux_pw_users xs d := by simp [aux_pw_users]
    simp only
    rw [hu]
    rcases Nat.lt_trichotomy d s.conns.length with hd | hd | hd
    · simp only at hk2
      rw [List.getElem?_append_left hd] at hk2
      have h0 : aux_pw_users xs d = 0 := by
        rw [aux_pw_users, List.countP_eq_zero]
        intro y hy; rw [hx y hy]; simp; omega
      have := h.refs d k2 hk2
      omega
    · subst hd
      simp at hk2; subst hk2
      have h0 : aux_pw_users s.objs s.conns.length = 0 := by
        rw [aux_pw_users, List.countP_eq_zero]
        intro y hy hc
        have := h.valid y hy s.conns.length (by simpa using hc)
        omega
      have h1 : aux_pw_users xs s.conns.length = xs.length := by
        rw [aux_pw_users, List.countP_eq_length]
        intro y hy; simp [hx y hy]
      omega
    · rw [List.getElem?_eq_none (by simp; omega)] at hk2; cases hk2

theorem aux_pw_pos {lk : Nat → Nat} {s : PyrState} {o c : Nat} {r : Bool} (h : aux_pw_I lk s) (ho : s.objs[o]? = some ⟨some c, r⟩) :
    ∃ k, s.conns[c]? = some k ∧ k.refs ≠ 0 := by
  have hm : (⟨some c, r⟩ : PyrObj) ∈ s.objs := List.mem_of_getElem? ho
  have hlt := h.valid _ hm c rfl
  refine ⟨s.conns[c], List.getElem?_eq_getElem hlt, ?_⟩
  have := h.refs c s.conns[c] (List.getElem?_eq_getElem hlt)
  have := (aux_pw_used (c := c)).1 ⟨_, hm, rfl⟩
  omega

/-- The references lost by a step. -/
def aux_pw_ok (s : PyrState) : PyrOp → Prop
  | .close o _ => ¬ PyrFallenListener s o
  | _ => True

def aux_pw_nice (s : PyrState) : PyrOp → Prop
  | .close o _ => ¬ PyrLosing s o
  | _ => True

theorem aux_pw_down {s : PyrState} {c : Nat} {k : PyrConn} (hk : s.conns[c]? = some k) (h0 : k.refs ≠ 0) :
    pyrDown s c = { s with conns := s.conns.set c { k with ok := false } } := by
  simp [pyrDown, hk, h0]

theorem aux_pw_unref {s : PyrState} {c : Nat} {k : PyrConn} (hk : s.conns[c]? = some k) (h0 : k.refs ≠ 0) :
    pyrUnref s c = { s with conns := s.conns.set c { k with refs := k.refs - 1 } } := by
  simp [pyrUnref, hk, h0]

theorem aux_pw_close {lk : Nat → Nat} {s : PyrState} {o c : Nat} {r agreed : Bool} {k : PyrConn} (h : aux_pw_I lk s)
    (hz : ∀ d, s.conns.length ≤ d → lk d = 0)
    (ho : s.objs[o]? = some ⟨some c, r⟩) (hk : s.conns[c]? = some k) (h0 : k.refs ≠ 0) (hc : ¬ PyrFallenListener s o) :
    ∃ lk', (∀ d, lk d ≤ lk' d) ∧ (∀ d, s.conns.length ≤ d → lk' d = 0) ∧ aux_pw_I lk' (pyrClose s o c agreed) ∧
      (pyrClose s o c agreed).conns.length = s.conns.length ∧ (¬ PyrLosing s o → lk' = lk) := by
  have hclt : c < s.conns.length := (List.getElem?_eq_some_iff.1 hk).1
  have href := h.refs c k hk
  have hu : 0 < aux_pw_users s.objs c := aux_pw_used.1 ⟨_, List.mem_of_getElem? ho, rfl⟩
  have fin : ∀ (k' : PyrConn), k'.refs + 1 + k.engine.toNat + k.owed.toNat = k.refs + k'.engine.toNat + k'.owed.toNat →
      pyrClose s o c agreed = { s with conns := s.conns.set c k', objs := s.objs.set o { (⟨some c, r⟩ : PyrObj) with conn := none } } → 
      ∃ lk', (∀ d, lk d ≤ lk' d) ∧ (∀ d, s.conns.length ≤ d → lk' d = 0) ∧ aux_pw_I lk' (pyrClose s o c agreed) ∧
        (pyrClose s o c agreed).conns.length = s.conns.length ∧ (¬ PyrLosing s o → lk' = lk) := by
    intro k' hr he
    rw [he]
    exact ⟨lk, fun _ => Nat.le_refl _, hz, aux_pw_forget h ho rfl hk (by omega) (fun _ _ => rfl), by simp, fun _ => rfl⟩
  have lose : ∀ (k' : PyrConn), k'.refs + k.engine.toNat + k.owed.toNat = k.refs + k'.engine.toNat + k'.owed.toNat → PyrLosing s o →
      pyrClose s o c agreed = { s with conns := s.conns.set c k', objs := s.objs.set o { (⟨some c, r⟩ : PyrObj) with conn := none } } → 
      ∃ lk', (∀ d, lk d ≤ lk' d) ∧ (∀ d, s.conns.length ≤ d → lk' d = 0) ∧ aux_pw_I lk' (pyrClose s o c agreed) ∧
        (pyrClose s o c agreed).conns.length = s.conns.length ∧ (¬ PyrLosing s o → lk' = lk) := by
    intro k' hr hl he
    rw [he]
    refine ⟨fun d => if d = c then lk d + 1 else lk d, fun d => by simp only; split <;> omega, ?_, aux_pw_forget h ho rfl hk (by simp only [if_true]; omega) (fun d hd => by simp [hd]), by simp, fun hn => absurd hl hn⟩
    intro d hd
    have : d ≠ c := by omega
    simp [this, hz d hd]
  have hself : s.conns.set c k = s.conns := by
    apply List.ext_getElem?
    intro i
    rw [List.getElem?_set]
    by_cases hi : c = i
    · subst hi; rw [if_pos rfl, if_pos hclt, hk]
    · rw [if_neg hi]
  have hset : ∀ a, (s.conns.set c a)[c]? = some a := by simp [hclt]
  obtain ⟨role, ok, cc, refs, eng, owed⟩ := k
  have h0' : refs ≠ 0 := h0
  cases role with
  | initiator =>
    cases cc with
    | true =>
      refine lose ⟨.initiator, ok, true, refs, eng, owed⟩ (by simp) ⟨_, c, _, ho, rfl, hk, .inr ⟨rfl, rfl⟩⟩ ?_
      simp [pyrClose, hk, h0', pyrLibClose, pyrNull, ho, hself]
    | false =>
      cases ok with
      | true =>
        cases agreed with
        | true =>
          refine fin ⟨.initiator, false, true, refs - 1, eng, owed⟩ (by simp only; omega) ?_
          simp [pyrClose, hk, h0', pyrLibClose, pyrNull, pyrUnref, ho, hset]
        | false =>
          have he : pyrClose s o c false = s := by simp [pyrClose, hk, h0', pyrLibClose]
          rw [he]
          exact ⟨lk, fun _ => Nat.le_refl _, hz, h, rfl, fun _ => rfl⟩
      | false =>
        refine fin ⟨.initiator, false, true, refs - 1, eng, owed⟩ (by simp only; omega) ?_
        simp [pyrClose, hk, h0', pyrLibClose, pyrNull, pyrUnref, ho, hset]
  | listener =>
    have hl : PyrLosing s o := ⟨_, c, _, ho, rfl, hk, .inl rfl⟩
    cases cc with
    | true =>
      refine lose ⟨.listener, ok, true, refs, eng, owed⟩ (by simp) hl ?_
      simp [pyrClose, hk, h0', pyrLibClose, pyrNull, ho, hself]
    | false =>
      cases ok with
      | true =>
        cases agreed with
        | true =>
          refine lose ⟨.listener, false, true, refs, eng, owed⟩ (by simp) hl ?_
          simp [pyrClose, hk, h0', pyrLibClose, pyrNull, ho]
        | false =>
          have he : pyrClose s o c false = s := by simp [pyrClose, hk, h0', pyrLibClose]
          rw [he]
          exact ⟨lk, fun _ => Nat.le_refl _, hz, h, rfl, fun _ => rfl⟩
      | false =>
        refine lose ⟨.listener, false, true, refs, eng, owed⟩ (by simp) hl ?_
        simp [pyrClose, hk, h0', pyrLibClose, pyrNull, ho]
  | master =>
    cases ok with
    | true =>
      refine fin ⟨.master, false, cc, refs - 1, eng, owed⟩ (by simp only; omega) ?_
      simp [pyrClose, hk, h0', pyrDown, pyrNull, pyrUnref, ho, hset]
    | false =>
      cases cc with
      | true =>
        refine fin ⟨.master, false, true, refs - 1, eng, owed⟩ (by simp only; omega) ?_
        simp [pyrClose, hk, h0', pyrLibClose, pyrNull, pyrUnref, ho]
      | false =>
        cases owed with
        | false => exact absurd ⟨_, c, _, ho, rfl, hk, rfl, rfl, rfl, rfl⟩ hc
        | true =>
          simp at href
          have h1 : refs - 1 ≠ 0 := by omega
          refine fin ⟨.master, false, true, refs - 1 - 1, eng, false⟩ (by simp; omega) ?_
          simp [pyrClose, hk, h0', h1, pyrLibClose, pyrNull, pyrUnref, ho, hset]

theorem aux_pw_step {lk : Nat → Nat} {s : PyrState} {op : PyrOp} (h : aux_pw_I lk s) (hz : ∀ d, s.conns.length ≤ d → lk d = 0) (hc : aux_pw_ok s op) :
    ∃ lk', (∀ d, lk d ≤ lk' d) ∧ (∀ d, (pyrStep s op).conns.length ≤ d → lk' d = 0) ∧ aux_pw_I lk' (pyrStep s op) ∧
      (aux_pw_nice s op → lk' = lk) := by
  have same : ∀ t : PyrState, s.conns.length ≤ t.conns.length → pyrStep s op = t → aux_pw_I lk t →
      ∃ lk', (∀ d, lk d ≤ lk' d) ∧ (∀ d, (pyrStep s op).conns.length ≤ d → lk' d = 0) ∧ aux_pw_I lk' (pyrStep s op) ∧ (aux_pw_nice s op → lk' = lk) := by
    intro t ht he hi
    rw [he]
    exact ⟨lk, fun _ => Nat.le_refl _, fun d hd => hz d (by omega), hi, fun _ => rfl⟩
  have hz0 := hz s.conns.length (Nat.le_refl _)
  cases op with
  | connect ok =>
    refine same { s with conns := s.conns ++ [⟨.initiator, ok, false, if ok then 2 else 1, ok, false⟩], objs := s.objs ++ [⟨some s.conns.length, true⟩] } (by simp) rfl (aux_pw_new h (by simp) ?_ hz0)
    cases ok <;> rfl
  | accepted =>
    have := aux_pw_new (k := ⟨.listener, true, false, 1, true, false⟩) (xs := []) h (by simp) rfl hz0
    exact same { s with conns := s.conns ++ [⟨.listener, true, false, 1, true, false⟩] } (by simp) rfl (by simpa using this)
  | listen ok =>
    refine same { s with conns := s.conns ++ [⟨.master, ok, false, 2, ok, !ok⟩], objs := s.objs ++ [⟨some s.conns.length, true⟩] } (by simp) rfl (aux_pw_new h (by simp) ?_ hz0)
    cases ok <;> rfl
  | wrap c =>
    cases hk : s.conns[c]? with
    | none => exact same s (Nat.le_refl _) (by simp [pyrStep, hk]) h
    | some k =>
      by_cases h0 : k.refs = 0
      · exact same s (Nat.le_refl _) (by simp [pyrStep, hk, h0]) h
      · have hclt : c < s.conns.length := (List.getElem?_eq_some_iff.1 hk).1
        refine same { s with conns := s.conns.set c { k with refs := k.refs + 1 }, objs := s.objs ++ [⟨some c, false⟩] } (by simp) (by simp [pyrStep, hk, h0]) ⟨h.bad, ?_, ?_⟩
        · intro y hy d hd
          rcases List.mem_append.1 hy with hy | hy
          · simpa using h.valid y hy d hd
          · simp at hy; subst hy; simp at hd; subst hd; simpa using hclt
        · intro d k2 hk2
          have hu : aux_pw_users (s.objs ++ [⟨some c, false⟩]) d = aux_pw_users s.objs d + if d = c then 1 else 0 := by
            simp only [aux_pw_users, List.countP_append]
            by_cases hd : d = c
            · subst hd; simp [List.countP_cons]
            · simp [List.countP_cons, hd, Ne.symm hd]
          simp only at hk2 ⊢
          rw [hu]
          rw [List.getElem?_set] at hk2
          by_cases hd : d = c
          · subst hd
            rw [if_pos rfl, if_pos hclt] at hk2
            cases hk2
            have := h.refs d k hk
            simp only [if_true]
            omega
          · rw [if_neg (fun e => hd e.symm)] at hk2
            have := h.refs d k2 hk2
            simp only [hd, if_false]
            omega
  | shutdown o =>
    match ho : s.objs[o]? with
    | none => exact same s (Nat.le_refl _) (by simp [pyrStep, ho]) h
    | some ⟨none, r⟩ => exact same s (Nat.le_refl _) (by simp [pyrStep, ho]) h
    | some ⟨some c, r⟩ =>
      obtain ⟨k, hk, h0⟩ := aux_pw_pos h ho
      exact same { s with conns := s.conns.set c { k with ok := false } } (by simp) (by simp only [pyrStep, ho]; exact aux_pw_down hk h0) (aux_pw_change h hk (by simp only))
  | close o agreed =>
    match ho : s.objs[o]? with
    | none => exact same s (Nat.le_refl _) (by simp [pyrStep, ho]) h
    | some ⟨none, r⟩ => exact same s (Nat.le_refl _) (by simp [pyrStep, ho]) h
    | some ⟨some c, r⟩ =>
      obtain ⟨k, hk, h0⟩ := aux_pw_pos h ho
      obtain ⟨lk', h1, h2, h3, h4, h5⟩ := aux_pw_close (agreed := agreed) h hz ho hk h0 hc
      have he : pyrStep s (.close o agreed) = pyrClose s o c agreed := by simp [pyrStep, ho]
      rw [he]
      exact ⟨lk', h1, by rw [h4]; exact h2, h3, h5⟩
  | collect o =>
    match ho : s.objs[o]? with
    | none => exact same s (Nat.le_refl _) (by simp [pyrStep, ho]) h
    | some ⟨none, r⟩ => exact same s (Nat.le_refl _) (by simp [pyrStep, ho]) h
    | some ⟨some c, r⟩ =>
      obtain ⟨k, hk, h0⟩ := aux_pw_pos h ho
      have hclt : c < s.conns.length := (List.getElem?_eq_some_iff.1 hk).1
      have hset : ∀ a, (s.conns.set c a)[c]? = some a := by simp [hclt]
      by_cases hx : k.ok = true ∧ r = true
      · refine same { s with conns := s.conns.set c { k with ok := false, refs := k.refs - 1 }, objs := s.objs.set o { (⟨some c, r⟩ : PyrObj) with conn := none } } (by simp) ?_ (aux_pw_forget h ho rfl hk (by simp only; omega) (fun _ _ => rfl))
        simp [pyrStep, ho, pyrCollect, hk, h0, hx, pyrDown, pyrUnref, pyrNull, hset]
      · refine same { s with conns := s.conns.set c { k with refs := k.refs - 1 }, objs := s.objs.set o { (⟨some c, r⟩ : PyrObj) with conn := none } } (by simp) ?_ (aux_pw_forget h ho rfl hk (by simp only; omega) (fun _ _ => rfl))
        simp [pyrStep, ho, pyrCollect, hk, h0, hx, pyrUnref, pyrNull]
  | lost c =>
    cases hk : s.conns[c]? with
    | none => exact same s (Nat.le_refl _) (by simp [pyrStep, hk]) h
    | some k =>
      by_cases h0 : k.refs = 0
      · exact same s (Nat.le_refl _) (by simp [pyrStep, hk, h0]) h
      · exact same { s with conns := s.conns.set c { k with ok := false } } (by simp) (by simp [pyrStep, hk, h0]) (aux_pw_change h hk (by simp only))
  | reader c =>
    cases hk : s.conns[c]? with
    | none => exact same s (Nat.le_refl _) (by simp [pyrStep, hk]) h
    | some k =>
      by_cases hx : k.ok = false ∧ k.engine = true
      · have hclt : c < s.conns.length := (List.getElem?_eq_some_iff.1 hk).1
        have hset : ∀ a, (s.conns.set c a)[c]? = some a := by simp [hclt]
        have hr := h.refs c k hk
        rw [hx.2] at hr
        simp at hr
        have h0 : k.refs ≠ 0 := by omega
        refine same { s with conns := s.conns.set c { k with engine := false, refs := k.refs - 1 } } (by simp) ?_ (aux_pw_change h hk ?_)
        · simp [pyrStep, hk, hx, pyrUnref, hset, h0]
        · simp [hx.2]; omega
      · exact same s (Nat.le_refl _) (by simp [pyrStep, hk, hx]) h

theorem aux_pw_snoc {α : Type} {p : List α → Prop} (h0 : p []) (hs : ∀ l a, p l → p (l ++ [a])) : ∀ l, p l := by
  intro l
  have : ∀ m : List α, p m.reverse := by
    intro m
    induction m with
    | nil => exact h0
    | cons a m ih => simpa using hs _ a ih
  simpa using this l.reverse

theorem aux_pw_run (ops : List PyrOp) (op : PyrOp) : pyrRun (ops ++ [op]) = pyrStep (pyrRun ops) op := by simp [pyrRun]

theorem aux_pw_careful {ops : List PyrOp} {op : PyrOp} (h : PyrCareful (ops ++ [op])) : PyrCareful ops ∧ aux_pw_ok (pyrRun ops) op := by
  refine ⟨fun pre o a post e => h pre o a (post ++ [op]) (by rw [e]; simp), ?_⟩
  cases op <;> first | trivial | exact h ops _ _ [] rfl

theorem aux_pw_polite {ops : List PyrOp} {op : PyrOp} (h : PyrPolite (ops ++ [op])) : PyrPolite ops ∧ aux_pw_nice (pyrRun ops) op := by
  refine ⟨fun pre o a post e => h pre o a (post ++ [op]) (by rw [e]; simp), ?_⟩
  cases op <;> first | trivial | exact h ops _ _ [] rfl

theorem aux_pw_all : ∀ ops, PyrCareful ops → ∃ lk, aux_pw_I lk (pyrRun ops) ∧ (∀ d, (pyrRun ops).conns.length ≤ d → lk d = 0) ∧ (PyrPolite ops → lk = fun _ => 0) := by
  refine aux_pw_snoc ?_ ?_
  · intro _
    exact ⟨fun _ => 0, ⟨rfl, by simp [pyrRun], by simp [pyrRun]⟩, fun _ _ => rfl, fun _ => rfl⟩
  · intro ops op ih hc
    obtain ⟨hc1, hc2⟩ := aux_pw_careful hc
    obtain ⟨lk, h1, h2, h3⟩ := ih hc1
    obtain ⟨lk', g1, g2, g3, g4⟩ := aux_pw_step h1 h2 hc2
    rw [aux_pw_run]
    refine ⟨lk', g3, g2, ?_⟩
    intro hp
    obtain ⟨hp1, hp2⟩ := aux_pw_polite hp
    rw [g4 hp2, h3 hp1]

/-- A program that does not close listeners that fell uses no freed memory: a
connection is there as long as an object refers to it or the reader works with
it.  Missing: programs that do. -/
theorem C141_kept_partial (ops : List PyrOp) (h : PyrCareful ops) :
    (pyrRun ops).bad = false ∧ ∀ c, PyrUsed (pyrRun ops) c ∨ PyrWatched (pyrRun ops) c → PyrAlive (pyrRun ops) c := by
  obtain ⟨lk, hi, _, _⟩ := aux_pw_all ops h
  refine ⟨hi.bad, ?_⟩
  rintro c (⟨x, hx, hc⟩ | ⟨k, hk, he⟩)
  · have hlt := hi.valid x hx c hc
    refine ⟨_, List.getElem?_eq_getElem hlt, ?_⟩
    have := hi.refs c _ (List.getElem?_eq_getElem hlt)
    have := aux_pw_used.1 ⟨x, hx, hc⟩
    omega
  · refine ⟨k, hk, ?_⟩
    have := hi.refs c k hk
    rw [he] at this
    simp at this
    omega

/-- With `close` neither on accepted connections nor twice on one connection,
and listeners that failed to start closed, all of C141.  Missing: the other
programs. -/
theorem C141_exact_partial (ops : List PyrOp) (h : PyrCareful ops) (hp : PyrPolite ops) (hs : PyrSettled (pyrRun ops)) :
    PyrExact (pyrRun ops) := by
  obtain ⟨lk, hi, _, hlk⟩ := aux_pw_all ops h
  have hlk := hlk hp
  subst hlk
  obtain ⟨hb, hk⟩ := C141_kept_partial ops h
  refine ⟨hb, fun c hc => ⟨?_, hk c⟩⟩
  rintro ⟨k, hkc, h0⟩
  have hr := hi.refs c k hkc
  rw [hs k (List.mem_of_getElem? hkc)] at hr
  cases he : k.engine with
  | true => exact .inr ⟨k, hkc, he⟩
  | false =>
    rw [he] at hr
    simp at hr
    exact .inl (aux_pw_used.2 (by omega))

/-- A connection from which a reference was lost is never freed, whatever a
careful program does after: an accepted connection closed by `close`, or one
closed through two objects. -/
theorem C141_neverFreed (ops : List PyrOp) (o c : Nat) (x : PyrObj) (k : PyrConn) (more : List PyrOp)
    (ho : (pyrRun ops).objs[o]? = some x) (hx : x.conn = some c) (hk : (pyrRun ops).conns[c]? = some k)
    (hl : k.role = .listener ∨ k.role = .initiator ∧ k.closeCalled = true)
    (h : PyrCareful (ops ++ [.close o true] ++ more)) :
    PyrAlive (pyrRun (ops ++ [.close o true] ++ more)) c := by
  have key : ∀ more, PyrCareful (ops ++ [.close o true] ++ more) → ∃ lk, aux_pw_I lk (pyrRun (ops ++ [.close o true] ++ more)) ∧
      (∀ d, (pyrRun (ops ++ [.close o true] ++ more)).conns.length ≤ d → lk d = 0) ∧ 0 < lk c := by
    refine aux_pw_snoc ?_ ?_
    · intro hc
      rw [List.append_nil] at hc ⊢
      obtain ⟨hc1, _⟩ := aux_pw_careful hc
      obtain ⟨lk, hi, hz, _⟩ := aux_pw_all ops hc1
      obtain ⟨xc, xr⟩ := x
      simp only at hx; subst hx
      have hclt : c < (pyrRun ops).conns.length := (List.getElem?_eq_some_iff.1 hk).1
      have h0 : k.refs ≠ 0 := by
        obtain ⟨k', hk', h0⟩ := aux_pw_pos hi ho
        rw [hk] at hk'; cases hk'; exact h0
      rw [aux_pw_run]
      generalize pyrRun ops = s at *
      have lose : ∀ k' : PyrConn, k'.refs + k.engine.toNat + k.owed.toNat = k.refs + k'.engine.toNat + k'.owed.toNat →
          pyrStep s (.close o true) = { s with conns := s.conns.set c k', objs := s.objs.set o { (⟨some c, xr⟩ : PyrObj) with conn := none } } →
          ∃ lk, aux_pw_I lk (pyrStep s (.close o true)) ∧ (∀ d, (pyrStep s (.close o true)).conns.length ≤ d → lk d = 0) ∧ 0 < lk c := by
        intro k' hr he
        rw [he]
        refine ⟨fun d => if d = c then lk d + 1 else lk d, aux_pw_forget hi ho rfl hk (by simp only [if_true]; omega) (fun d hd => by simp [hd]), ?_, by simp⟩
        intro d hd
        simp only [List.length_set] at hd
        have : d ≠ c := by omega
        simp [this, hz d hd]
      have hself : s.conns.set c k = s.conns := by
        apply List.ext_getElem?
        intro i
        rw [List.getElem?_set]
        by_cases hi : c = i
        · subst hi; rw [if_pos rfl, if_pos hclt, hk]
        · rw [if_neg hi]
      obtain ⟨role, ok, cc, refs, eng, owed⟩ := k
      have h0' : refs ≠ 0 := h0
      rcases hl with hl | ⟨hl, hl'⟩
      · simp only at hl; subst hl
        cases cc with
        | true =>
          refine lose ⟨.listener, ok, true, refs, eng, owed⟩ (by simp) ?_
          simp [pyrStep, ho, pyrClose, hk, h0', pyrLibClose, pyrNull, hself]
        | false =>
          refine lose ⟨.listener, false, true, refs, eng, owed⟩ (by simp) ?_
          cases ok <;> simp [pyrStep, ho, pyrClose, hk, h0', pyrLibClose, pyrNull]
      · simp only at hl hl'; subst hl hl'
        refine lose ⟨.initiator, ok, true, refs, eng, owed⟩ (by simp) ?_
        simp [pyrStep, ho, pyrClose, hk, h0', pyrLibClose, pyrNull, hself]
    · intro more op ih hc
      rw [← List.append_assoc] at hc ⊢
      obtain ⟨hc1, hc2⟩ := aux_pw_careful hc
      obtain ⟨lk, h1, h2, h3⟩ := ih hc1
      obtain ⟨lk', g1, g2, g3, _⟩ := aux_pw_step h1 h2 hc2
      rw [aux_pw_run]
      exact ⟨lk', g3, g2, by have := g1 c; omega⟩
  obtain ⟨lk, hi, hz, hpos⟩ := key more h
  have hlt : c < (pyrRun (ops ++ [.close o true] ++ more)).conns.length := by
    rcases Nat.lt_or_ge c (pyrRun (ops ++ [.close o true] ++ more)).conns.length with h' | h'
    · exact h'
    · have := hz c h'; omega
  refine ⟨_, List.getElem?_eq_getElem hlt, ?_⟩
  have := hi.refs c _ (List.getElem?_eq_getElem hlt)
  omega

/-- Collecting an object made for a handler does not end the session; collecting
the one made by the program does. -/
theorem C141_collect_partial (ops : List PyrOp) (h : PyrCareful ops) (o c : Nat) (x : PyrObj) (k : PyrConn)
    (ho : (pyrRun ops).objs[o]? = some x) (hx : x.conn = some c) (hk : (pyrRun ops).conns[c]? = some k) :
    ∃ k', (pyrRun (ops ++ [.collect o])).conns[c]? = some k' ∧ k'.ok = (k.ok && !x.closeRef) ∧ k'.refs + 1 = k.refs := by
  obtain ⟨lk, hi, _, _⟩ := aux_pw_all ops h
  obtain ⟨xc, r⟩ := x
  simp only at hx; subst hx
  have h0 : k.refs ≠ 0 := by
    obtain ⟨k', hk', h0⟩ := aux_pw_pos hi ho
    rw [hk] at hk'; cases hk'; exact h0
  have hclt : c < (pyrRun ops).conns.length := (List.getElem?_eq_some_iff.1 hk).1
  rw [aux_pw_run]
  have hset : ∀ a, ((pyrRun ops).conns.set c a)[c]? = some a := by simp [hclt]
  by_cases hy : k.ok = true ∧ r = true
  · refine ⟨{ k with ok := false, refs := k.refs - 1 }, ?_, by simp [hy], by simp only; omega⟩
    simp [pyrStep, ho, pyrCollect, hk, h0, hy, pyrDown, pyrUnref, pyrNull, hset]
  · refine ⟨{ k with refs := k.refs - 1 }, ?_, ?_, by simp only; omega⟩
    · simp [pyrStep, ho, pyrCollect, hk, h0, hy, pyrUnref, pyrNull, hset]
    · cases hok : k.ok <;> cases r <;> simp_all

/-- `shutdown` and then `close` of a listener: the reference of the object is
dropped twice. -/
theorem C141_listenerTwice :
    (pyrRun [.listen true, .shutdown 0, .reader 0, .close 0 true]).bad = true ∧
    (pyrRun [.listen true, .shutdown 0, .close 0 true, .reader 0]).bad = true := by
  constructor <;> decide +kernel

/-- A listener that failed to start and was collected without `close` is never freed. -/
theorem C141_failedListener : ¬ PyrExact (pyrRun [.listen false, .collect 0]) := by
  rintro ⟨_, h⟩
  rcases (h 0 (by decide)).1 ⟨⟨.master, false, false, 1, false, true⟩, by decide +kernel, by decide⟩ with ⟨x, hx, hc⟩ | ⟨k, hk, he⟩
  · have e : (pyrRun [.listen false, .collect 0]).objs = [⟨none, true⟩] := by decide +kernel
    rw [e] at hx
    simp at hx
    subst hx
    cases hc
  · have e : (pyrRun [.listen false, .collect 0]).conns[0]? = some ⟨.master, false, false, 1, false, true⟩ := by decide +kernel
    rw [e] at hk; cases hk; cases he

theorem C141_statement_false : ¬ C141_statement := fun h => C141_failedListener (h _)

/-! Cases that meet the hypotheses -/

/-- A client and a server in one program. -/
def aux_pw_sample : List PyrOp := [.listen true, .connect true, .accepted, .wrap 2, .collect 2, .close 1 true, .lost 2, .reader 1, .reader 2, .close 0 true, .reader 0]

example : (pyrRun aux_pw_sample).bad = false ∧ (pyrRun aux_pw_sample).conns.map (·.refs) = [0, 0, 0] := by decide +kernel

theorem aux_pw_sample_closes (pre post : List PyrOp) (o : Nat) (a : Bool) (e : aux_pw_sample = pre ++ .close o a :: post) :
    pre = aux_pw_sample.take 5 ∧ o = 1 ∨ pre = aux_pw_sample.take 9 ∧ o = 0 := by
  unfold aux_pw_sample at *
  rcases pre with _ | ⟨p0, _ | ⟨p1, _ | ⟨p2, _ | ⟨p3, _ | ⟨p4, _ | ⟨p5, _ | ⟨p6, _ | ⟨p7, _ | ⟨p8, _ | ⟨p9, _ | ⟨p10, l⟩⟩⟩⟩⟩⟩⟩⟩⟩⟩⟩ <;> simp at e
  · obtain ⟨rfl, rfl, rfl, rfl, rfl, ⟨rfl, _⟩, _⟩ := e; exact .inl ⟨rfl, rfl⟩
  · obtain ⟨rfl, rfl, rfl, rfl, rfl, rfl, rfl, rfl, rfl, ⟨rfl, _⟩, _⟩ := e; exact .inr ⟨rfl, rfl⟩

example : PyrCareful aux_pw_sample ∧ PyrPolite aux_pw_sample ∧ PyrSettled (pyrRun aux_pw_sample) := by
  refine ⟨?_, ?_, by unfold PyrSettled; decide +kernel⟩
  · intro pre o a post e
    rcases aux_pw_sample_closes pre post o a e with ⟨rfl, rfl⟩ | ⟨rfl, rfl⟩ <;> rintro ⟨x, c, k, ho, hc, hk, h1, h2, _⟩
    · rw [show (pyrRun (aux_pw_sample.take 5)).objs[1]? = some ⟨some 1, true⟩ by decide +kernel] at ho
      cases ho; cases hc
      rw [show (pyrRun (aux_pw_sample.take 5)).conns[1]? = some ⟨.initiator, true, false, 2, true, false⟩ by decide +kernel] at hk
      cases hk; cases h1
    · rw [show (pyrRun (aux_pw_sample.take 9)).objs[0]? = some ⟨some 0, true⟩ by decide +kernel] at ho
      cases ho; cases hc
      rw [show (pyrRun (aux_pw_sample.take 9)).conns[0]? = some ⟨.master, true, false, 2, true, false⟩ by decide +kernel] at hk
      cases hk; cases h2
  · intro pre o a post e
    rcases aux_pw_sample_closes pre post o a e with ⟨rfl, rfl⟩ | ⟨rfl, rfl⟩ <;> rintro ⟨x, c, k, ho, hc, hk, h1⟩
    · rw [show (pyrRun (aux_pw_sample.take 5)).objs[1]? = some ⟨some 1, true⟩ by decide +kernel] at ho
      cases ho; cases hc
      rw [show (pyrRun (aux_pw_sample.take 5)).conns[1]? = some ⟨.initiator, true, false, 2, true, false⟩ by decide +kernel] at hk
      cases hk; simp at h1
    · rw [show (pyrRun (aux_pw_sample.take 9)).objs[0]? = some ⟨some 0, true⟩ by decide +kernel] at ho
      cases ho; cases hc
      rw [show (pyrRun (aux_pw_sample.take 9)).conns[0]? = some ⟨.master, true, false, 2, true, false⟩ by decide +kernel] at hk
      cases hk; simp at h1

/-- An accepted connection, closed by a handler: one reference is left when nobody holds it. -/
example : (pyrRun [.accepted, .wrap 0, .close 0 true, .reader 0]).conns.map (·.refs) = [1] ∧
    (pyrRun [.accepted, .wrap 0]).objs[0]? = some ⟨some 0, false⟩ := by decide +kernel

end Verif.Props
