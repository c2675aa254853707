import Verif.Spec.PullRefs
/-!
# Pull events and what they refer to
-/
namespace Verif.Props
open Verif.Model Verif.Spec

theorem aux_pv_holders_set (l : List PvEvent) (i : Nat) (e e' : PvEvent) (o : Nat) (h : l[i]? = some e) :
    pvHolders (l.set i e') o + pvNames e o = pvHolders l o + pvNames e' o := by
  induction l generalizing i with
  | nil => simp at h
  | cons a l ih =>
    cases i with
    | zero =>
      simp only [List.getElem?_cons_zero, Option.some.injEq] at h
      subst h
      simp only [pvHolders, List.set_cons_zero, List.map_cons, List.sum_cons]
      omega
    | succ i =>
      simp only [List.getElem?_cons_succ] at h
      have := ih i h
      simp only [pvHolders, List.set_cons_succ, List.map_cons, List.sum_cons] at this ⊢
      omega

theorem aux_pv_holders_append (l : List PvEvent) (e : PvEvent) (o : Nat) :
    pvHolders (l ++ [e]) o = pvHolders l o + pvNames e o := by
  simp [pvHolders]

theorem aux_pv_holders_le (l : List PvEvent) (i : Nat) (e : PvEvent) (o : Nat) (h : l[i]? = some e) :
    pvNames e o ≤ pvHolders l o := by
  have h1 := aux_pv_holders_set l i e { e with frees := 1 } o h
  have h2 : pvNames { e with frees := 1 } o = 0 := rfl
  omega

theorem aux_pv_holders_zero (l : List PvEvent) (o : Nat) (h : ∀ e ∈ l, pvNames e o = 0) : pvHolders l o = 0 := by
  induction l with
  | nil => rfl
  | cons a l ih =>
    have h1 := h a (by simp)
    have h2 := ih (fun e he => h e (by simp [he]))
    simp only [pvHolders, List.map_cons, List.sum_cons] at h2 ⊢
    omega

/-- `x`: references not dropped yet by an event being released, or taken for one being made. -/
structure PvInv (x : Nat → Nat) (s : Pv) : Prop where
  good : s.bad = false
  obj : ∀ (o : Nat) (b : PvObj), s.objs[o]? = some b →
    b.refs = b.others + pvHolders s.events o + x o ∧ b.frees = (if b.refs = 0 then 1 else 0)
  ev : ∀ (i : Nat) (e : PvEvent), s.events[i]? = some e → e.refs = e.held + e.queued.toNat ∧
    e.frees = (if e.refs = 0 then 1 else 0) ∧ (∀ o, e.conn = some o ∨ e.chan = some o ∨ e.frame = some o → o < s.objs.length) ∧
    (∀ (c o : Nat) (b : PvObj), e.conn = some c → e.chan = some o → s.objs[o]? = some b → b.parent = c)

theorem aux_pv_set_objs {x y : Nat → Nat} {s : Pv} (h : PvInv x s) {o : Nat} {b b' : PvObj} (hb : s.objs[o]? = some b)
    (hp : b'.parent = b.parent) (hf : b'.frees = if b'.refs = 0 then 1 else 0)
    (hr : b'.refs + b.others + x o = b.refs + b'.others + y o) (hy : ∀ k, k ≠ o → y k = x k) :
    PvInv y { s with objs := s.objs.set o b' } := by
  have hlt : o < s.objs.length := by rcases List.getElem?_eq_some_iff.mp hb with ⟨h, _⟩; exact h
  refine ⟨h.good, ?_, ?_⟩
  · intro k c hc
    simp only [List.getElem?_set] at hc
    split at hc
    · rename_i hk
      subst hk
      cases hc
      have := h.obj o b hb
      refine ⟨?_, hf⟩
      simp only
      omega
    · rename_i hk
      have := h.obj k c hc
      rw [hy k (fun hh => hk hh.symm)]
      exact this
  · intro i e he
    obtain ⟨h1, h2, h3, h4⟩ := h.ev i e he
    refine ⟨h1, h2, fun k hk => by simpa using h3 k hk, ?_⟩
    intro c k d hc hk hd
    simp only [List.getElem?_set] at hd
    split at hd
    · rename_i hko
      subst hko
      cases hd
      rw [hp]
      exact h4 c o b hc hk hb
    · exact h4 c k d hc hk hd

theorem aux_pv_unref {x y : Nat → Nat} {s : Pv} (h : PvInv x s) {o : Nat} (hx : x o = y o + 1) (hy : ∀ k, k ≠ o → y k = x k) :
    PvInv y (s.objUnref o) := by
  unfold Pv.objUnref
  split
  · rename_i hn
    refine ⟨h.good, ?_, h.ev⟩
    intro k c hc
    have hk : k ≠ o := by intro hk; subst hk; rw [hn] at hc; cases hc
    rw [hy k hk]
    exact h.obj k c hc
  · rename_i b hb
    have h1 := h.obj o b hb
    have h0 : ¬ b.refs = 0 := by omega
    rw [if_neg h0] at h1
    rw [if_neg (by omega)]
    refine aux_pv_set_objs h hb rfl rfl ?_ hy
    simp only
    omega

theorem aux_pv_ref {x y : Nat → Nat} {s : Pv} (h : PvInv x s) {o : Nat} {b : PvObj} (hb : s.objs[o]? = some b) (h0 : 0 < b.refs)
    (hx : y o = x o + 1) (hy : ∀ k, k ≠ o → y k = x k) : PvInv y (s.objRef o) := by
  unfold Pv.objRef
  rw [hb]
  have h1 := h.obj o b hb
  rw [if_neg (by omega)] at h1
  simp only
  rw [if_neg (by omega)]
  refine aux_pv_set_objs h hb rfl ?_ ?_ hy
  · simp only
    rw [if_neg (by omega)]
    exact h1.2
  · simp only
    omega

theorem aux_pv_unref_same (s : Pv) (o : Nat) : (s.objUnref o).events = s.events ∧ (s.objUnref o).isOn = s.isOn ∧
    (s.objUnref o).objs.length = s.objs.length := by
  unfold Pv.objUnref
  split
  · exact ⟨rfl, rfl, rfl⟩
  · split
    · exact ⟨rfl, rfl, rfl⟩
    · exact ⟨rfl, rfl, by simp⟩

theorem aux_pv_unrefOpt_same (s : Pv) (o : Option Nat) : (s.objUnrefOpt o).events = s.events ∧ (s.objUnrefOpt o).isOn = s.isOn := by
  cases o
  · exact ⟨rfl, rfl⟩
  · exact ⟨(aux_pv_unref_same _ _).1, (aux_pv_unref_same _ _).2.1⟩

theorem aux_pv_ref_same (s : Pv) (o : Option Nat) : (s.objRefOpt o).events = s.events ∧ (s.objRefOpt o).isOn = s.isOn := by
  cases o with
  | none => exact ⟨rfl, rfl⟩
  | some o =>
    unfold Pv.objRefOpt Pv.objRef
    simp only
    cases s.objs[o]? with
    | none => exact ⟨rfl, rfl⟩
    | some c =>
      by_cases hf : c.frees ≠ 0
      · simp [hf]
      · simp [hf]

/-- One if named. -/
def aux_pv_one (n : Option Nat) (k : Nat) : Nat := if n = some k then 1 else 0

theorem aux_pv_unrefOpt {x : Nat → Nat} {s : Pv} {n : Option Nat} (h : PvInv (fun k => x k + aux_pv_one n k) s) :
    PvInv x (s.objUnrefOpt n) := by
  cases n with
  | none => simpa [Pv.objUnrefOpt, aux_pv_one] using h
  | some o =>
    refine aux_pv_unref h ?_ ?_
    · simp [aux_pv_one]
    · intro k hk
      have : ¬ o = k := fun h => hk h.symm
      simp [aux_pv_one, this]

theorem aux_pv_refOpt {x : Nat → Nat} {s : Pv} {n : Option Nat} (h : PvInv x s)
    (hn : ∀ (o : Nat), n = some o → ∃ b, s.objs[o]? = some b ∧ 0 < b.others) :
    PvInv (fun k => x k + aux_pv_one n k) (s.objRefOpt n) := by
  cases n with
  | none => simpa [Pv.objRefOpt, aux_pv_one] using h
  | some o =>
    obtain ⟨b, hb, h0⟩ := hn o rfl
    have h1 := h.obj o b hb
    refine aux_pv_ref h hb (by omega) ?_ ?_
    · simp [aux_pv_one]
    · intro k hk
      have : ¬ o = k := fun h => hk h.symm
      simp [aux_pv_one, this]

/-- Taking a reference changes nothing else about objects. -/
theorem aux_pv_ref_objs (s : Pv) (n : Option Nat) (k : Nat) (b : PvObj) (hb : s.objs[k]? = some b) :
    ∃ b', (s.objRefOpt n).objs[k]? = some b' ∧ b'.others = b.others ∧ b'.parent = b.parent ∧ b'.kind = b.kind := by
  cases n with
  | none => exact ⟨b, hb, rfl, rfl, rfl⟩
  | some o =>
    unfold Pv.objRefOpt Pv.objRef
    simp only
    cases hc : s.objs[o]? with
    | none => exact ⟨b, hb, rfl, rfl, rfl⟩
    | some c =>
      by_cases hf : c.frees ≠ 0
      · simp only [if_pos hf]
        exact ⟨b, hb, rfl, rfl, rfl⟩
      · simp only [if_neg hf]
        by_cases hk : o = k
        · subst hk
          have hlt : o < s.objs.length := by rcases List.getElem?_eq_some_iff.mp hb with ⟨h, _⟩; exact h
          rw [hb] at hc
          cases hc
          exact ⟨{ b with refs := b.refs + 1 }, by rw [List.getElem?_set, if_pos rfl, if_pos hlt], rfl, rfl, rfl⟩
        · exact ⟨b, by rw [List.getElem?_set, if_neg hk]; exact hb, rfl, rfl, rfl⟩

theorem aux_pv_set_ev {x y : Nat → Nat} {s : Pv} (h : PvInv x s) {i : Nat} {e e' : PvEvent} (he : s.events[i]? = some e)
    (hr : e'.refs = e'.held + e'.queued.toNat) (hf : e'.frees = if e'.refs = 0 then 1 else 0)
    (hn : ∀ o, e'.conn = some o ∨ e'.chan = some o ∨ e'.frame = some o → e.conn = some o ∨ e.chan = some o ∨ e.frame = some o) (hc : ∀ c o, e'.conn = some c → e'.chan = some o → e.conn = some c ∧ e.chan = some o)
    (hy : ∀ k, y k + pvNames e' k = x k + pvNames e k) :
    PvInv y { s with events := s.events.set i e' } := by
  have hlt : i < s.events.length := by rcases List.getElem?_eq_some_iff.mp he with ⟨h, _⟩; exact h
  refine ⟨h.good, ?_, ?_⟩
  · intro k c hk
    have h1 := h.obj k c hk
    have h2 := aux_pv_holders_set s.events i e e' k he
    have h3 := hy k
    refine ⟨?_, h1.2⟩
    simp only
    omega
  · intro k d hd
    simp only [List.getElem?_set] at hd
    obtain ⟨h1, h2, h3, h4⟩ := h.ev i e he
    by_cases hk : i = k
    · subst hk
      simp only [hlt, if_true] at hd
      cases hd
      refine ⟨hr, hf, fun o ho => h3 o (hn o ho), ?_⟩
      intro c o b hcc hco hb
      have := hc c o hcc hco
      exact h4 c o b this.1 this.2 hb
    · simp only [hk, if_false] at hd
      exact h.ev k d hd

theorem aux_pv_evUnref {s : Pv} (h : PvInv (fun _ => 0) s) (app : Bool) (i : Nat)
    (hh : ∀ (e : PvEvent), s.events[i]? = some e → if app then 0 < e.held else e.queued = true) :
    PvInv (fun _ => 0) (s.evUnref app i) := by
  unfold Pv.evUnref
  split
  · exact h
  · rename_i e he
    have h0 := hh e he
    obtain ⟨h1, h2, h3, h4⟩ := h.ev i e he
    have hr : 0 < e.refs := by
      cases app
      · simp only [Bool.false_eq_true, if_false] at h0
        rw [h0] at h1
        simp at h1
        omega
      · simp only [if_true] at h0
        omega
    have hf0 : e.frees = 0 := by rw [h2, if_neg (by omega)]
    rw [if_neg (by omega)]
    simp only
    have hrefs : e.refs - 1 = (if app then { e with held := e.held - 1 } else { e with queued := false } : PvEvent).held +
        (if app then { e with held := e.held - 1 } else { e with queued := false } : PvEvent).queued.toNat := by
      cases app
      · simp only [Bool.false_eq_true, if_false] at h0 ⊢
        rw [h0] at h1
        simp at h1 ⊢
        omega
      · simp only [if_true] at h0 ⊢
        omega
    have hsame : ∀ k, pvNames { (if app then { e with held := e.held - 1 } else { e with queued := false } : PvEvent) with refs := e.refs - 1 } k = pvNames e k := by
      intro k
      cases app <;> rfl
    split
    · rename_i hr1
      refine aux_pv_set_ev h he ?_ ?_ (fun o ho => by cases app <;> exact ho) ?_ (fun k => by rw [hsame])
      · simpa using hrefs
      · cases app <;> simp only [Bool.false_eq_true, if_false, if_true] <;> rw [if_neg hr1, hf0]
      · intro c o
        cases app <;> exact fun a b => ⟨a, b⟩
    · rename_i hr1
      have hr1 : e.refs - 1 = 0 := by omega
      refine aux_pv_unrefOpt (aux_pv_unrefOpt (aux_pv_unrefOpt ?_))
      refine aux_pv_set_ev h he ?_ rfl ?_ ?_ ?_
      · rw [hr1] at hrefs
        simpa using hrefs
      · intro o ho
        simp at ho
      · intro c o hc
        simp at hc
      · intro k
        simp only [pvNames, aux_pv_one, hf0]
        simp
        omega

theorem aux_pv_use {x : Nat → Nat} {s : Pv} (h : PvInv x s) (n : Option Nat)
    (hn : ∀ (o : Nat) (b : PvObj), n = some o → s.objs[o]? = some b → 0 < b.refs) : s.useObj n = s := by
  cases n with
  | none => rfl
  | some o =>
    unfold Pv.useObj
    simp only
    split
    · rename_i b hb
      have h1 := hn o b rfl hb
      have h2 := h.obj o b hb
      rw [if_neg (by omega)] at h2
      rw [if_neg (by omega)]
    · rfl

theorem aux_pv_live {s : Pv} (h : PvInv (fun _ => 0) s) {i : Nat} {e : PvEvent} (he : s.events[i]? = some e) (h0 : 0 < e.held)
    {o : Nat} (ho : e.conn = some o ∨ e.chan = some o ∨ e.frame = some o) {b : PvObj} (hb : s.objs[o]? = some b) : 0 < b.refs := by
  obtain ⟨h1, h2, h3, h4⟩ := h.ev i e he
  rw [if_neg (by omega)] at h2
  have h5 := aux_pv_holders_le s.events i e o he
  have h6 := h.obj o b hb
  have h7 : 0 < pvNames e o := by
    unfold pvNames
    rw [if_neg (by omega)]
    rcases ho with ho | ho | ho <;> rw [if_pos ho] <;> omega
  omega

theorem aux_pv_useEvent {s : Pv} (h : PvInv (fun _ => 0) s) {i : Nat} {f : PvEvent → Option Nat} (hh : PvHeld s i)
    (hf : ∀ (e : PvEvent) (o : Nat), s.events[i]? = some e → f e = some o → e.conn = some o ∨ e.chan = some o ∨ e.frame = some o) :
    s.useEvent i f = s := by
  obtain ⟨e, he, h0⟩ := hh
  unfold Pv.useEvent
  rw [he]
  simp only
  obtain ⟨h1, h2, h3, h4⟩ := h.ev i e he
  rw [if_neg (by omega)] at h2
  rw [if_neg (by omega)]
  exact aux_pv_use h _ fun o b ho hb => aux_pv_live h he h0 (hf e o he ho) hb

theorem aux_pv_drop {s : Pv} (h : PvInv (fun _ => 0) s) (i : Nat) : PvInv (fun _ => 0) (s.dropQueued i) := by
  unfold Pv.dropQueued
  split
  · exact h
  · rename_i e he
    split
    · rename_i hq
      refine aux_pv_evUnref h false i ?_
      intro e' he'
      rw [he] at he'
      cases he'
      simpa using hq
    · exact h

theorem aux_pv_dropAll (l : List Nat) {s : Pv} (h : PvInv (fun _ => 0) s) : PvInv (fun _ => 0) (l.foldl Pv.dropQueued s) := by
  induction l generalizing s with
  | nil => exact h
  | cons i l ih => exact ih (aux_pv_drop h i)

theorem aux_pv_owned {s : Pv} {k : PvKind} {o : Nat} (h : PvOwned s k o) : ∃ b, s.objs[o]? = some b ∧ 0 < b.others := by
  obtain ⟨b, h1, _, h2⟩ := h
  exact ⟨b, h1, h2⟩

theorem aux_pv_marshal {s : Pv} (h : PvInv (fun _ => 0) s) (closing : Bool) (conn : Nat) (chan frame : Option Nat)
    (ha : PvAllowed s (.happen closing conn chan frame)) : PvInv (fun _ => 0) (s.marshal closing conn chan frame) := by
  unfold Pv.marshal
  split
  · obtain ⟨hc, hch, hfr⟩ := ha
    obtain ⟨named, hnm⟩ : ∃ n, (if (closing || s.okConn conn) = true then some conn else none : Option Nat) = n := ⟨_, rfl⟩
    simp only [hnm]
    have hnc : ∀ o, named = some o → o = conn := by
      intro o ho
      rw [← hnm] at ho
      split at ho
      · cases ho
        rfl
      · cases ho
    have g1 := aux_pv_refOpt (n := named) h (fun o ho => by rw [hnc o ho]; exact aux_pv_owned hc)
    have g2 := aux_pv_refOpt (n := chan) g1 (fun o ho => by
      obtain ⟨b, hb, h0⟩ := aux_pv_owned (hch o (by simpa using ho)).1
      obtain ⟨b', hb', h1, _⟩ := aux_pv_ref_objs s named o b hb
      exact ⟨b', hb', by omega⟩)
    have g3 := aux_pv_refOpt (n := frame) g2 (fun o ho => by
      obtain ⟨b, hb, h0⟩ := aux_pv_owned (hfr o (by simpa using ho))
      obtain ⟨b', hb', h1, _⟩ := aux_pv_ref_objs s named o b hb
      obtain ⟨b'', hb'', h1', _⟩ := aux_pv_ref_objs _ chan o b' hb'
      exact ⟨b'', hb'', by omega⟩)
    have hev : (((s.objRefOpt named).objRefOpt chan).objRefOpt frame).events = s.events := by
      rw [(aux_pv_ref_same _ _).1, (aux_pv_ref_same _ _).1, (aux_pv_ref_same _ _).1]
    have hobj : ∀ (k : Nat) (b : PvObj), s.objs[k]? = some b →
        ∃ b', (((s.objRefOpt named).objRefOpt chan).objRefOpt frame).objs[k]? = some b' ∧ b'.parent = b.parent := by
      intro k b hb
      obtain ⟨b1, hb1, _, p1, _⟩ := aux_pv_ref_objs s named k b hb
      obtain ⟨b2, hb2, _, p2, _⟩ := aux_pv_ref_objs _ chan k b1 hb1
      obtain ⟨b3, hb3, _, p3, _⟩ := aux_pv_ref_objs _ frame k b2 hb2
      exact ⟨b3, hb3, by rw [p3, p2, p1]⟩
    generalize hs' : ((s.objRefOpt named).objRefOpt chan).objRefOpt frame = s' at *
    refine ⟨g3.good, ?_, ?_⟩
    · intro o b hb
      have := g3.obj o b hb
      refine ⟨?_, this.2⟩
      simp only
      rw [aux_pv_holders_append]
      rw [this.1]
      simp [pvNames, aux_pv_one]
      omega
    · intro i e he
      by_cases hi : i < s'.events.length
      · simp only [List.getElem?_append_left hi] at he
        exact g3.ev i e he
      · simp only [List.getElem?_append_right (Nat.le_of_not_lt hi)] at he
        have hz : e = ⟨1, named, chan, frame, true, 0, 0⟩ := by
          cases hk : i - s'.events.length with
          | zero => rw [hk] at he; simpa using he.symm
          | succ n => rw [hk] at he; simp at he
        subst hz
        have hex : ∀ o, (∃ b, s.objs[o]? = some b ∧ 0 < b.others) → o < s'.objs.length := by
          rintro o ⟨b, hb, _⟩
          obtain ⟨b', hb', _⟩ := hobj o b hb
          rcases List.getElem?_eq_some_iff.mp hb' with ⟨hh, _⟩
          exact hh
        refine ⟨rfl, rfl, ?_, ?_⟩
        · intro o ho
          rcases ho with h1 | h2 | h3
          · exact hex o (by rw [hnc o h1]; exact aux_pv_owned hc)
          · exact hex o (aux_pv_owned (hch o (by simpa using h2)).1)
          · exact hex o (aux_pv_owned (hfr o (by simpa using h3)))
        · intro c o b hcn hcc hb
          simp only at hcn hcc
          have := hnc c hcn
          subst this
          obtain ⟨⟨b0, hb0, _⟩, hp⟩ := hch o (by simpa using hcc)
          obtain ⟨b', hb', hp'⟩ := hobj o b0 hb0
          rw [hb'] at hb
          cases hb
          rw [hb0] at hp
          rw [hp']
          simpa using hp
  · exact h

theorem aux_pv_step {s : Pv} (h : PvInv (fun _ => 0) s) (op : PvOp) (ha : PvAllowed s op)
    (hq : ∀ (i : Nat) (e : PvEvent), op = .useChanConn i → s.events[i]? = some e → e.conn ≠ none) :
    PvInv (fun _ => 0) (s.step op) := by
  have howned : ∀ o, (PvOwned s .conn o ∨ PvOwned s .chan o ∨ PvOwned s .frame o) → ∃ b, s.objs[o]? = some b ∧ 0 < b.others := by
    rintro o (h | h | h) <;> exact aux_pv_owned h
  cases op with
  | init => exact ⟨h.good, h.obj, h.ev⟩
  | make kind parent =>
    simp only [Pv.step]
    refine ⟨h.good, ?_, ?_⟩
    · intro o b hb
      simp only at hb ⊢
      by_cases ho : o < s.objs.length
      · rw [List.getElem?_append_left ho] at hb
        exact h.obj o b hb
      · rw [List.getElem?_append_right (Nat.le_of_not_lt ho)] at hb
        have hz : b = ⟨kind, 1, 1, true, parent, 0⟩ := by
          cases hk : o - s.objs.length with
          | zero => rw [hk] at hb; simpa using hb.symm
          | succ n => rw [hk] at hb; simp at hb
        subst hz
        have : pvHolders s.events o = 0 := by
          refine aux_pv_holders_zero _ _ ?_
          intro e he
          obtain ⟨i, hi⟩ := List.mem_iff_getElem?.mp he
          obtain ⟨_, _, h3, _⟩ := h.ev i e hi
          unfold pvNames
          split
          · rfl
          · rw [if_neg (fun hh => ho (h3 o (Or.inl hh))), if_neg (fun hh => ho (h3 o (Or.inr (Or.inl hh)))),
              if_neg (fun hh => ho (h3 o (Or.inr (Or.inr hh))))]
        simp [this]
    · intro i e he
      obtain ⟨h1, h2, h3, h4⟩ := h.ev i e he
      have hw : ∀ (o : Nat), (e.chan = some o) → o < s.objs.length := fun o ho => h3 o (Or.inr (Or.inl ho))
      refine ⟨h1, h2, fun o ho => by have := h3 o ho; simp; omega, ?_⟩
      intro c o b hc ho hb
      simp only at hb
      rw [List.getElem?_append_left (hw o ho)] at hb
      exact h4 c o b hc ho hb
  | otherRef o =>
    simp only [Pv.step]
    split
    · exact h
    · rename_i b hb
      obtain ⟨b', hb', h0⟩ := howned o ha
      rw [hb] at hb'
      cases hb'
      have h1 := h.obj o b hb
      have h2 := h1.2
      rw [if_neg (by omega)] at h2
      rw [if_neg (by omega)]
      refine aux_pv_set_objs h hb rfl ?_ ?_ (fun _ _ => rfl)
      · simp only
        rw [if_neg (by omega), h2]
      · simp only
        omega
  | otherDrop o =>
    simp only [Pv.step]
    split
    · exact h
    · rename_i b hb
      obtain ⟨b', hb', h0⟩ := howned o ha
      rw [hb] at hb'
      cases hb'
      have h1 := h.obj o b hb
      have h2 := h1.2
      rw [if_neg (by omega)] at h2
      rw [if_neg (by omega)]
      refine aux_pv_set_objs h hb rfl rfl ?_ (fun _ _ => rfl)
      simp only
      omega
  | broken o =>
    simp only [Pv.step]
    split
    · exact h
    · rename_i b hb
      exact aux_pv_set_objs h hb rfl (h.obj o b hb).2 rfl (fun _ _ => rfl)
  | happen closing conn chan frame => exact aux_pv_marshal h closing conn chan frame ha
  | next =>
    simp only [Pv.step]
    split
    · exact h
    · rename_i i hi
      split
      · exact h
      · rename_i e he
        have hq : e.queued = true := by
          obtain ⟨hlt, hp, _⟩ := List.findIdx?_eq_some_iff_getElem.mp hi
          rcases List.getElem?_eq_some_iff.mp he with ⟨_, h2⟩
          rw [← h2]
          exact hp
        obtain ⟨h1, h2, _, _⟩ := h.ev i e he
        refine aux_pv_set_ev h he ?_ h2 (fun o ho => ho) (fun c o a b => ⟨a, b⟩) (fun k => rfl)
        rw [hq] at h1
        simpa using h1
  | evRef i =>
    simp only [Pv.step]
    obtain ⟨e, he, h0⟩ := ha
    rw [he]
    obtain ⟨h1, h2, _, _⟩ := h.ev i e he
    rw [if_neg (by omega)] at h2
    simp only
    rw [if_neg (by omega)]
    refine aux_pv_set_ev h he ?_ ?_ (fun o ho => ho) (fun c o a b => ⟨a, b⟩) (fun k => rfl)
    · simp only
      omega
    · simp only
      rw [if_neg (by omega), h2]
  | evUnref i =>
    refine aux_pv_evUnref h true i ?_
    intro e he
    obtain ⟨e', he', h0⟩ := ha
    rw [he] at he'
    cases he'
    simpa using h0
  | useConn i =>
    simp only [Pv.step]
    rw [aux_pv_useEvent h ha (fun e o _ ho => Or.inl ho)]
    exact h
  | useChan i =>
    simp only [Pv.step]
    rw [aux_pv_useEvent h ha (fun e o _ ho => Or.inr (Or.inl ho))]
    exact h
  | useFrame i =>
    simp only [Pv.step]
    rw [aux_pv_useEvent h ha (fun e o _ ho => Or.inr (Or.inr ho))]
    exact h
  | useChanConn i =>
    simp only [Pv.step]
    rw [aux_pv_useEvent h ha ?_]
    · exact h
    · intro e o he ho
      left
      obtain ⟨_, _, _, h4⟩ := h.ev i e he
      cases hc : e.conn with
      | none => exact absurd hc (hq i e rfl he)
      | some c =>
        unfold Pv.parentOf at ho
        split at ho
        · cases ho
        · rename_i k hk
          split at ho
          · rename_i b hb
            have := h4 c k b hc hk hb
            rw [this] at ho
            exact ho
          · cases ho
  | cleanup =>
    simp only [Pv.step]
    split
    · have := aux_pv_dropAll (List.range s.events.length) h
      exact ⟨this.good, this.obj, this.ev⟩
    · exact h
theorem aux_pv_run {s : Pv} (h : PvInv (fun _ => 0) s) (ops : List PvOp) (ho : PvObeys s ops) (hq : PvAsks s ops) :
    PvInv (fun _ => 0) (s.run ops) := by
  induction ops generalizing s with
  | nil => exact h
  | cons op ops ih => exact ih (aux_pv_step h op ho.1 hq.1) ho.2 hq.2

theorem aux_pv_init : PvInv (fun _ => 0) Pv.start :=
  ⟨rfl, fun o b hb => by simp [Pv.start] at hb, fun i e he => by simp [Pv.start] at he⟩

/-- If the connection of a channel is asked for only when the event has its connection, nothing released is used. -/
theorem C120_safe_partial (ops : List PvOp) (ho : PvObeys Pv.start ops) (hq : PvAsks Pv.start ops) :
    (Pv.start.run ops).bad = false :=
  (aux_pv_run aux_pv_init ops ho hq).good

/-- Connections, channels and frames are released once, and exactly when nobody has references of them: neither
events that were not released nor others. -/
theorem C120_released_partial (ops : List PvOp) (ho : PvObeys Pv.start ops) (hq : PvAsks Pv.start ops) (o : Nat) (b : PvObj)
    (hb : (Pv.start.run ops).objs[o]? = some b) :
    b.frees ≤ 1 ∧ (b.frees = 1 ↔ b.others = 0 ∧ ∀ e ∈ (Pv.start.run ops).events, e.frees = 0 →
      e.conn ≠ some o ∧ e.chan ≠ some o ∧ e.frame ≠ some o) := by
  have h := aux_pv_run aux_pv_init ops ho hq
  have h1 := h.obj o b hb
  have h2 := h1.2
  refine ⟨by rw [h2]; split <;> omega, ?_, ?_⟩
  · intro hf
    have h0 : b.refs = 0 := by
      rw [hf] at h2
      split at h2
      · assumption
      · omega
    refine ⟨by omega, ?_⟩
    intro e he hl
    obtain ⟨i, hi⟩ := List.mem_iff_getElem?.mp he
    have h3 := aux_pv_holders_le _ i e o hi
    have h4 : pvNames e o = 0 := by omega
    unfold pvNames at h4
    rw [if_neg (by omega)] at h4
    refine ⟨fun hh => ?_, fun hh => ?_, fun hh => ?_⟩ <;> rw [if_pos hh] at h4 <;> omega
  · rintro ⟨h3, h4⟩
    have h5 := aux_pv_holders_zero (Pv.start.run ops).events o (by
      intro e he
      unfold pvNames
      split
      · rfl
      · rename_i hl
        obtain ⟨a1, a2, a3⟩ := h4 e he (by omega)
        rw [if_neg a1, if_neg a2, if_neg a3])
    rw [h2, if_pos (by omega)]

/-- An event is released once, and exactly when it is not in the queue and the application has no reference of it. -/
theorem C120_events_partial (ops : List PvOp) (ho : PvObeys Pv.start ops) (hq : PvAsks Pv.start ops) (i : Nat) (e : PvEvent)
    (he : (Pv.start.run ops).events[i]? = some e) :
    e.frees ≤ 1 ∧ (e.frees = 1 ↔ e.held = 0 ∧ e.queued = false) := by
  have h := aux_pv_run aux_pv_init ops ho hq
  obtain ⟨h1, h2, _, _⟩ := h.ev i e he
  refine ⟨by rw [h2]; split <;> omega, ?_⟩
  cases hqd : e.queued <;> rw [hqd] at h1 <;> simp at h1 <;> rw [h2] <;> simp <;> omega

/-! ## What an event names -/

/-- Events keep what they name until they are released. -/
def aux_pv_keeps (l l' : List PvEvent) : Prop := ∀ (i : Nat) (e : PvEvent), l[i]? = some e → ∃ e', l'[i]? = some e' ∧
  (e.frees ≠ 0 → e'.frees ≠ 0) ∧ (e'.frees ≠ 0 ∨ (e'.conn = e.conn ∧ e'.chan = e.chan ∧ e'.frame = e.frame))

theorem aux_pv_keeps_refl (l : List PvEvent) : aux_pv_keeps l l := fun _ e he => ⟨e, he, id, Or.inr ⟨rfl, rfl, rfl⟩⟩

theorem aux_pv_keeps_trans {a b c : List PvEvent} (h : aux_pv_keeps a b) (h' : aux_pv_keeps b c) : aux_pv_keeps a c := by
  intro i e he
  obtain ⟨e1, h1, m1, k1⟩ := h i e he
  obtain ⟨e2, h2, m2, k2⟩ := h' i e1 h1
  refine ⟨e2, h2, fun hh => m2 (m1 hh), ?_⟩
  rcases k1 with k1 | ⟨p1, p2, p3⟩
  · exact Or.inl (m2 k1)
  · rcases k2 with k2 | ⟨q1, q2, q3⟩
    · exact Or.inl k2
    · exact Or.inr ⟨by rw [q1, p1], by rw [q2, p2], by rw [q3, p3]⟩

theorem aux_pv_keeps_set {l : List PvEvent} {i : Nat} {e e' : PvEvent} (he : l[i]? = some e)
    (h1 : e.frees ≠ 0 → e'.frees ≠ 0) (h2 : e'.frees ≠ 0 ∨ (e'.conn = e.conn ∧ e'.chan = e.chan ∧ e'.frame = e.frame)) :
    aux_pv_keeps l (l.set i e') := by
  have hlt : i < l.length := by rcases List.getElem?_eq_some_iff.mp he with ⟨h, _⟩; exact h
  intro k d hd
  by_cases hk : i = k
  · subst hk
    rw [he] at hd
    cases hd
    exact ⟨e', by rw [List.getElem?_set, if_pos rfl, if_pos hlt], h1, h2⟩
  · exact ⟨d, by rw [List.getElem?_set, if_neg hk]; exact hd, id, Or.inr ⟨rfl, rfl, rfl⟩⟩

theorem aux_pv_keeps_evUnref (s : Pv) (app : Bool) (i : Nat) : aux_pv_keeps s.events (s.evUnref app i).events := by
  unfold Pv.evUnref
  split
  · exact aux_pv_keeps_refl _
  · rename_i e he
    split
    · exact aux_pv_keeps_refl _
    · rename_i hf
      simp only
      split
      · refine aux_pv_keeps_set he ?_ ?_
        · cases app <;> exact id
        · cases app <;> exact Or.inr ⟨rfl, rfl, rfl⟩
      · rw [(aux_pv_unrefOpt_same _ _).1, (aux_pv_unrefOpt_same _ _).1, (aux_pv_unrefOpt_same _ _).1]
        exact aux_pv_keeps_set he (fun _ => by simp) (Or.inl (by simp))

theorem aux_pv_keeps_use (s : Pv) (i : Nat) (f : PvEvent → Option Nat) : aux_pv_keeps s.events (s.useEvent i f).events := by
  unfold Pv.useEvent
  split
  · exact aux_pv_keeps_refl _
  · split
    · exact aux_pv_keeps_refl _
    · rename_i e _ _
      unfold Pv.useObj
      split
      · exact aux_pv_keeps_refl _
      · split
        · split <;> exact aux_pv_keeps_refl _
        · exact aux_pv_keeps_refl _

theorem aux_pv_keeps_drop (s : Pv) (i : Nat) : aux_pv_keeps s.events (s.dropQueued i).events := by
  unfold Pv.dropQueued
  split
  · exact aux_pv_keeps_refl _
  · split
    · exact aux_pv_keeps_evUnref s false i
    · exact aux_pv_keeps_refl _

theorem aux_pv_keeps_dropAll (l : List Nat) (s : Pv) : aux_pv_keeps s.events (l.foldl Pv.dropQueued s).events := by
  induction l generalizing s with
  | nil => exact aux_pv_keeps_refl _
  | cons i l ih => exact aux_pv_keeps_trans (aux_pv_keeps_drop s i) (ih _)

theorem aux_pv_marshal_events (s : Pv) (closing : Bool) (conn : Nat) (chan frame : Option Nat) :
    (s.marshal closing conn chan frame).events = if s.isOn then s.events ++
      [⟨1, if closing || s.okConn conn then some conn else none, chan, frame, true, 0, 0⟩] else s.events := by
  unfold Pv.marshal
  by_cases h : s.isOn = true
  · rw [if_pos h, if_pos h]
    simp only
    rw [(aux_pv_ref_same _ _).1, (aux_pv_ref_same _ _).1, (aux_pv_ref_same _ _).1]
  · rw [if_neg h, if_neg h]

theorem aux_pv_keeps_step (s : Pv) (op : PvOp) : aux_pv_keeps s.events (s.step op).events := by
  cases op with
  | happen closing conn chan frame =>
    simp only [Pv.step]
    rw [aux_pv_marshal_events]
    split
    · intro i e he
      have hlt : i < s.events.length := by rcases List.getElem?_eq_some_iff.mp he with ⟨h, _⟩; exact h
      exact ⟨e, by rw [List.getElem?_append_left hlt]; exact he, id, Or.inr ⟨rfl, rfl, rfl⟩⟩
    · exact aux_pv_keeps_refl _
  | next =>
    simp only [Pv.step]
    split
    · exact aux_pv_keeps_refl _
    · split
      · exact aux_pv_keeps_refl _
      · rename_i e he
        exact aux_pv_keeps_set he id (Or.inr ⟨rfl, rfl, rfl⟩)
  | evRef i =>
    simp only [Pv.step]
    split
    · exact aux_pv_keeps_refl _
    · rename_i e he
      split
      · exact aux_pv_keeps_refl _
      · exact aux_pv_keeps_set he id (Or.inr ⟨rfl, rfl, rfl⟩)
  | evUnref i => exact aux_pv_keeps_evUnref s true i
  | useConn i => exact aux_pv_keeps_use s i _
  | useChan i => exact aux_pv_keeps_use s i _
  | useFrame i => exact aux_pv_keeps_use s i _
  | useChanConn i => exact aux_pv_keeps_use s i _
  | cleanup =>
    simp only [Pv.step]
    split
    · exact aux_pv_keeps_dropAll _ s
    · exact aux_pv_keeps_refl _
  | init => exact aux_pv_keeps_refl _
  | make kind parent => exact aux_pv_keeps_refl _
  | otherRef o => simp only [Pv.step]; split; exact aux_pv_keeps_refl _; split <;> exact aux_pv_keeps_refl _
  | otherDrop o => simp only [Pv.step]; split; exact aux_pv_keeps_refl _; split <;> exact aux_pv_keeps_refl _
  | broken o => simp only [Pv.step]; split <;> exact aux_pv_keeps_refl _

theorem aux_pv_keeps_run (s : Pv) (ops : List PvOp) : aux_pv_keeps s.events (s.run ops).events := by
  induction ops generalizing s with
  | nil => exact aux_pv_keeps_refl _
  | cons op ops ih => exact aux_pv_keeps_trans (aux_pv_keeps_step s op) (ih _)

/-- Whatever happens later, an event names its channel and its frame until it is released, and its connection if
that was open when the event was made or the event tells that it was closed. -/
theorem C120_names_partial (before after : List PvOp) (closing : Bool) (conn : Nat) (chan frame : Option Nat)
    (hon : (Pv.start.run before).isOn = true)
    (hok : closing = true ∨ ∃ b, (Pv.start.run before).objs[conn]? = some b ∧ b.isOk = true) :
    ∃ e, (Pv.start.run (before ++ .happen closing conn chan frame :: after)).events[(Pv.start.run before).events.length]? = some e ∧
      (e.frees ≠ 0 ∨ (e.conn = some conn ∧ e.chan = chan ∧ e.frame = frame)) := by
  have hrun : ∀ (a b : List PvOp) (s : Pv), s.run (a ++ b) = (s.run a).run b := by
    intro a
    induction a with
    | nil => intro b s; rfl
    | cons op a ih => intro b s; exact ih b (s.step op)
  rw [hrun]
  generalize Pv.start.run before = s at hon hok ⊢
  have h1 : (closing || s.okConn conn) = true := by
    rcases hok with h | ⟨b, hb, h⟩
    · simp [h]
    · simp [Pv.okConn, hb, h]
  have h2 := aux_pv_marshal_events s closing conn chan frame
  rw [if_pos hon, h1] at h2
  have h3 := aux_pv_keeps_run (s.step (.happen closing conn chan frame)) after
  obtain ⟨e, he, _, hk⟩ := h3 s.events.length ⟨1, some conn, chan, frame, true, 0, 0⟩ (by
    show (s.marshal closing conn chan frame).events[_]? = _
    rw [h2]
    simp)
  exact ⟨e, he, hk⟩

/-! ## What the code gets wrong -/

/-- Nothing released is used and pending events name their connections. -/
def C120_statement : Prop := ∀ ops, PvObeys Pv.start ops →
  (Pv.start.run ops).bad = false ∧ ∀ e ∈ (Pv.start.run ops).events, e.frees = 0 → e.conn ≠ none

/-- A frame arrives, and the connection fails before its event is made: the event has a channel and a frame and no
connection. -/
def C120_lost_history : List PvOp :=
  [.init, .make .conn 0, .make .chan 0, .make .frame 0, .broken 0, .happen false 0 (some 1) (some 2), .next]

instance aux_pv_dec : (s : Pv) → (ops : List PvOp) → Decidable (PvObeys s ops)
  | _, [] => isTrue trivial
  | s, op :: ops =>
    have := aux_pv_dec (s.step op) ops
    inferInstanceAs (Decidable (PvAllowed s op ∧ PvObeys (s.step op) ops))

theorem C120_no_connection : PvObeys Pv.start C120_lost_history ∧
    ∃ e, (Pv.start.run C120_lost_history).events = [e] ∧ e.conn = none ∧ e.chan = some 1 ∧ e.frame = some 2 ∧ e.held = 1 ∧ e.frees = 0 := by
  refine ⟨by decide +kernel, ?_⟩
  exact ⟨⟨1, none, some 1, some 2, false, 1, 0⟩, by decide +kernel, rfl, rfl, rfl, rfl, rfl⟩

/-- The library is done with the connection, and the application asks the channel of the event for it: the memory
was released. -/
theorem C120_channel_of_released_connection :
    PvObeys Pv.start (C120_lost_history ++ [.otherDrop 2, .otherDrop 1, .otherDrop 0, .useChanConn 0]) ∧
    (Pv.start.run (C120_lost_history ++ [.otherDrop 2, .otherDrop 1, .otherDrop 0, .useChanConn 0])).bad = true := by
  decide +kernel

theorem C120_statement_false : ¬ C120_statement := by
  intro h
  have h1 := (h _ C120_channel_of_released_connection.1).1
  rw [C120_channel_of_released_connection.2] at h1
  cases h1

/-- A history with events of all kinds that meets the hypotheses. -/
def C120_full_history : List PvOp :=
  [.init, .make .conn 0, .make .chan 0, .make .frame 0, .happen false 0 (some 1) (some 2), .otherDrop 2, .next,
   .useFrame 0, .useConn 0, .useChanConn 0, .evRef 0, .evUnref 0, .broken 0, .happen true 0 none none, .otherDrop 1, .otherDrop 0, .evUnref 0]

example : PvObeys Pv.start C120_full_history ∧
    ((Pv.start.run C120_full_history).objs.map (·.frees) = [0, 1, 1]) ∧
    ((Pv.start.run (C120_full_history ++ [.cleanup])).objs.map (·.frees) = [1, 1, 1]) := by decide +kernel

example : PvAsks Pv.start C120_full_history := by
  simp only [C120_full_history, PvAsks, and_true]
  refine ⟨?_, ?_, ?_, ?_, ?_, ?_, ?_, ?_, ?_, ?_, ?_, ?_, ?_, ?_, ?_, ?_, ?_⟩ <;> intro i e ho he <;> cases ho
  have : e = ⟨1, some 0, some 1, some 2, false, 1, 0⟩ := by
    revert he
    generalize hl : (Pv.events _) = l
    have : l = [⟨1, some 0, some 1, some 2, false, 1, 0⟩] := by rw [← hl]; decide +kernel
    rw [this]
    simp
    exact fun h => h.symm
  rw [this]
  simp

example : (Pv.start.run [.init, .make .conn 0]).isOn = true ∧
    ∃ b, (Pv.start.run [.init, .make .conn 0]).objs[0]? = some b ∧ b.isOk = true := ⟨rfl, _, rfl, rfl⟩

end Verif.Props
