import Verif.Spec.DeliverRefs
/-! C78: what is taken for the delivery of a frame is given back. -/
namespace Verif.Props
open Verif.Model Verif.Spec

/-- C78, full: when the connection is down and no delivery is going on, all references are released and every frame taken over was
released exactly once. False of the code. -/
def C78_statement : Prop :=
  ∀ (serialize : Bool) (acts : List DelivAct) (s : Deliv), s = (Deliv.init serialize).run acts → quietDeliv s → s.connOk = false →
    s.connRefs = 0 ∧ s.chanRefs = 0 ∧ s.profRefs = 0 ∧ s.released.Perm s.accepted

theorem aux_dr_erase (l : List DelivTask) (i : Nat) (t : DelivTask) (h : l[i]? = some t) :
    l.length = (l.eraseIdx i).length + 1 ∧ firstTasks l = firstTasks (l.eraseIdx i) + t.level.prof ∧
    (∀ a, (l.map DelivTask.frm).count a = ((l.eraseIdx i).map DelivTask.frm).count a + if t.frm = a then 1 else 0) := by
  induction l generalizing i with
  | nil => simp at h
  | cons x xs ih =>
    cases i with
    | zero =>
      simp only [List.getElem?_cons_zero, Option.some.injEq] at h; subst h
      refine ⟨rfl, ?_, fun a => ?_⟩
      · simp only [firstTasks, List.countP_cons, List.eraseIdx_zero, List.tail_cons]
        cases x.level <;> simp [DelivLevel.prof]
      · simp [List.count_cons]
    | succ i =>
      simp only [List.getElem?_cons_succ] at h
      obtain ⟨h1, h2, h3⟩ := ih i h
      refine ⟨by simp [h1], ?_, fun a => ?_⟩
      · simp only [firstTasks] at h2 ⊢
        simp only [List.countP_cons, List.eraseIdx_cons_succ, h2]; omega
      · simp only [List.map_cons, List.count_cons, List.eraseIdx_cons_succ, h3 a]; omega

theorem aux_dr_filter (l : List DelivFrm) (n : Nat) (a : DelivFrm) :
    l.count a = (l.filter (fun g => g.seqno != n)).count a + (l.filter (fun g => g.seqno == n)).count a := by
  induction l with
  | nil => rfl
  | cons x xs ih =>
    by_cases h : x.seqno = n <;> simp [List.filter_cons, h, List.count_cons, ih] <;> omega

theorem aux_dr_nofilter (l : List DelivFrm) (n : Nat) (h : ∀ g ∈ l, g.seqno ≠ n) : l.filter (fun g => g.seqno != n) = l ∧
    l.filter (fun g => g.seqno == n) = [] := by
  constructor
  · exact List.filter_eq_self.2 fun g hg => by simpa using h g hg
  · exact List.filter_eq_nil_iff.2 fun g hg => by simpa using h g hg

theorem aux_dr_find (l : List DelivFrm) (n : Nat) (g : DelivFrm) (hn : distinctSeqnos l) (h : l.find? (fun g => g.seqno == n) = some g) :
    l.length = (l.filter (fun g => g.seqno != n)).length + 1 ∧ l.filter (fun g => g.seqno == n) = [g] := by
  induction l with
  | nil => simp at h
  | cons x xs ih =>
    simp only [distinctSeqnos, List.map_cons, List.nodup_cons, List.mem_map, not_exists, not_and] at hn
    by_cases hx : x.seqno = n
    · simp only [List.find?_cons, hx, beq_self_eq_true, Option.some.injEq] at h
      have hno : ∀ g ∈ xs, g.seqno ≠ n := fun g hg e => hn.1 g hg (e.trans hx.symm)
      obtain ⟨e1, e2⟩ := aux_dr_nofilter xs n hno
      subst h; simp [hx, e1, e2]
    · have hb : (x.seqno == n) = false := by simpa using hx
      simp only [List.find?_cons, hb] at h
      obtain ⟨i1, i2⟩ := ih hn.2 h
      simp [List.filter_cons, hx, i1, i2]

theorem aux_dr_distinct_filter (l : List DelivFrm) (p : DelivFrm → Bool) (h : distinctSeqnos l) : distinctSeqnos (l.filter p) :=
  List.Nodup.sublist (List.Sublist.map _ List.filter_sublist) h

/-- Frames and references to the profile. -/
structure aux_dr_inv (s : Deliv) : Prop where
  frames : ∀ a, s.accepted.count a = (s.waiting.map DelivTask.frm).count a + (s.running.map DelivTask.frm).count a + s.stored.count a + s.released.count a
  prof : s.profRefs = firstTasks s.waiting + firstTasks s.running
  keys : distinctSeqnos s.stored
  plain : s.serialize = false → s.stored = []
  conn : (s.serialize = false ∨ distinctSeqnos s.accepted) → s.connRefs = s.waiting.length + s.running.length + s.stored.length
  chan : s.connRefs ≤ s.chanRefs
  conn1 : s.waiting.length + s.running.length + s.stored.length ≤ s.connRefs

/-- The cases of the beginning of a task. -/
theorem aux_dr_enter (s : Deliv) (i : Nat) (t : DelivTask) (h : s.waiting[i]? = some t) :
    (t.level = .first ∧ ¬(s.connOk = true ∧ s.chanOpen = true ∧ s.handler = true) ∧ s.step (.enter i) =
      { ({ s with waiting := s.waiting.eraseIdx i }).finishNoChannel .first with released := t.frm :: s.released }) ∨
    (t.level = .second ∧ s.step (.enter i) =
      { ({ s with waiting := s.waiting.eraseIdx i }).finish .second with released := t.frm :: s.released }) ∨
    (s.serialize = true ∧ t.frm.seqno ≠ s.nextSeq ∧ s.step (.enter i) =
      { s with waiting := s.waiting.eraseIdx i, stored := t.frm :: s.stored.filter (fun g => g.seqno != t.frm.seqno),
               released := s.stored.filter (fun g => g.seqno == t.frm.seqno) ++ s.released, profRefs := s.profRefs - t.level.prof }) ∨
    s.step (.enter i) = { s with waiting := s.waiting.eraseIdx i, running := t :: s.running, called := t.frm :: s.called } := by
  simp only [Deliv.step, h]
  cases hl : t.level <;> cases hc : s.connOk <;> cases ho : s.chanOpen <;> cases hh : s.handler <;>
    simp [Deliv.finish, Deliv.finishNoChannel, hl, hc, ho, hh] <;> grind

/-- The cases of the end of a handler. -/
theorem aux_dr_back (s : Deliv) (i : Nat) (t : DelivTask) (h : s.running[i]? = some t) :
    (∃ n, s.step (.back i) = { s with running := s.running.eraseIdx i, released := t.frm :: s.released, nextSeq := n }.finish t.level) ∨
    (∃ n g, s.serialize = true ∧ s.stored.find? (fun g => g.seqno == n) = some g ∧ s.step (.back i) =
      { s with running := ⟨t.level, g⟩ :: s.running.eraseIdx i, released := t.frm :: s.released, nextSeq := n,
               stored := s.stored.filter (fun g => g.seqno != n), connRefs := s.connRefs - 1, chanRefs := s.chanRefs - 1,
               called := g :: s.called }) := by
  simp only [Deliv.step, h]
  cases hs : s.serialize
  · exact Or.inl ⟨s.nextSeq, by simp [Deliv.finish]⟩
  · simp only [if_true]
    cases hf : s.stored.find? (fun g => g.seqno == (t.frm.seqno + t.frm.size) % 4294967296) with
    | none => exact Or.inl ⟨_, rfl⟩
    | some g => exact Or.inr ⟨_, g, trivial, hf, rfl⟩

theorem aux_dr_step (s : Deliv) (a : DelivAct) (h : aux_dr_inv s) : aux_dr_inv (s.step a) := by
  obtain ⟨hf, hp, hk, hpl, hcn, hch, hc1⟩ := h
  cases a with
  | arrive l f =>
    simp only [Deliv.step]; split
    · constructor
      · intro a; simp only [List.map_append, List.count_append, List.map_cons, List.map_nil, List.count_cons, List.count_nil, hf a]; omega
      · simp only [firstTasks, List.countP_append, hp]
        cases l <;> simp [DelivLevel.prof] <;> omega
      · exact hk
      · exact hpl
      · intro hd
        have hd' : s.serialize = false ∨ distinctSeqnos s.accepted := by
          rcases hd with hd | hd
          · exact Or.inl hd
          · simp only [distinctSeqnos, List.map_cons, List.nodup_cons] at hd; exact Or.inr hd.2
        have := hcn hd'
        simp only [List.length_append, List.length_singleton]; omega
      · simp only; omega
      · simp only [List.length_append, List.length_singleton]; omega
    · exact ⟨hf, hp, hk, hpl, hcn, hch, hc1⟩
  | enter i =>
    cases hw : s.waiting[i]? with
    | none => simp only [Deliv.step, hw]; exact ⟨hf, hp, hk, hpl, hcn, hch, hc1⟩
    | some t =>
      obtain ⟨e1, e2, e3⟩ := aux_dr_erase _ _ _ hw
      rcases aux_dr_enter s i t hw with ⟨hl, _, he⟩ | ⟨hl, he⟩ | ⟨hs, hq, he⟩ | he <;> rw [he]
      · refine ⟨fun a => ?_, ?_, hk, hpl, fun hd => ?_, ?_, ?_⟩ <;> simp only [Deliv.finishNoChannel]
        · rw [hf a, e3 a, List.count_cons]; simp only [beq_iff_eq]; omega
        · rw [hp, e2, hl]; simp only [DelivLevel.prof]; omega
        · have := hcn hd; omega
        · omega
        · omega
      · refine ⟨fun a => ?_, ?_, hk, hpl, fun hd => ?_, ?_, ?_⟩ <;> simp only [Deliv.finish]
        · rw [hf a, e3 a, List.count_cons]; simp only [beq_iff_eq]; omega
        · rw [hp, e2, hl]; simp only [DelivLevel.prof]; omega
        · have := hcn hd; omega
        · omega
        · omega
      · have hlen : (s.stored.filter (fun g => g.seqno != t.frm.seqno)).length ≤ s.stored.length := List.length_filter_le _ _
        refine ⟨fun a => ?_, ?_, ?_, ?_, fun hd => ?_, hch, ?_⟩ <;> dsimp only
        · have := aux_dr_filter s.stored t.frm.seqno a
          rw [hf a, e3 a, List.count_cons, List.count_append]; simp only [beq_iff_eq]; omega
        · rw [hp, e2]; omega
        · have := aux_dr_distinct_filter s.stored (fun g => g.seqno != t.frm.seqno) hk
          simp only [distinctSeqnos, List.map_cons, List.nodup_cons, List.mem_map, List.mem_filter] at this ⊢
          exact ⟨by grind, this⟩
        · intro h0; rw [hs] at h0; simp at h0
        · have hd2 : distinctSeqnos s.accepted := by
            rcases hd with hd | hd
            · rw [hs] at hd; simp at hd
            · exact hd
          have hno : ∀ g ∈ s.stored, g.seqno ≠ t.frm.seqno := by
            intro g hg heq
            have hc := hf g
            have h1 : 0 < s.stored.count g := List.count_pos_iff.2 hg
            have hct := hf t.frm
            have h2 := e3 t.frm
            simp only [if_true] at h2
            have hga : g ∈ s.accepted := List.count_pos_iff.1 (by omega)
            have hta : t.frm ∈ s.accepted := List.count_pos_iff.1 (by omega)
            have hgt : g = t.frm := by
              have : ∀ (l : List DelivFrm), (l.map DelivFrm.seqno).Nodup → ∀ x ∈ l, ∀ y ∈ l, x.seqno = y.seqno → x = y := by
                intro l
                induction l with
                | nil => simp
                | cons z zs ih => grind
              exact this _ hd2 g hga t.frm hta heq
            subst hgt
            have hnd : s.accepted.Nodup := by
              have : ∀ (l : List DelivFrm), (l.map DelivFrm.seqno).Nodup → l.Nodup := by
                intro l
                induction l with
                | nil => simp
                | cons z zs ih => grind
              exact this _ hd2
            have : s.accepted.count t.frm ≤ 1 := List.nodup_iff_count.1 hnd _
            omega
          obtain ⟨f1, _⟩ := aux_dr_nofilter _ _ hno
          have := hcn hd
          rw [f1]; simp only [List.length_cons]; omega
        · simp only [List.length_cons]; omega
      · refine ⟨fun a => ?_, ?_, hk, hpl, fun hd => ?_, hch, ?_⟩ <;> dsimp only
        · rw [hf a, e3 a, List.map_cons, List.count_cons]; simp only [beq_iff_eq]; omega
        · rw [hp, e2]; simp only [firstTasks, List.countP_cons]
          cases t.level <;> simp [DelivLevel.prof] <;> omega
        · have := hcn hd; simp only [List.length_cons]; omega
        · simp only [List.length_cons]; omega
  | back i =>
    cases hw : s.running[i]? with
    | none => simp only [Deliv.step, hw]; exact ⟨hf, hp, hk, hpl, hcn, hch, hc1⟩
    | some t =>
      obtain ⟨e1, e2, e3⟩ := aux_dr_erase _ _ _ hw
      rcases aux_dr_back s i t hw with ⟨n, he⟩ | ⟨n, g, hs, hfi, he⟩ <;> rw [he]
      · refine ⟨fun a => ?_, ?_, hk, hpl, fun hd => ?_, ?_, ?_⟩ <;> simp only [Deliv.finish]
        · rw [hf a, e3 a, List.count_cons]; simp only [beq_iff_eq]; omega
        · rw [hp, e2]; omega
        · have := hcn hd; omega
        · omega
        · omega
      · obtain ⟨g1, g2⟩ := aux_dr_find _ _ _ hk hfi
        refine ⟨fun a => ?_, ?_, aux_dr_distinct_filter _ _ hk, fun h0 => ?_, fun hd => ?_, ?_, ?_⟩ <;> dsimp only
        · have := aux_dr_filter s.stored n a
          rw [g2] at this
          rw [hf a, e3 a, List.map_cons, List.count_cons, List.count_cons]
          simp only [beq_iff_eq, List.count_cons, List.count_nil] at this ⊢; omega
        · rw [hp, e2]; simp only [firstTasks, List.countP_cons]
          cases t.level <;> simp [DelivLevel.prof]
        · dsimp only at h0; rw [hs] at h0; simp at h0
        · have := hcn hd; simp only [List.length_cons]; omega
        · omega
        · simp only [List.length_cons]; omega
  | handler b => exact ⟨hf, hp, hk, hpl, hcn, hch, hc1⟩
  | connDown => exact ⟨hf, hp, hk, hpl, hcn, hch, hc1⟩
  | chanClosed => exact ⟨hf, hp, hk, hpl, hcn, hch, hc1⟩

theorem aux_dr_run (acts : List DelivAct) (s : Deliv) (h : aux_dr_inv s) : aux_dr_inv (s.run acts) := by
  induction acts generalizing s with
  | nil => exact h
  | cons a acts ih => exact ih (s.step a) (aux_dr_step s a h)

theorem aux_dr_init (b : Bool) : aux_dr_inv (Deliv.init b) := by
  constructor <;> simp [Deliv.init, firstTasks, distinctSeqnos]

theorem aux_dr_serialize (acts : List DelivAct) (s : Deliv) : (s.run acts).serialize = s.serialize := by
  induction acts generalizing s with
  | nil => rfl
  | cons a acts ih =>
    refine (ih (s.step a)).trans ?_
    cases a with
    | arrive l f => simp only [Deliv.step]; split <;> rfl
    | enter i =>
      cases hw : s.waiting[i]? with
      | none => simp only [Deliv.step, hw]
      | some t => rcases aux_dr_enter s i t hw with ⟨_, _, he⟩ | ⟨_, he⟩ | ⟨_, _, he⟩ | he <;> rw [he] <;> rfl
    | back i =>
      cases hw : s.running[i]? with
      | none => simp only [Deliv.step, hw]
      | some t => rcases aux_dr_back s i t hw with ⟨n, he⟩ | ⟨n, g, _, _, he⟩ <;> rw [he] <;> rfl
    | handler b => rfl
    | connDown => rfl
    | chanClosed => rfl

/-- Every frame taken over is at any time in exactly one place: queued, in a handler, kept for later, or released, once. -/
theorem C78_frames (serialize : Bool) (acts : List DelivAct) (s : Deliv) (hs : s = (Deliv.init serialize).run acts) :
    s.accepted.Perm (s.waiting.map DelivTask.frm ++ (s.running.map DelivTask.frm ++ (s.stored ++ s.released))) := by
  subst hs
  rw [List.perm_iff_count]
  intro a
  have := (aux_dr_run acts _ (aux_dr_init serialize)).frames a
  simp only [List.count_append]; omega

/-- The references to the profile are those of the first level deliveries that go on; when there are none, all are released. -/
theorem C78_profile (serialize : Bool) (acts : List DelivAct) (s : Deliv) (hs : s = (Deliv.init serialize).run acts) :
    s.profRefs = firstTasks s.waiting + firstTasks s.running := by
  subst hs
  exact (aux_dr_run acts _ (aux_dr_init serialize)).prof

/-- Without ordered delivery, or if no two frames have the same sequence number, there is one reference to the connection for every
delivery that goes on and every frame kept for later; without ordered delivery no frame is kept. Missing: equal numbers, and the release of
frames that are kept. -/
theorem C78_connection_partial (serialize : Bool) (acts : List DelivAct) (s : Deliv) (hs : s = (Deliv.init serialize).run acts)
    (hd : serialize = false ∨ distinctSeqnos s.accepted) :
    s.connRefs = activeDeliv s + s.stored.length ∧ (serialize = false → s.stored = []) := by
  subst hs
  have h := aux_dr_run acts _ (aux_dr_init serialize)
  have hse : ((Deliv.init serialize).run acts).serialize = serialize := aux_dr_serialize acts _
  refine ⟨h.conn (by rw [hse]; exact hd), fun h0 => h.plain (by rw [hse]; exact h0)⟩

/-- If first level deliveries begin while the connection and the channel are there, the channel has as many references as the connection.
Missing: deliveries that begin later. -/
theorem C78_channel_partial (serialize : Bool) (acts : List DelivAct) (hc : calmDeliv (Deliv.init serialize) acts) (s : Deliv)
    (hs : s = (Deliv.init serialize).run acts) : s.chanRefs = s.connRefs := by
  subst hs
  have key : ∀ (acts : List DelivAct) (s : Deliv), calmDeliv s acts → s.chanRefs = s.connRefs → (s.run acts).chanRefs = (s.run acts).connRefs := by
    intro acts
    induction acts with
    | nil => intro s _ h; exact h
    | cons a acts ih =>
      intro s hc h
      refine ih (s.step a) hc.2 ?_
      cases a with
      | arrive l f => simp only [Deliv.step]; split <;> simp [h]
      | enter i =>
        cases hw : s.waiting[i]? with
        | none => simp only [Deliv.step, hw]; exact h
        | some t =>
          rcases aux_dr_enter s i t hw with ⟨hl, hn, _⟩ | ⟨_, he⟩ | ⟨_, _, he⟩ | he
          · exact absurd (hc.1 i t rfl hw hl) hn
          all_goals (rw [he]; simp [Deliv.finish, h])
      | back i =>
        cases hw : s.running[i]? with
        | none => simp only [Deliv.step, hw]; exact h
        | some t => rcases aux_dr_back s i t hw with ⟨n, he⟩ | ⟨n, g, _, _, he⟩ <;> rw [he] <;> simp [Deliv.finish, h]
      | handler b => exact h
      | connDown => exact h
      | chanClosed => exact h
  exact key acts _ hc rfl

/-- All together: without ordered delivery, if first level deliveries begin while connection and channel are there, at the end nothing is
left. -/
theorem C78_released_partial (acts : List DelivAct) (hc : calmDeliv (Deliv.init false) acts) (s : Deliv)
    (hs : s = (Deliv.init false).run acts) (hq : quietDeliv s) :
    s.connRefs = 0 ∧ s.chanRefs = 0 ∧ s.profRefs = 0 ∧ s.released.Perm s.accepted := by
  obtain ⟨h1, h2⟩ := C78_connection_partial false acts s hs (Or.inl rfl)
  have h3 := C78_channel_partial false acts hc s hs
  have h4 := C78_profile false acts s hs
  have h5 := C78_frames false acts s hs
  have h2 := h2 rfl
  obtain ⟨q1, q2⟩ := hq
  simp only [activeDeliv, q1, q2, h2, List.length_nil] at h1
  simp only [q1, q2, firstTasks, List.countP_nil] at h4
  simp only [q1, q2, h2, List.map_nil, List.nil_append] at h5
  exact ⟨h1, by omega, h4, h5.symm⟩

/-- A first level and a second level delivery, the connection fails while the first handler runs. -/
example :
    let acts : List DelivAct := [.arrive .first ⟨0, 5, 0⟩, .arrive .second ⟨5, 5, 1⟩, .enter 0, .connDown, .enter 0, .back 0]
    calmDeliv (Deliv.init false) acts ∧ quietDeliv ((Deliv.init false).run acts) ∧
      ((Deliv.init false).run acts).called = [⟨0, 5, 0⟩] ∧ ((Deliv.init false).run acts).released = [⟨0, 5, 0⟩, ⟨5, 5, 1⟩] := by
  refine ⟨?_, ⟨rfl, rfl⟩, rfl, rfl⟩
  simp [calmDeliv, Deliv.step, Deliv.init, Deliv.finish]
  intro i t e; subst e; simp; intro e; subst e; simp

/-- Ordered delivery of frames that begin in the wrong order. -/
example :
    let acts : List DelivAct := [.arrive .second ⟨0, 5, 0⟩, .arrive .second ⟨5, 5, 1⟩, .enter 1, .enter 0, .back 0, .back 0]
    distinctSeqnos ((Deliv.init true).run acts).accepted ∧ quietDeliv ((Deliv.init true).run acts) ∧
      ((Deliv.init true).run acts).called = [⟨5, 5, 1⟩, ⟨0, 5, 0⟩] ∧ ((Deliv.init true).run acts).connRefs = 0 := by
  refine ⟨?_, ⟨rfl, rfl⟩, rfl, rfl⟩
  show [5, 0].Nodup
  decide

/-- The connection fails before a first level delivery begins: the reference to the channel is never released. -/
theorem C78_channel_kept :
    let s := (Deliv.init false).run [.arrive .first ⟨0, 5, 0⟩, .connDown, .enter 0]
    quietDeliv s ∧ s.connOk = false ∧ s.chanRefs = 1 := ⟨⟨rfl, rfl⟩, rfl, rfl⟩

/-- With ordered delivery a frame waits for an earlier one that finds the connection down: it keeps channel and connection for ever. -/
theorem C78_frame_kept :
    let s := (Deliv.init true).run [.arrive .second ⟨0, 5, 0⟩, .arrive .second ⟨5, 5, 1⟩, .enter 1, .connDown, .enter 0]
    quietDeliv s ∧ s.connOk = false ∧ s.chanRefs = 1 ∧ s.connRefs = 1 ∧ s.released = [⟨0, 5, 0⟩] := ⟨⟨rfl, rfl⟩, rfl, rfl, rfl, rfl⟩

/-- With ordered delivery, an empty frame and the one behind it have the same number: the second to wait throws the first away, with its
references. -/
theorem C78_same_number :
    let s := (Deliv.init true).run [.arrive .second ⟨0, 5, 0⟩, .arrive .second ⟨5, 0, 1⟩, .arrive .second ⟨5, 5, 2⟩, .enter 1, .enter 1,
      .enter 0, .back 0, .back 0]
    quietDeliv s ∧ s.called = [⟨5, 5, 2⟩, ⟨0, 5, 0⟩] ∧ s.connRefs = 1 ∧ s.chanRefs = 1 := ⟨⟨rfl, rfl⟩, rfl, rfl, rfl⟩

theorem C78_statement_false : ¬ C78_statement := by
  intro h
  have := (h false [.arrive .first ⟨0, 5, 0⟩, .connDown, .enter 0] _ rfl ⟨rfl, rfl⟩ rfl).2.1
  exact absurd this (by decide)

/-- Without ordered delivery, frames of a channel that was closed are neither taken over nor given to the handler of its profile. -/
theorem C78_closed (acts rest : List DelivAct) (h1 : ∀ f, .arrive .second f ∉ acts) (h2 : ∀ f, .arrive .second f ∉ rest) :
    ((Deliv.init false).run (acts ++ .chanClosed :: rest)).called = ((Deliv.init false).run acts).called ∧
    ((Deliv.init false).run (acts ++ .chanClosed :: rest)).accepted = ((Deliv.init false).run acts).accepted := by
  have hlev : ∀ (acts : List DelivAct) (s : Deliv), (∀ f, .arrive .second f ∉ acts) → (s.serialize = false ∧ ∀ t, t ∈ s.waiting → t.level = .first) →
      ((s.run acts).serialize = false ∧ ∀ t, t ∈ (s.run acts).waiting → t.level = .first) ∧
      (s.chanOpen = false → (s.run acts).called = s.called ∧ (s.run acts).accepted = s.accepted) := by
    intro acts
    induction acts with
    | nil => intro s _ h; exact ⟨h, fun _ => ⟨rfl, rfl⟩⟩
    | cons a as ih =>
      intro s hn h
      have hn' : ∀ f, a ≠ .arrive .second f := fun f e => hn f (by simp [e])
      have hstep : ((s.step a).serialize = false ∧ ∀ t, t ∈ (s.step a).waiting → t.level = .first) ∧
          (s.chanOpen = false → (s.step a).chanOpen = false ∧ (s.step a).called = s.called ∧ (s.step a).accepted = s.accepted) := by
        obtain ⟨hs, hw⟩ := h
        cases a with
        | arrive l f =>
          cases l with
          | second => exact absurd rfl (hn' f)
          | first =>
            simp only [Deliv.step]
            split
            · next hc =>
              refine ⟨⟨hs, fun t ht => ?_⟩, fun hcl => ?_⟩
              · simp only [List.mem_append, List.mem_singleton] at ht
                rcases ht with ht | rfl
                · exact hw t ht
                · rfl
              · rw [hcl] at hc
                simp at hc
            · exact ⟨⟨hs, hw⟩, fun hcl => ⟨hcl, rfl, rfl⟩⟩
        | enter i =>
          simp only [Deliv.step]
          cases hi : s.waiting[i]? with
          | none => exact ⟨⟨hs, hw⟩, fun hcl => ⟨hcl, rfl, rfl⟩⟩
          | some t =>
            have ht := hw t (List.mem_of_getElem? hi)
            have hw' : ∀ t, t ∈ s.waiting.eraseIdx i → t.level = .first := fun t ht => hw t (List.mem_of_mem_eraseIdx ht)
            simp only [ht, hs]
            cases s.connOk <;> cases hco : s.chanOpen <;> cases s.handler <;>
              simp [Deliv.finishNoChannel, hs, hco] <;> exact hw'
        | back i =>
          simp only [Deliv.step]
          cases hi : s.running[i]? with
          | none => exact ⟨⟨hs, hw⟩, fun hcl => ⟨hcl, rfl, rfl⟩⟩
          | some t =>
            simp only [hs, Bool.false_eq_true, if_false]
            exact ⟨⟨rfl, hw⟩, fun hcl => ⟨hcl, rfl, rfl⟩⟩
        | handler b => exact ⟨⟨hs, hw⟩, fun hcl => ⟨hcl, rfl, rfl⟩⟩
        | connDown => exact ⟨⟨hs, hw⟩, fun hcl => ⟨hcl, rfl, rfl⟩⟩
        | chanClosed => exact ⟨⟨hs, hw⟩, fun hcl => ⟨rfl, rfl, rfl⟩⟩
      obtain ⟨i1, i2⟩ := ih (s.step a) (fun f hf => hn f (List.mem_cons_of_mem _ hf)) hstep.1
      refine ⟨i1, fun hcl => ?_⟩
      obtain ⟨e1, e2, e3⟩ := hstep.2 hcl
      obtain ⟨e4, e5⟩ := i2 e1
      exact ⟨e4.trans e2, e5.trans e3⟩
  have hA := (hlev acts (Deliv.init false) h1 ⟨rfl, by simp [Deliv.init]⟩).1
  have e : (Deliv.init false).run (acts ++ .chanClosed :: rest) = (((Deliv.init false).run acts).step .chanClosed).run rest := by
    simp [Deliv.run, List.foldl_append]
  rw [e]
  exact (hlev rest (((Deliv.init false).run acts).step .chanClosed) h2 hA).2 rfl

/-- A frame is queued, the channel is closed, another frame comes. -/
example : ((Deliv.init false).run ([.arrive .first ⟨0, 5, 0⟩, .enter 0, .arrive .first ⟨5, 5, 1⟩] ++
    .chanClosed :: [.enter 0, .back 0, .arrive .first ⟨10, 5, 2⟩])).called = [⟨0, 5, 0⟩] := rfl

end Verif.Props
