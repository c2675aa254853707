import Verif.Proof.Reader
namespace Verif.Proof
open Verif.Model Verif.Spec

/-! ## Positions of the frames let in -/

theorem octetsIn_append (a b : List Frame) : octetsIn (a ++ b) = octetsIn a + octetsIn b := by
  simp [octetsIn]

structure SeqInv (log : List ChanEvent) (c : Chan) : Prop where
  expected : c.shut = false → c.win.expected = octetsIn (letIn log) % 4294967296
  at_ : ∀ pre f o post, log = pre ++ .frame f o :: post → Outcome.letIn o = true →
    f.seqno = octetsIn (letIn pre) % 4294967296
  out : ∀ pre f o post, log = pre ++ .frame f o :: post → Outcome.letIn o = false →
    c.shut = true ∧ ∀ g o', ChanEvent.frame g o' ∈ post → o' = .ignored

theorem letIn_frame_in (log : List ChanEvent) (f o) (h : Outcome.letIn o = true) :
    letIn (log ++ [.frame f o]) = letIn log ++ [f] := by
  rw [letIn_append]; simp [letIn, h]
theorem letIn_frame_out (log : List ChanEvent) (f o) (h : Outcome.letIn o = false) :
    letIn (log ++ [.frame f o]) = letIn log := by
  rw [letIn_append]; simp [letIn, h]
theorem letIn_send (log : List ChanEvent) (m r) : letIn (log ++ [.send m r]) = letIn log := by
  rw [letIn_append]; simp [letIn]

theorem seq_refused {log c f o c'} (h : SeqInv log c) (ho : Outcome.letIn o = false)
    (hi : c.shut = true → o = .ignored) (hs : c'.shut = true) : SeqInv (log ++ [.frame f o]) c' := by
  refine ⟨fun h' => by rw [hs] at h'; exact Bool.noConfusion h', ?_, ?_⟩
  · intro pre g o' post he hg
    rcases snoc_split he with ⟨_, _, hx⟩ | ⟨post', _, hl⟩
    · injection hx with _ hx2
      rw [hx2, ho] at hg; exact Bool.noConfusion hg
    · exact h.at_ pre g o' post' hl hg
  · intro pre g o' post he hg
    refine ⟨hs, ?_⟩
    rcases snoc_split he with ⟨hp, _, _⟩ | ⟨post', hp, hl⟩
    · subst hp; intro _ _ hm; cases hm
    · obtain ⟨h1, h2⟩ := h.out pre g o' post' hl hg
      subst hp
      intro g2 o2 hm
      rcases List.mem_append.mp hm with hm | hm
      · exact h2 g2 o2 hm
      · simp only [List.mem_singleton, ChanEvent.frame.injEq] at hm
        rw [hm.2]; exact hi h1

theorem seq_frame {log c f} (hf : Parsed f) (h : SeqInv log c) :
    SeqInv (log ++ [.frame f (c.process f).1]) (c.process f).2 := by
  rcases process_cases c f with ⟨hs, hp⟩ | ⟨hs0, c', hp, hs, _⟩ | ⟨c1, hr, hp⟩
  · rw [hp]; exact seq_refused h rfl (fun _ => rfl) hs
  · rw [hp]; exact seq_refused h rfl (fun h1 => by rw [hs0] at h1; exact Bool.noConfusion h1) hs.shut
  rw [hp]
  rcases assemble_letIn (c1.updateStatus f) f with hin | ⟨hm, hcl⟩
  · obtain ⟨_, k2, _⟩ := assemble_keeps (c1.updateStatus f) f
    have hw : (c1.updateStatus f).win = c1.win.advance f.size := by
      cases he : endsReply f with
      | true => rw [updateStatus_ends he]
      | false => rw [updateStatus_other he]
    refine ⟨fun _ => ?_, ?_, ?_⟩
    · rw [k2, hw, letIn_frame_in _ _ _ hin, octetsIn_append]
      simp only [RecvWin.advance, hr.expected, h.expected hr.open0, hf.size]
      simp [octetsIn, u32]
      omega
    · intro pre g o' post he hg
      rcases snoc_split he with ⟨_, hpre, hx⟩ | ⟨post', _, hl⟩
      · injection hx with hx1 hx2
        rw [hpre, hx1, ← hr.seqno]; exact h.expected hr.open0
      · exact h.at_ pre g o' post' hl hg
    · intro pre g o' post he hg
      rcases snoc_split he with ⟨_, hpre, hx⟩ | ⟨post', _, hl⟩
      · injection hx with _ hx2
        rw [hx2, hin] at hg; exact Bool.noConfusion hg
      · obtain ⟨h1, _⟩ := h.out pre g o' post' hl hg
        rw [hr.open0] at h1; exact Bool.noConfusion h1
  · rw [hcl]
    exact seq_refused h rfl (fun h1 => by rw [hr.open0] at h1; exact Bool.noConfusion h1) rfl

theorem seq_step (log : List ChanEvent) (c : Chan) (op : ChanOp) (hop : ∀ f, op = .frame f → Parsed f)
    (h : SeqInv log c) : SeqInv (log ++ (c.step op).1) (c.step op).2 := by
  have hsend : ∀ m r c', c'.shut = c.shut → c'.win = c.win → SeqInv (log ++ [.send m r]) c' := by
    intro m r c' h1 h2
    refine ⟨fun h' => by rw [h2, letIn_send]; exact h.expected (by rw [← h1]; exact h'), ?_, ?_⟩
    · intro pre g o' post he hg
      rcases snoc_split he with ⟨_, _, hx⟩ | ⟨post', _, hl⟩
      · exact absurd hx (by simp)
      · exact h.at_ pre g o' post' hl hg
    · intro pre g o' post he hg
      rcases snoc_split he with ⟨_, _, hx⟩ | ⟨post', hp, hl⟩
      · exact absurd hx (by simp)
      · obtain ⟨h3, h4⟩ := h.out pre g o' post' hl hg
        refine ⟨by rw [h1]; exact h3, ?_⟩
        subst hp
        intro g2 o2 hm
        rcases List.mem_append.mp hm with hm | hm
        · exact h4 g2 o2 hm
        · simp at hm
  cases op with
  | send more =>
    simp only [Chan.step]
    split
    · exact hsend _ _ _ rfl rfl
    · exact hsend _ _ _ rfl rfl
  | frame f => exact seq_frame (hop f rfl) h
  | answered m => simp only [Chan.step, List.append_nil]; exact ⟨h.expected, h.at_, h.out⟩
  | setWindow n =>
    simp only [Chan.step, List.append_nil]
    refine ⟨fun h' => ?_, h.at_, h.out⟩
    have := h.expected h'
    simp only [RecvWin.setWindow]
    split <;> exact this

theorem seq_run (cf : Bool) (cl kl lim : Int) (fail : Bool) (ops : List ChanOp) (hp : AllParsed ops) :
    SeqInv ((Chan.init cf cl kl lim fail).run ops).1 ((Chan.init cf cl kl lim fail).run ops).2 := by
  have := run_inv (I := SeqInv) (fun op => ∀ f, op = .frame f → Parsed f)
    (fun log c op hop h => seq_step log c op hop h) ops [] (.init cf cl kl lim fail)
    (fun op ho f he => hp f (he ▸ ho))
    ⟨fun _ => rfl, fun pre f o post h => by simp at h, fun pre f o post h => by simp at h⟩
  rw [List.nil_append] at this
  exact this

/-! ## Messages -/

theorem unfinished_append (a b : List Frame) : ∀ cur, unfinished cur (a ++ b) = unfinished (unfinished cur a) b := by
  induction a with
  | nil => intro cur; rfl
  | cons f a ih => intro cur; simp only [List.cons_append, unfinished]; split <;> exact ih _

theorem cut_append (a b : List Frame) : ∀ cur, cut cur (a ++ b) = cut cur a ++ cut (unfinished cur a) b := by
  induction a with
  | nil => intro cur; rfl
  | cons f a ih =>
    intro cur
    simp only [List.cons_append, cut, unfinished]
    split
    · exact ih _
    · simp [ih]

theorem unfinished_snoc (l : List Frame) (f : Frame) :
    unfinished [] (l ++ [f]) = if f.more then unfinished [] l ++ [f] else [] := by
  rw [unfinished_append]; simp [unfinished]

theorem cut_snoc (l : List Frame) (f : Frame) :
    cut [] (l ++ [f]) = cut [] l ++ if f.more then [] else [unfinished [] l ++ [f]] := by
  rw [cut_append]; cases h : f.more <;> simp [cut, h]

/-- Two successive fragments. -/
def Follow (a b : Frame) : Prop :=
  a.type = b.type ∧ a.channel = b.channel ∧ a.msgno = b.msgno ∧ a.ansno = b.ansno

theorem vjoinable {a b : VFrame} (h : a.joinable b = true) :
    a.type = b.type ∧ a.channel = b.channel ∧ a.msgno = b.msgno ∧ a.ansno = b.ansno := by
  simp only [VFrame.joinable] at h
  by_cases h1 : a.type ≠ b.type
  · rw [if_pos h1] at h; exact Bool.noConfusion h
  rw [if_neg h1] at h
  by_cases h2 : (!a.more && !b.more) = true
  · rw [if_pos h2] at h; exact Bool.noConfusion h
  rw [if_neg h2] at h
  by_cases h3 : (!a.more && b.more) = true
  · rw [if_pos h3] at h; exact Bool.noConfusion h
  rw [if_neg h3] at h
  by_cases h4 : a.channel ≠ b.channel
  · rw [if_pos h4] at h; exact Bool.noConfusion h
  rw [if_neg h4] at h
  by_cases h5 : a.msgno ≠ b.msgno
  · rw [if_pos h5] at h; exact Bool.noConfusion h
  rw [if_neg h5] at h
  by_cases h6 : a.ansno ≠ b.ansno
  · rw [if_pos h6] at h; exact Bool.noConfusion h
  exact ⟨Decidable.not_not.mp h1, Decidable.not_not.mp h4, Decidable.not_not.mp h5, Decidable.not_not.mp h6⟩

theorem joinable_follow {a b : Frame} (h : a.toV.joinable b.toV = true) : Follow a b := vjoinable h

/-- Stored fragments. -/
structure Frags (fs : List Frame) : Prop where
  same : ∀ a ∈ fs, ∀ b ∈ fs, Follow a b
  more : ∀ a ∈ fs, a.more = true ∧ a.type ≠ .nul

theorem frags_nil : Frags [] := ⟨fun _ h => (List.not_mem_nil h).elim, fun _ h => (List.not_mem_nil h).elim⟩

theorem frags_snoc {fs : List Frame} {f : Frame} (h : Frags fs) (hm : f.more = true) (ht : f.type ≠ .nul)
    (hl : ∀ p, fs.getLast? = some p → Follow p f) : Frags (fs ++ [f]) := by
  have hall : ∀ a ∈ fs, Follow a f := by
    intro a ha
    cases hg : fs.getLast? with
    | none => rw [List.getLast?_eq_none_iff] at hg; subst hg; cases ha
    | some p =>
      have hp := List.mem_of_getLast? hg
      obtain ⟨a1, a2, a3, a4⟩ := h.same a ha p hp
      obtain ⟨b1, b2, b3, b4⟩ := hl p hg
      exact ⟨a1.trans b1, a2.trans b2, a3.trans b3, a4.trans b4⟩
  refine ⟨?_, ?_⟩
  · intro a ha b hb
    rcases List.mem_append.mp ha with ha' | ha' <;> rcases List.mem_append.mp hb with hb' | hb'
    · exact h.same a ha' b hb'
    · rw [List.mem_singleton.mp hb']; exact hall a ha'
    · rw [List.mem_singleton.mp ha']
      obtain ⟨b1, b2, b3, b4⟩ := hall b hb'
      exact ⟨b1.symm, b2.symm, b3.symm, b4.symm⟩
    · rw [List.mem_singleton.mp ha', List.mem_singleton.mp hb']; exact ⟨rfl, rfl, rfl, rfl⟩
  · intro a ha
    rcases List.mem_append.mp ha with ha | ha
    · exact h.more a ha
    · simp at ha; subst ha; exact ⟨hm, ht⟩

theorem joinOctets_other {f : Frame} (h : f.type ≠ .nul) : joinOctets f = f.payload := by
  simp [joinOctets, h]

theorem flatMap_joinOctets {fs : List Frame} (h : ∀ f ∈ fs, f.type ≠ .nul) :
    fs.flatMap joinOctets = fs.flatMap (·.payload) := by
  induction fs with
  | nil => rfl
  | cons f fs ih =>
    simp only [List.flatMap_cons]
    rw [joinOctets_other (h f List.mem_cons_self), ih (fun g hg => h g (List.mem_cons_of_mem _ hg))]

theorem each_snoc {α β : Type} {R : α → β → Prop} {as : List α} {bs : List β} {a b}
    (h : Each R as bs) (hr : R a b) : Each R (as ++ [a]) (bs ++ [b]) := by
  induction h with
  | nil => exact .cons hr .nil
  | cons h1 _ ih => exact .cons h1 ih

theorem each_append {α β : Type} {R : α → β → Prop} {as as' : List α} {bs bs' : List β}
    (h : Each R as bs) (h' : Each R as' bs') : Each R (as ++ as') (bs ++ bs') := by
  induction h with
  | nil => exact h'
  | cons h1 _ ih => exact .cons h1 ih

/-- The message and what is delivered of it. -/
structure Built (fs : List Frame) (d : Delivery) : Prop where
  message : IsMessage fs d
  body : d.body = mimeBody (if fs.length = 1 then wireTail else builtTail) d.content

/-- What has to hold of a peer for its messages to be put together correctly. -/
def Apart (log : List ChanEvent) : Prop :=
  ∀ r ∈ cut [] (letIn log), OneMessage r ∧ (r.flatMap (·.payload)).length < 2147483647

structure MsgInv (L : Int) (log : List ChanEvent) (c : Chan) : Prop where
  flag : c.completeFlag = true
  limit : c.frameLimit = L
  previous : c.shut = false → c.previous = unfinished [] (letIn log)
  frags : c.shut = false → Frags c.previous
  runs : ∀ r ∈ cut [] (letIn log), Frags r.dropLast
  built : Apart log → Each Built (cut [] (letIn log)) (delivered log)

theorem frameLimit_congr {c c' : Chan} (h1 : c'.channelLimit = c.channelLimit) (h2 : c'.connLimit = c.connLimit) :
    c'.frameLimit = c.frameLimit := by
  simp only [Chan.frameLimit, h1, h2]

theorem msg_refused {L log c f o c'} (h : MsgInv L log c) (ho : Outcome.letIn o = false) (hs : c'.shut = true)
    (hf : c'.completeFlag = c.completeFlag) (h1 : c'.channelLimit = c.channelLimit)
    (h2 : c'.connLimit = c.connLimit) : MsgInv L (log ++ [.frame f o]) c' := by
  have hl := letIn_frame_out log f o ho
  have hd : delivered (log ++ [.frame f o]) = delivered log := by
    rw [delivered_append]; cases o <;> simp [delivered] at * ; simp [Outcome.letIn] at ho
  refine ⟨by rw [hf]; exact h.flag, by rw [frameLimit_congr h1 h2]; exact h.limit,
    fun h' => by rw [hs] at h'; exact Bool.noConfusion h', fun h' => by rw [hs] at h'; exact Bool.noConfusion h',
    by rw [hl]; exact h.runs, ?_⟩
  rw [hl, hd]
  intro ha
  exact h.built (fun r hr => ha r (by rw [hl]; exact hr))

theorem updateStatus_keeps (c : Chan) (f : Frame) : (c.updateStatus f).previous = c.previous ∧
    (c.updateStatus f).currentBytes = c.currentBytes ∧ (c.updateStatus f).completeFlag = c.completeFlag ∧
    (c.updateStatus f).channelLimit = c.channelLimit ∧ (c.updateStatus f).connLimit = c.connLimit := by
  cases he : endsReply f with
  | true => rw [updateStatus_ends he]; exact ⟨rfl, rfl, rfl, rfl, rfl⟩
  | false => rw [updateStatus_other he]; exact ⟨rfl, rfl, rfl, rfl, rfl⟩

theorem apart_of_append {log : List ChanEvent} {es} (h : Apart (log ++ es)) : Apart log := by
  intro r hr
  refine h r ?_
  rw [letIn_append, cut_append]
  exact List.mem_append_left _ hr

theorem msg_frame {L log c f} (h : MsgInv L log c) :
    MsgInv L (log ++ [.frame f (c.process f).1]) (c.process f).2 := by
  rcases process_cases c f with ⟨hs, hp⟩ | ⟨hs0, c', hp, hs, _⟩ | ⟨c1, hr, hp⟩
  · rw [hp]; exact msg_refused h rfl hs rfl rfl rfl
  · rw [hp]; exact msg_refused h rfl hs.shut hs.flag hs.cl hs.kl
  rw [hp]
  obtain ⟨u1, u2, u3, u4, u5⟩ := updateStatus_keeps c1 f
  generalize hc2 : c1.updateStatus f = c2 at *
  rw [hr.previous] at u1
  rw [hr.flag] at u3
  rw [hr.cl] at u4
  rw [hr.kl] at u5
  have hprev : c2.previous = unfinished [] (letIn log) := by rw [u1]; exact h.previous hr.open0
  have hfr : Frags c2.previous := by rw [u1]; exact h.frags hr.open0
  have hnul : f.more = true → f.type ≠ .nul := by
    intro hm ht
    have := hr.nul ht
    simp [nulWrong, hm] at this
  have hlim : c2.frameLimit = L := by rw [frameLimit_congr u4 u5]; exact h.limit
  have hfl : c2.completeFlag = true := by rw [u3]; exact h.flag
  by_cases hm : f.more = true
  · -- a fragment
    have kept : (∀ p, c2.previous.getLast? = some p → Follow p f) →
        MsgInv L (log ++ [.frame f .kept]) (c2.store f) := by
      intro hfo
      have hl := letIn_frame_in log f .kept rfl
      have hd : delivered (log ++ [.frame f .kept]) = delivered log := by rw [delivered_append]; simp [delivered]
      have hc : cut [] (letIn (log ++ [.frame f .kept])) = cut [] (letIn log) := by rw [hl, cut_snoc]; simp [hm]
      refine ⟨hfl, hlim, fun _ => ?_, fun _ => ?_, by rw [hc]; exact h.runs, ?_⟩
      · show c2.previous ++ [f] = _
        rw [hl, unfinished_snoc, hprev, if_pos hm]
      · exact frags_snoc hfr hm (hnul hm) hfo
      · rw [hc, hd]; exact fun ha => h.built (apart_of_append ha)
    cases hg : c2.previous.getLast? with
    | none =>
      have e : c2.assemble f = (.kept, c2.store f) := by
        simp only [Chan.assemble, hm, if_true, hg, hfl]
      rw [e]
      exact kept (fun p hp => by rw [hg] at hp; exact absurd hp (by simp))
    | some p =>
      cases hj : p.toV.joinable f.toV with
      | true =>
        have e : c2.assemble f = (.kept, c2.store f) := by
          simp only [Chan.assemble, hm, if_true, hg, hj]
        rw [e]
        exact kept (fun q hq => by rw [hg] at hq; injection hq with hq; subst hq; exact joinable_follow hj)
      | false =>
        have e : c2.assemble f = (.closed, { c2 with shut := true }) := by
          simp [Chan.assemble, hm, hg, hj]
        rw [e]
        exact msg_refused h rfl rfl u3 u4 u5
  · have hm' : f.more = false := by simpa using hm
    by_cases hne : c2.previous = []
    · -- a whole message
      have e : c2.assemble f = (c2.deliverOne f, c2) := by
        simp [Chan.assemble, hm', hne]
      rw [e]
      have ho : Outcome.letIn (c2.deliverOne f) = true := rfl
      have hl := letIn_frame_in log f _ ho
      have hun : unfinished [] (letIn log) = [] := by rw [← hprev]; exact hne
      have hc : cut [] (letIn (log ++ [.frame f (c2.deliverOne f)])) = cut [] (letIn log) ++ [[f]] := by
        rw [hl, cut_snoc, hun]; simp [hm']
      refine ⟨hfl, hlim, fun _ => ?_, fun _ => hfr, ?_, ?_⟩
      · rw [hl, unfinished_snoc, if_neg hm]; exact hne
      · rw [hc]
        intro r hr'
        rcases List.mem_append.mp hr' with hr' | hr'
        · exact h.runs r hr'
        · simp at hr'; subst hr'; exact frags_nil
      · intro ha
        rw [hc, delivered_append]
        refine each_snoc (h.built (apart_of_append ha)) ?_
        refine ⟨⟨⟨f, [], rfl, rfl, rfl, rfl, rfl, rfl⟩, hm', by simp⟩, ?_⟩
        simp [hm', hfl]
    · -- the last fragment
      have e : c2.assemble f = ((c2.store f).deliverStored f.type,
          { c2.store f with previous := [], currentBytes := 0 }) := by
        simp [Chan.assemble, hm', hne]
      obtain ⟨g, gs, hgs⟩ : ∃ g gs, c2.previous = g :: gs := by
        cases hx : c2.previous with
        | nil => exact absurd hx hne
        | cons g gs => exact ⟨g, gs, rfl⟩
      have ho : Outcome.letIn ((c2.store f).deliverStored f.type) = true := by
        simp only [Chan.deliverStored, Chan.store, hgs, List.cons_append]
        split <;> rfl
      rw [e]
      have hl := letIn_frame_in log f _ ho
      have hc : cut [] (letIn (log ++ [.frame f ((c2.store f).deliverStored f.type)])) =
          cut [] (letIn log) ++ [c2.previous ++ [f]] := by
        rw [hl, cut_snoc, if_neg hm, hprev]
      refine ⟨hfl, hlim, fun _ => ?_, fun _ => frags_nil, ?_, ?_⟩
      · show [] = _
        rw [hl, unfinished_snoc, if_neg hm]
      · rw [hc]
        intro r hr'
        rcases List.mem_append.mp hr' with hr' | hr'
        · exact h.runs r hr'
        · simp at hr'; subst hr'; simpa using hfr
      · intro ha
        rw [hc, delivered_append]
        refine each_append (h.built (apart_of_append ha)) ?_
        obtain ⟨hone, hsize⟩ := ha (c2.previous ++ [f]) (by rw [hc]; simp)
        have hty : ∀ x ∈ c2.previous ++ [f], x.type ≠ .nul := by
          intro x hx
          have h1 := (hone x hx g (by rw [hgs]; simp)).1
          rw [h1]; exact (hfr.more g (by rw [hgs]; simp)).2
        have hfm := flatMap_joinOctets hty
        have hft : f.type ≠ .nul := hty f (by simp)
        have hlen : ¬ ((g :: (gs ++ [f])).flatMap joinOctets).length ≥ 2147483647 := by
          rw [hgs, List.cons_append] at hsize hfm
          rw [hfm]; omega
        have hdel : (c2.store f).deliverStored f.type = .delivered
            { type := g.type, channel := g.channel, msgno := g.msgno, ansno := g.ansno, seqno := g.seqno, more := false
              content := (g :: (gs ++ [f])).flatMap joinOctets
              body := mimeBody builtTail ((g :: (gs ++ [f])).flatMap joinOctets) } := by
          have hst : (c2.store f).previous = g :: (gs ++ [f]) := by
            show c2.previous ++ [f] = _
            rw [hgs]; rfl
          have hfl' : (c2.store f).completeFlag = true := hfl
          simp only [Chan.deliverStored, hst, if_neg hlen, hfl', ne_eq, hft, not_false_eq_true, and_self, if_true]
        rw [hdel]
        refine .cons ⟨⟨⟨g, gs ++ [f], by rw [hgs]; rfl, rfl, rfl, rfl, rfl, rfl⟩, rfl, ?_⟩, ?_⟩ .nil
        · rw [hgs, List.cons_append] at hfm ⊢
          exact hfm
        · have : (c2.previous ++ [f]).length ≠ 1 := by rw [hgs]; simp
          rw [if_neg this]

theorem msg_step {L} (log : List ChanEvent) (c : Chan) (op : ChanOp)
    (h : MsgInv L log c) : MsgInv L (log ++ (c.step op).1) (c.step op).2 := by
  have hsend : ∀ m r (c' : Chan), c'.shut = c.shut → c'.previous = c.previous → c'.completeFlag = c.completeFlag →
      c'.channelLimit = c.channelLimit → c'.connLimit = c.connLimit → MsgInv L (log ++ [.send m r]) c' := by
    intro m r c' h1 h2 h3 h4 h5
    have hd : delivered (log ++ [.send m r]) = delivered log := by rw [delivered_append]; simp [delivered]
    refine ⟨by rw [h3]; exact h.flag, by rw [frameLimit_congr h4 h5]; exact h.limit, ?_, ?_, ?_, ?_⟩
    · rw [letIn_send, h1, h2]; exact h.previous
    · rw [h1, h2]; exact h.frags
    · rw [letIn_send]; exact h.runs
    · rw [letIn_send, hd]; exact fun ha => h.built (apart_of_append ha)
  cases op with
  | send more =>
    simp only [Chan.step]
    split
    · exact hsend _ _ _ rfl rfl rfl rfl rfl
    · exact hsend _ _ _ rfl rfl rfl rfl rfl
  | frame f => exact msg_frame h
  | answered m => simp only [Chan.step, List.append_nil]; exact ⟨h.flag, h.limit, h.previous, h.frags, h.runs, h.built⟩
  | setWindow n => simp only [Chan.step, List.append_nil]; exact ⟨h.flag, h.limit, h.previous, h.frags, h.runs, h.built⟩

theorem msg_run (cl kl lim : Int) (fail : Bool) (ops : List ChanOp) :
    MsgInv (Chan.init true cl kl lim fail).frameLimit
      ((Chan.init true cl kl lim fail).run ops).1 ((Chan.init true cl kl lim fail).run ops).2 := by
  have := run_inv (I := MsgInv (Chan.init true cl kl lim fail).frameLimit) (fun _ => True)
    (fun log c op _ h => msg_step log c op h) ops [] (.init true cl kl lim fail)
    (fun _ _ => trivial)
    ⟨rfl, rfl, fun _ => rfl, fun _ => frags_nil, fun r hr => by simp [letIn, cut] at hr, fun _ => .nil⟩
  rw [List.nil_append] at this
  exact this

/-! ## The size limit -/

structure LimitInv (L : Int) (log : List ChanEvent) (c : Chan) : Prop where
  bytes : c.shut = false → c.currentBytes = octetsIn c.previous ∧ (octetsIn c.previous : Int) ≤ L
  runs : ∀ r ∈ cut [] (letIn log), (octetsIn r.dropLast : Int) ≤ L

theorem limit_frame {L log c f} (hL : 0 < L) (hf : Parsed f) (hsz : L + f.size < 2147483648)
    (hm : MsgInv L log c) (h : LimitInv L log c) :
    LimitInv L (log ++ [.frame f (c.process f).1]) (c.process f).2 := by
  have refused : ∀ o c', Outcome.letIn o = false → c'.shut = true → LimitInv L (log ++ [.frame f o]) c' := by
    intro o c' ho hs
    refine ⟨fun h' => by rw [hs] at h'; exact Bool.noConfusion h', ?_⟩
    rw [letIn_frame_out _ _ _ ho]; exact h.runs
  rcases process_cases c f with ⟨hs, hp⟩ | ⟨hs0, c', hp, hs, _⟩ | ⟨c1, hr, hp⟩
  · rw [hp]; exact refused _ _ rfl hs
  · rw [hp]; exact refused _ _ rfl hs.shut
  rw [hp]
  obtain ⟨u1, u2, u3, u4, u5⟩ := updateStatus_keeps c1 f
  generalize hc2 : c1.updateStatus f = c2 at *
  rw [hr.previous] at u1
  rw [hr.bytes] at u2
  rw [hr.flag] at u3
  rw [hr.cl] at u4
  rw [hr.kl] at u5
  obtain ⟨b1, b2⟩ := h.bytes hr.open0
  rw [← u1] at b1 b2
  rw [← u2] at b1
  have hprev : c2.previous = unfinished [] (letIn log) := by rw [u1]; exact hm.previous hr.open0
  have hlim : c2.frameLimit = L := by rw [frameLimit_congr u4 u5]; exact hm.limit
  have hfl : c2.completeFlag = true := by rw [u3]; exact hm.flag
  have h0 : 0 ≤ f.size := by rw [hf.size]; omega
  by_cases hmo : f.more = true
  · have hnul : f.type ≠ .nul := by
      intro ht
      have := hr.nul ht
      simp [nulWrong, hmo] at this
    have kept : LimitInv L (log ++ [.frame f .kept]) (c2.store f) := by
      have hc : cut [] (letIn (log ++ [.frame f .kept])) = cut [] (letIn log) := by
        rw [letIn_frame_in _ _ _ rfl, cut_snoc]; simp [hmo]
      refine ⟨?_, by rw [hc]; exact h.runs⟩
      have hb : i32 (c2.currentBytes + if f.type = .nul then 0 else f.size) = c2.currentBytes + f.size := by
        rw [if_neg hnul]; exact i32_small _ (by omega) (by omega)
      have e : c2.store f = { c2 with
          currentBytes := c2.currentBytes + f.size
          previous := c2.previous ++ [f]
          shut := c2.shut || decide (c2.frameLimit > 0 ∧ c2.currentBytes + f.size > c2.frameLimit) } := by
        simp only [Chan.store, hb]
      rw [e]
      intro h'
      have h2 : ¬ (c2.frameLimit > 0 ∧ c2.currentBytes + f.size > c2.frameLimit) := by
        have := (Bool.or_eq_false_iff.mp h').2
        simpa using this
      rw [hlim] at h2
      have ho : (octetsIn (c2.previous ++ [f]) : Int) = c2.currentBytes + f.size := by
        rw [octetsIn_append, b1, hf.size]; simp [octetsIn]
      refine ⟨?_, ?_⟩
      · show c2.currentBytes + f.size = (octetsIn (c2.previous ++ [f]) : Int)
        exact ho.symm
      · show (octetsIn (c2.previous ++ [f]) : Int) ≤ L
        rw [ho]; omega
    cases hg : c2.previous.getLast? with
    | none =>
      have e : c2.assemble f = (.kept, c2.store f) := by
        simp only [Chan.assemble, hmo, if_true, hg, hfl]
      rw [e]; exact kept
    | some p =>
      cases hj : p.toV.joinable f.toV with
      | true =>
        have e : c2.assemble f = (.kept, c2.store f) := by
          simp only [Chan.assemble, hmo, if_true, hg, hj]
        rw [e]; exact kept
      | false =>
        have e : c2.assemble f = (.closed, { c2 with shut := true }) := by
          simp [Chan.assemble, hmo, hg, hj]
        rw [e]; exact refused _ _ rfl rfl
  · have hm' : f.more = false := by simpa using hmo
    by_cases hne : c2.previous = []
    · have e : c2.assemble f = (c2.deliverOne f, c2) := by
        simp [Chan.assemble, hm', hne]
      rw [e]
      have ho : Outcome.letIn (c2.deliverOne f) = true := rfl
      have hun : unfinished [] (letIn log) = [] := by rw [← hprev]; exact hne
      have hc : cut [] (letIn (log ++ [.frame f (c2.deliverOne f)])) = cut [] (letIn log) ++ [[f]] := by
        rw [letIn_frame_in _ _ _ ho, cut_snoc, hun]; simp [hm']
      refine ⟨fun _ => ⟨b1, b2⟩, ?_⟩
      rw [hc]
      intro r hr'
      rcases List.mem_append.mp hr' with hr' | hr'
      · exact h.runs r hr'
      · simp at hr'; subst hr'; simp [octetsIn]; omega
    · have e : c2.assemble f = ((c2.store f).deliverStored f.type,
          { c2.store f with previous := [], currentBytes := 0 }) := by
        simp [Chan.assemble, hm', hne]
      have ho : Outcome.letIn ((c2.store f).deliverStored f.type) = true := by
        have := assemble_letIn c2 f
        rw [e, hm'] at this
        rcases this with h1 | h1
        · exact h1
        · exact absurd h1.1 (by simp)
      rw [e]
      have hc : cut [] (letIn (log ++ [.frame f ((c2.store f).deliverStored f.type)])) =
          cut [] (letIn log) ++ [c2.previous ++ [f]] := by
        rw [letIn_frame_in _ _ _ ho, cut_snoc, if_neg hmo, hprev]
      refine ⟨fun _ => ⟨by simp [octetsIn], by simp [octetsIn]; omega⟩, ?_⟩
      rw [hc]
      intro r hr'
      rcases List.mem_append.mp hr' with hr' | hr'
      · exact h.runs r hr'
      · simp at hr'; subst hr'; simpa using b2

theorem limit_run (cl kl lim : Int) (fail : Bool) (ops : List ChanOp) (hp : AllParsed ops)
    (hL : 0 < (Chan.init true cl kl lim fail).frameLimit)
    (hsz : ∀ f, ChanOp.frame f ∈ ops → (Chan.init true cl kl lim fail).frameLimit + f.size < 2147483648) :
    LimitInv (Chan.init true cl kl lim fail).frameLimit
      ((Chan.init true cl kl lim fail).run ops).1 ((Chan.init true cl kl lim fail).run ops).2 := by
  generalize hL' : (Chan.init true cl kl lim fail).frameLimit = L at *
  have := run_inv (I := fun log c => MsgInv L log c ∧ LimitInv L log c)
    (fun op => ∀ f, op = .frame f → Parsed f ∧ L + f.size < 2147483648)
    (fun log c op hop h => by
      refine ⟨msg_step log c op h.1, ?_⟩
      have hl := h.2
      cases op with
      | send more =>
        simp only [Chan.step]
        split
        · exact ⟨hl.bytes, by rw [letIn_send]; exact hl.runs⟩
        · exact ⟨hl.bytes, by rw [letIn_send]; exact hl.runs⟩
      | frame f => exact limit_frame hL (hop f rfl).1 (hop f rfl).2 h.1 hl
      | answered m => simp only [Chan.step, List.append_nil]; exact ⟨hl.bytes, hl.runs⟩
      | setWindow n => simp only [Chan.step, List.append_nil]; exact ⟨hl.bytes, hl.runs⟩)
    ops [] (.init true cl kl lim fail)
    (fun op ho f he => ⟨hp f (he ▸ ho), hsz f (he ▸ ho)⟩)
    ⟨⟨rfl, hL', fun _ => rfl, fun _ => frags_nil, fun r hr => by simp [letIn, cut] at hr, fun _ => .nil⟩,
     ⟨fun _ => ⟨rfl, by simp [Chan.init, octetsIn]; omega⟩, fun r hr => by simp [letIn, cut] at hr⟩⟩
  rw [List.nil_append] at this
  exact this.2

end Verif.Proof
