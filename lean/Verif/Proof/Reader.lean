import Verif.Spec.Reader
import Verif.Proof.RecvFlow
namespace Verif.Proof
open Verif.Model Verif.Spec

/-! ## What processing one frame can do -/

/-- `c1` is `c` after the window update and the number checks, all passed. -/
structure Ready (c c1 : Chan) (f : Frame) : Prop where
  out : c1.out = c.out
  previous : c1.previous = c.previous
  bytes : c1.currentBytes = c.currentBytes
  flag : c1.completeFlag = c.completeFlag
  cl : c1.channelLimit = c.channelLimit
  kl : c1.connLimit = c.connLimit
  open0 : c.shut = false
  shut : c1.shut = false
  expected : c1.win.expected = c.win.expected
  seqno : c.win.expected = f.seqno
  reply : IsReply f → c.out.expectedReply = f.msgno
  nul : f.type = .nul → nulWrong f = false

/-- The connection has been shut down, nothing else of interest changed. -/
structure ShutDown (c c' : Chan) : Prop where
  shut : c'.shut = true
  out : c'.out = c.out
  flag : c'.completeFlag = c.completeFlag
  cl : c'.channelLimit = c.channelLimit
  kl : c'.connLimit = c.connLimit

theorem update_expected (w : RecvWin) (s : Nat) (n : Int) : (w.update s n).1.expected = w.expected := by
  simp only [RecvWin.update]
  split
  · rfl
  · split
    · split <;> rfl
    · rfl

theorem process_cases (c : Chan) (f : Frame) :
    (c.shut = true ∧ c.process f = (.ignored, c)) ∨
    (c.shut = false ∧ ∃ c', c.process f = (.closed, c') ∧ ShutDown c c' ∧ c'.previous = c.previous) ∨
    (∃ c1, Ready c c1 f ∧ c.process f = (c1.updateStatus f).assemble f) := by
  by_cases hs : c.shut = true
  · left; exact ⟨hs, by simp [Chan.process, hs]⟩
  have hs' : c.shut = false := by simpa using hs
  right
  by_cases hw : c.win.check f.seqno f.size = false
  · left
    refine ⟨hs', { c with shut := true }, by simp [Chan.process, hs', hw], ⟨rfl, rfl, rfl, rfl, rfl⟩, rfl⟩
  have hp : c.process f = (match { c with win := (c.win.update f.seqno f.size).1 }.checkNumber f with
    | none => (.closed, { c with shut := true })
    | some c =>
      if c.win.expected ≠ f.seqno then (.closed, { c with shut := true })
      else if f.type = .nul ∧ nulWrong f then (.closed, { c with shut := true })
      else (c.updateStatus f).assemble f) := by
    rw [Chan.process, if_neg (by simp [hs']), if_neg hw]
    rfl
  cases hc : Chan.checkNumber { c with win := (c.win.update f.seqno f.size).1 } f with
  | none =>
    left
    rw [hc] at hp
    exact ⟨hs', _, hp, ⟨rfl, rfl, rfl, rfl, rfl⟩, rfl⟩
  | some c1 =>
    rw [hc] at hp
    have h1 : c1.out = c.out ∧ c1.previous = c.previous ∧ c1.currentBytes = c.currentBytes ∧
        c1.completeFlag = c.completeFlag ∧ c1.channelLimit = c.channelLimit ∧ c1.connLimit = c.connLimit ∧
        c1.shut = c.shut ∧ c1.win.expected = c.win.expected ∧ (IsReply f → c.out.expectedReply = f.msgno) := by
      simp only [Chan.checkNumber] at hc
      split at hc
      · rename_i ht
        cases hi : c.inc.check f.more f.msgno with
        | none => simp [hi] at hc
        | some i =>
          simp only [hi, Option.map_some, Option.some.injEq] at hc
          subst hc
          exact ⟨rfl, rfl, rfl, rfl, rfl, rfl, rfl, update_expected .., by simp [IsReply, ht]⟩
      all_goals first
        | (split at hc
           · rename_i h
             injection hc with hc; subst hc
             exact ⟨rfl, rfl, rfl, rfl, rfl, rfl, rfl, update_expected .., fun _ => h⟩
           · exact absurd hc (by simp))
        | (rename_i ht
           injection hc with hc; subst hc
           exact ⟨rfl, rfl, rfl, rfl, rfl, rfl, rfl, update_expected .., by simp [IsReply, ht]⟩)
    obtain ⟨o1, o2, o3, o4, o5, o6, o7, o8, o9⟩ := h1
    by_cases he : c1.win.expected ≠ f.seqno
    · left
      simp only [if_pos he] at hp
      exact ⟨hs', _, hp, ⟨rfl, o1, o4, o5, o6⟩, o2⟩
    simp only [if_neg he] at hp
    by_cases hn : f.type = .nul ∧ nulWrong f = true
    · left
      simp only [if_pos hn] at hp
      exact ⟨hs', _, hp, ⟨rfl, o1, o4, o5, o6⟩, o2⟩
    simp only [if_neg hn] at hp
    right
    refine ⟨c1, ⟨o1, o2, o3, o4, o5, o6, hs', by rw [o7, hs'], o8, ?_, o9, ?_⟩, hp⟩
    · rw [← o8]; exact Decidable.not_not.mp he
    · intro ht
      cases hx : nulWrong f with
      | false => rfl
      | true => exact absurd ⟨ht, hx⟩ hn

/-! ## Histories -/

theorem run_inv {I : List ChanEvent → Chan → Prop} (P : ChanOp → Prop)
    (hstep : ∀ log c op, P op → I log c → I (log ++ (c.step op).1) (c.step op).2) :
    ∀ (ops : List ChanOp) (log : List ChanEvent) (c : Chan), (∀ op ∈ ops, P op) → I log c →
      I (log ++ (c.run ops).1) (c.run ops).2 := by
  intro ops
  induction ops with
  | nil => intro log c _ h; simpa [Chan.run] using h
  | cons op ops ih =>
    intro log c hp h
    have := ih (log ++ (c.step op).1) (c.step op).2 (fun o ho => hp o (List.mem_cons_of_mem _ ho))
      (hstep log c op (hp op List.mem_cons_self) h)
    simpa [Chan.run, List.append_assoc] using this

theorem letIn_append (a b : List ChanEvent) : letIn (a ++ b) = letIn a ++ letIn b := by
  induction a with
  | nil => rfl
  | cons e a ih =>
    cases e with
    | send more r => simpa [letIn] using ih
    | frame f o => simp only [List.cons_append, letIn]; split <;> simp [ih]

theorem delivered_append (a b : List ChanEvent) : delivered (a ++ b) = delivered a ++ delivered b := by
  induction a with
  | nil => rfl
  | cons e a ih =>
    cases e with
    | send more r => simpa [delivered] using ih
    | frame f o => cases o <;> simp [delivered, ih]

theorem begun_append (a b : List ChanEvent) : ∀ i, begun i (a ++ b) = begun i a ++ begun (insideAfter i a) b := by
  induction a with
  | nil => intro i; rfl
  | cons e a ih =>
    intro i
    cases e with
    | frame f o => simpa [begun, insideAfter] using ih i
    | send more r =>
      cases r with
      | sent m => simp only [List.cons_append, begun, insideAfter]; split <;> simp [ih]
      | refused => simpa [begun, insideAfter] using ih i
      | blocked => simpa [begun, insideAfter] using ih i

theorem insideAfter_append (a b : List ChanEvent) : ∀ i, insideAfter i (a ++ b) = insideAfter (insideAfter i a) b := by
  induction a with
  | nil => intro i; rfl
  | cons e a ih =>
    intro i
    cases e with
    | frame f o => simpa [insideAfter] using ih i
    | send more r => cases r <;> simpa [insideAfter] using ih _

theorem answered_append (a b : List ChanEvent) : answered (a ++ b) = answered a ++ answered b := by
  simp [answered, letIn_append]

/-- A list extended at its end, split around an element. -/
theorem snoc_split {α : Type} {log pre post : List α} {e x : α} (h : log ++ [e] = pre ++ x :: post) :
    (post = [] ∧ pre = log ∧ x = e) ∨ ∃ post', post = post' ++ [e] ∧ log = pre ++ x :: post' := by
  rcases List.eq_nil_or_concat post with h0 | ⟨p', y, h0⟩
  · subst h0
    left
    have := List.append_inj' h rfl
    exact ⟨rfl, this.1.symm, by have := this.2; simp at this; exact this.symm⟩
  · subst h0
    right
    have h2 : log ++ [e] = (pre ++ x :: p') ++ [y] := by simpa using h
    have := List.append_inj' h2 rfl
    refine ⟨p', ?_, this.1⟩
    have h3 := this.2; simp at h3; rw [h3]; simp

/-! ## Fragments keep the rest of the state -/

theorem store_keeps (c : Chan) (f : Frame) : (c.store f).out = c.out ∧ (c.store f).win = c.win ∧
    (c.store f).completeFlag = c.completeFlag ∧ (c.store f).channelLimit = c.channelLimit ∧
    (c.store f).connLimit = c.connLimit ∧ (c.store f).previous = c.previous ++ [f] := ⟨rfl, rfl, rfl, rfl, rfl, rfl⟩

theorem assemble_keeps (c : Chan) (f : Frame) : (c.assemble f).2.out = c.out ∧ (c.assemble f).2.win = c.win ∧
    (c.assemble f).2.completeFlag = c.completeFlag ∧ (c.assemble f).2.channelLimit = c.channelLimit ∧
    (c.assemble f).2.connLimit = c.connLimit := by
  simp only [Chan.assemble]
  split
  · split
    · split
      · exact ⟨rfl, rfl, rfl, rfl, rfl⟩
      · exact ⟨rfl, rfl, rfl, rfl, rfl⟩
    · split
      · exact ⟨rfl, rfl, rfl, rfl, rfl⟩
      · exact ⟨rfl, rfl, rfl, rfl, rfl⟩
  · split
    · exact ⟨rfl, rfl, rfl, rfl, rfl⟩
    · exact ⟨rfl, rfl, rfl, rfl, rfl⟩

theorem assemble_letIn (c : Chan) (f : Frame) : Outcome.letIn (c.assemble f).1 = true ∨
    (f.more = true ∧ c.assemble f = (.closed, { c with shut := true })) := by
  simp only [Chan.assemble]
  by_cases hm : f.more = true
  · simp only [hm, if_true]
    split
    · split
      · exact Or.inl rfl
      · exact Or.inl rfl
    · split
      · exact Or.inl rfl
      · exact Or.inr ⟨trivial, rfl⟩
  · simp only [if_neg hm]
    split
    · left
      simp only [Chan.deliverStored]
      split
      · rename_i h
        exact absurd h (by simp [Chan.store])
      · split
        · rfl
        · rfl
    · exact Or.inl rfl

theorem endsReply_iff (f : Frame) : endsReply f = true ↔
    ((f.type = .rpy ∨ f.type = .err) ∧ f.more = false ∨ f.type = .nul) := by
  simp only [endsReply]
  cases f.type <;> cases f.more <;> simp

theorem updateStatus_ends {c : Chan} {f : Frame} (h : endsReply f = true) :
    c.updateStatus f = { c with win := c.win.advance f.size, out := (c.out.removeFirst f.msgno).2,
                                shut := c.shut || !(c.out.removeFirst f.msgno).1 } := by
  simp only [Chan.updateStatus, if_pos ((endsReply_iff f).mp h)]

theorem updateStatus_other {c : Chan} {f : Frame} (h : endsReply f = false) :
    c.updateStatus f = { c with win := c.win.advance f.size } := by
  have : ¬((f.type = .rpy ∨ f.type = .err) ∧ f.more = false ∨ f.type = .nul) := fun h' => by
    rw [(endsReply_iff f).mpr h'] at h; exact Bool.noConfusion h
  simp only [Chan.updateStatus, if_neg this]

theorem ends_isReply {f : Frame} (h : endsReply f = true) : IsReply f := by
  rcases (endsReply_iff f).mp h with ⟨h | h, _⟩ | h <;> simp [IsReply, h]

/-! ## Numbers of messages sent -/

structure NumInv (lim : Int) (log : List ChanEvent) (c : Chan) : Prop where
  limit : c.out.limit = lim
  bound : 0 < lim → (c.out.outstanding.length : Int) ≤ lim
  nums : begun false log = (List.range (begun false log).length).map Int.ofNat
  next : c.out.nextProposed = (begun false log).length - 1
  fixed : (insideAfter false log = true ∧ c.out.lastFixedMore = (begun false log).length - 1 ∧
      0 < (begun false log).length) ∨ (insideAfter false log = false ∧ c.out.lastFixedMore = -1)
  split : answered log ++ c.out.outstanding = begun false log
  oldest : ∀ pre f o post, log = pre ++ .frame f o :: post → Outcome.letIn o = true → IsReply f →
    ∃ rest, begun false pre = answered pre ++ f.msgno :: rest

def NumInvB (lim : Int) (log : List ChanEvent) (c : Chan) : Prop :=
  (begun false log).length ≤ 2147483648 → NumInv lim log c

theorem oldest_extend_send {log : List ChanEvent} {more r}
    (h : ∀ pre f o post, log = pre ++ .frame f o :: post → Outcome.letIn o = true → IsReply f →
      ∃ rest, begun false pre = answered pre ++ f.msgno :: rest) :
    ∀ pre f o post, log ++ [.send more r] = pre ++ .frame f o :: post → Outcome.letIn o = true → IsReply f →
      ∃ rest, begun false pre = answered pre ++ f.msgno :: rest := by
  intro pre f o post he ho hr
  rcases snoc_split he with ⟨_, _, hx⟩ | ⟨post', _, hl⟩
  · exact absurd hx (by simp)
  · exact h pre f o post' hl ho hr

theorem num_send {lim log c more} (hlen : (begun false (log ++ [.send more (c.out.sendMsg more).1])).length ≤ 2147483648)
    (h : NumInv lim log c) : NumInv lim (log ++ [.send more (c.out.sendMsg more).1])
      { c with out := (c.out.sendMsg more).2 } := by
  have ha : ∀ r, answered (log ++ [.send more r]) = answered log := fun r => by
    simp [answered, letIn_append, letIn]
  by_cases hl : c.out.limit > 0 ∧ (c.out.outstanding.length : Int) ≥ c.out.limit
  · have he : c.out.sendMsg more = (if c.out.failOnLimit then .refused else .blocked, c.out) := by
      rw [OutChan.sendMsg, if_pos hl]
    rw [he]
    have hb : begun false (log ++ [.send more (if c.out.failOnLimit then .refused else .blocked)]) = begun false log := by
      rw [begun_append]; cases c.out.failOnLimit <;> simp [begun]
    have hi : insideAfter false (log ++ [.send more (if c.out.failOnLimit then .refused else .blocked)]) =
        insideAfter false log := by
      rw [insideAfter_append]; cases c.out.failOnLimit <;> simp [insideAfter]
    exact ⟨h.limit, h.bound, by rw [hb]; exact h.nums, by rw [hb]; exact h.next, by rw [hb, hi]; exact h.fixed,
      by rw [hb, ha]; exact h.split, oldest_extend_send h.oldest⟩
  by_cases hf : c.out.lastFixedMore ≥ 0
  · have hin : insideAfter false log = true := by
      rcases h.fixed with h' | h'
      · exact h'.1
      · rw [h'.2] at hf; exact absurd hf (by decide)
    have hfix : c.out.lastFixedMore = (begun false log).length - 1 := by
      rcases h.fixed with h' | h'
      · exact h'.2.1
      · rw [h'.1] at hin; exact absurd hin (by decide)
    have hpos : 0 < (begun false log).length := by
      rcases h.fixed with h' | h'
      · exact h'.2.2
      · rw [h'.1] at hin; exact absurd hin (by decide)
    have he : c.out.sendMsg more =
        (.sent c.out.lastFixedMore, if more then c.out else { c.out with lastFixedMore := -1 }) := by
      rw [OutChan.sendMsg, if_neg hl, if_pos hf]
    rw [he]
    have hb : begun false (log ++ [.send more (.sent c.out.lastFixedMore)]) = begun false log := by
      rw [begun_append, hin]; simp [begun]
    have hi : insideAfter false (log ++ [.send more (.sent c.out.lastFixedMore)]) = more := by
      rw [insideAfter_append]; simp [insideAfter]
    refine ⟨?_, ?_, by rw [hb]; exact h.nums, ?_, ?_, ?_, oldest_extend_send h.oldest⟩
    · cases more <;> exact h.limit
    · cases more <;> exact h.bound
    · rw [hb]; cases more <;> exact h.next
    · rw [hb, hi]
      cases more with
      | true => exact Or.inl ⟨rfl, hfix, hpos⟩
      | false => exact Or.inr ⟨rfl, rfl⟩
    · rw [hb, ha]; cases more <;> exact h.split
  · have hin : insideAfter false log = false := by
      rcases h.fixed with h' | h'
      · have := h'.2.1; have := h'.2.2; omega
      · exact h'.1
    have hfix : c.out.lastFixedMore = -1 := by
      rcases h.fixed with h' | h'
      · have := h'.2.1; have := h'.2.2; omega
      · exact h'.2
    -- the new number
    have hb0 : ∀ m, begun false (log ++ [.send more (.sent m)]) = begun false log ++ [m] := fun m => by
      rw [begun_append, hin]; simp [begun]
    have hlt : ((begun false log).length : Int) < 2147483648 := by
      have he : (c.out.sendMsg more).1 = .sent (c.out.nextMsgNo).1 := by
        rw [OutChan.sendMsg, if_neg hl, if_neg hf]
      rw [he, hb0] at hlen
      simp at hlen
      omega
    have hn : i32 (c.out.nextProposed + 1) = (begun false log).length := by
      rw [h.next]
      rw [show ((begun false log).length : Int) - 1 + 1 = (begun false log).length by omega]
      exact i32_small _ (by omega) hlt
    have hnext : c.out.nextMsgNo = (((begun false log).length : Int),
        { c.out with nextProposed := ((begun false log).length : Int) }) := by
      simp only [OutChan.nextMsgNo, hn]
      have : ¬ (((begun false log).length : Int) = -1) := by omega
      simp only [if_neg this]
    have he : c.out.sendMsg more = (.sent (begun false log).length,
        { c.out with
          nextProposed := ((begun false log).length : Int)
          lastFixedMore := if more then ((begun false log).length : Int) else -1
          outstanding := c.out.outstanding ++ [((begun false log).length : Int)] }) := by
      rw [OutChan.sendMsg, if_neg hl, if_neg hf, hnext]
      cases more <;> simp [hfix]
    rw [he]
    have hi : insideAfter false (log ++ [.send more (.sent (begun false log).length)]) = more := by
      rw [insideAfter_append]; simp [insideAfter]
    refine ⟨h.limit, ?_, ?_, ?_, ?_, ?_, oldest_extend_send h.oldest⟩
    · intro hp
      have h1 := h.limit
      simp only [List.length_append, List.length_cons, List.length_nil]
      have : ¬ ((c.out.outstanding.length : Int) ≥ c.out.limit) := fun h2 => hl ⟨by omega, h2⟩
      omega
    · rw [hb0]
      simp only [List.length_append, List.length_cons, List.length_nil, List.range_succ, List.map_append]
      rw [← h.nums]
      rfl
    · rw [hb0]
      simp only [List.length_append, List.length_cons, List.length_nil]
      omega
    · rw [hb0, hi]
      cases more with
      | false => exact Or.inr ⟨rfl, rfl⟩
      | true =>
        refine Or.inl ⟨rfl, ?_, by simp⟩
        simp only [List.length_append, List.length_cons, List.length_nil, if_true]
        omega
    · rw [hb0, ha]
      simp only [← List.append_assoc, h.split]

theorem begun_frame (log : List ChanEvent) (f o) : begun false (log ++ [.frame f o]) = begun false log := by
  rw [begun_append]; simp [begun]
theorem inside_frame (log : List ChanEvent) (f o) : insideAfter false (log ++ [.frame f o]) = insideAfter false log := by
  rw [insideAfter_append]; simp [insideAfter]
theorem answered_frame_out (log : List ChanEvent) (f o) (h : Outcome.letIn o = false) :
    answered (log ++ [.frame f o]) = answered log := by
  rw [answered_append]; simp [answered, letIn, h]
theorem answered_frame_in (log : List ChanEvent) (f o) (h : Outcome.letIn o = true) :
    answered (log ++ [.frame f o]) = answered log ++ if endsReply f then [f.msgno] else [] := by
  rw [answered_append]
  cases he : endsReply f <;> simp [answered, letIn, h, he]

theorem num_frame {lim log c f} (hf : Parsed f) (h : NumInv lim log c) :
    NumInv lim (log ++ [.frame f (c.process f).1]) (c.process f).2 := by
  have key : ∀ o c', c'.out = c.out → Outcome.letIn o = false → NumInv lim (log ++ [.frame f o]) c' := by
    intro o c' ho hno
    have hb := begun_frame log f o
    refine ⟨by rw [ho]; exact h.limit, by rw [ho]; exact h.bound, by rw [hb]; exact h.nums,
      by rw [hb, ho]; exact h.next, by rw [hb, inside_frame, ho]; exact h.fixed,
      by rw [hb, answered_frame_out _ _ _ hno, ho]; exact h.split, ?_⟩
    intro pre g o' post he hg hr
    rcases snoc_split he with ⟨_, _, hx⟩ | ⟨post', _, hl⟩
    · injection hx with _ hx2
      rw [hx2, hno] at hg; exact Bool.noConfusion hg
    · exact h.oldest pre g o' post' hl hg hr
  rcases process_cases c f with ⟨_, hp⟩ | ⟨_, c', hp, hs, _⟩ | ⟨c1, hr, hp⟩
  · rw [hp]; exact key _ _ rfl rfl
  · rw [hp]; exact key _ _ hs.out rfl
  rw [hp]
  obtain ⟨k1, k2, k3, k4, k5⟩ := assemble_keeps (c1.updateStatus f) f
  -- the oldest outstanding message is the one replied
  have hhead : IsReply f → ∃ rest, c.out.outstanding = f.msgno :: rest := by
    intro hr'
    have := hr.reply hr'
    simp only [OutChan.expectedReply] at this
    cases ho : c.out.outstanding with
    | nil => rw [ho] at this; exact absurd this.symm hf.msgno
    | cons a as => rw [ho] at this; simp at this; exact ⟨as, by rw [this]⟩
  rcases assemble_letIn (c1.updateStatus f) f with hin | ⟨hm, hcl⟩
  · have hb := begun_frame log f ((c1.updateStatus f).assemble f).1
    have hold : ∀ pre g o' post, log ++ [.frame f ((c1.updateStatus f).assemble f).1] = pre ++ .frame g o' :: post →
        Outcome.letIn o' = true → IsReply g → ∃ rest, begun false pre = answered pre ++ g.msgno :: rest := by
      intro pre g o' post he hg hr'
      rcases snoc_split he with ⟨_, hpre, hx⟩ | ⟨post', _, hl⟩
      · injection hx with hx1 hx2
        subst hx1 hpre
        obtain ⟨rest, hrest⟩ := hhead hr'
        exact ⟨rest, by rw [← hrest]; exact h.split.symm⟩
      · exact h.oldest pre g o' post' hl hg hr'
    cases he : endsReply f with
    | false =>
      have hu : (c1.updateStatus f).out = c.out := by rw [updateStatus_other he]; exact hr.out
      rw [hu] at k1
      refine ⟨by rw [k1]; exact h.limit, by rw [k1]; exact h.bound, by rw [hb]; exact h.nums,
        by rw [hb, k1]; exact h.next, by rw [hb, inside_frame, k1]; exact h.fixed, ?_, hold⟩
      rw [hb, answered_frame_in _ _ _ hin, he, k1]
      simpa using h.split
    | true =>
      obtain ⟨rest, hrest⟩ := hhead (ends_isReply he)
      have hu : (c1.updateStatus f).out = { c.out with outstanding := rest } := by
        rw [updateStatus_ends he]
        simp only [hr.out, OutChan.removeFirst, hrest, List.headD_cons, if_true, List.drop_succ_cons, List.drop_zero]
      rw [hu] at k1
      refine ⟨by rw [k1]; exact h.limit, ?_, by rw [hb]; exact h.nums,
        by rw [hb, k1]; exact h.next, by rw [hb, inside_frame, k1]; exact h.fixed, ?_, hold⟩
      · intro hp'
        have := h.bound hp'
        rw [hrest] at this
        rw [k1]
        simp only [List.length_cons] at this
        show ((rest.length : Nat) : Int) ≤ lim
        omega
      · rw [hb, answered_frame_in _ _ _ hin, he, k1, ← h.split, hrest]
        simp
  · rw [hcl]
    refine key _ _ ?_ rfl
    have hne : endsReply f = false := by
      cases he : endsReply f with
      | false => rfl
      | true =>
        rcases (endsReply_iff f).mp he with ⟨_, h2⟩ | h2
        · rw [hm] at h2; exact Bool.noConfusion h2
        · have := hr.nul h2
          simp [nulWrong, hm] at this
    show (c1.updateStatus f).out = c.out
    rw [updateStatus_other hne]
    exact hr.out

theorem num_step {lim} (log : List ChanEvent) (c : Chan) (op : ChanOp) (hop : ∀ f, op = .frame f → Parsed f)
    (h : NumInvB lim log c) : NumInvB lim (log ++ (c.step op).1) (c.step op).2 := by
  intro hlen
  have hle : (begun false log).length ≤ 2147483648 := by
    rw [begun_append, List.length_append] at hlen; omega
  have h := h hle
  cases op with
  | send more =>
    cases hs : c.shut with
    | true =>
      simp only [Chan.step, hs, if_true] at hlen ⊢
      have hb : begun false (log ++ [.send more .refused]) = begun false log := by
        rw [begun_append]; simp [begun]
      have hi : insideAfter false (log ++ [.send more .refused]) = insideAfter false log := by
        rw [insideAfter_append]; simp [insideAfter]
      have ha : answered (log ++ [.send more .refused]) = answered log := by
        simp [answered, letIn_append, letIn]
      exact ⟨h.limit, h.bound, by rw [hb]; exact h.nums, by rw [hb]; exact h.next, by rw [hb, hi]; exact h.fixed,
        by rw [hb, ha]; exact h.split, oldest_extend_send h.oldest⟩
    | false =>
      have e : c.step (.send more) = ([.send more (c.out.sendMsg more).1], { c with out := (c.out.sendMsg more).2 }) := by
        rw [Chan.step, if_neg (by simp [hs])]
      rw [e] at hlen ⊢
      exact num_send hlen h
  | frame f => exact num_frame (hop f rfl) h
  | answered m => simp only [Chan.step, List.append_nil]; exact ⟨h.limit, h.bound, h.nums, h.next, h.fixed, h.split, h.oldest⟩
  | setWindow n => simp only [Chan.step, List.append_nil]; exact ⟨h.limit, h.bound, h.nums, h.next, h.fixed, h.split, h.oldest⟩

theorem num_run (cf : Bool) (cl kl lim : Int) (fail : Bool) (ops : List ChanOp) (hp : AllParsed ops)
    (hlen : (begun false ((Chan.init cf cl kl lim fail).run ops).1).length ≤ 2147483648) :
    NumInv lim ((Chan.init cf cl kl lim fail).run ops).1 ((Chan.init cf cl kl lim fail).run ops).2 := by
  have := run_inv (I := NumInvB lim) (fun op => ∀ f, op = .frame f → Parsed f)
    (fun log c op hop h => num_step log c op hop h) ops [] (.init cf cl kl lim fail)
    (fun op ho f he => hp f (he ▸ ho))
    (fun _ => ⟨rfl, fun h => by simp [Chan.init, OutChan.init]; omega, rfl, rfl, Or.inr ⟨rfl, rfl⟩, rfl,
      fun pre f o post h => by simp at h⟩)
  rw [List.nil_append] at this
  exact this hlen

end Verif.Proof
