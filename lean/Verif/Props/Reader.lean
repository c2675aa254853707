import Verif.Proof.Reassembly
import Verif.Model.SendLimit
/-!
# C14, C16, C17, C18, C46, C47: numbers, positions and reassembly on a channel
-/
namespace Verif.Props
open Verif.Model Verif.Spec Verif.Proof

/-- The history of a new channel: what can be seen of it, and the final state. -/
def history (completeFlag : Bool) (channelLimit connLimit limit : Int) (fail : Bool) (ops : List ChanOp) :
    List ChanEvent × Chan := (Chan.init completeFlag channelLimit connLimit limit fail).run ops

/-- C14. Whatever is sent, whatever arrives: as long as at most 2^31 messages are begun they are numbered 0,
1, 2, ... in the order of the send calls (so no two have the same number); the outstanding ones
are, in that order, exactly those not completely answered; and there are never more of them than
the configured limit. -/
theorem C14_outstanding (cf : Bool) (cl kl lim : Int) (fail : Bool) (ops : List ChanOp) (hp : AllParsed ops)
    (hlen : (begun false (history cf cl kl lim fail ops).1).length ≤ 2 ^ 31) :
    begun false (history cf cl kl lim fail ops).1 =
      (List.range (begun false (history cf cl kl lim fail ops).1).length).map Int.ofNat ∧
    begun false (history cf cl kl lim fail ops).1 =
      answered (history cf cl kl lim fail ops).1 ++ (history cf cl kl lim fail ops).2.out.outstanding ∧
    (0 < lim → ((history cf cl kl lim fail ops).2.out.outstanding.length : Int) ≤ lim) := by
  have h := num_run cf cl kl lim fail ops hp hlen
  exact ⟨h.nums, h.split.symm, h.bound⟩

/-- C16. A reply frame is let in only if its number is that of the oldest message begun and not completely
answered at that moment. -/
theorem C16_oldest (cf : Bool) (cl kl lim : Int) (fail : Bool) (ops : List ChanOp) (hp : AllParsed ops)
    (hlen : (begun false (history cf cl kl lim fail ops).1).length ≤ 2 ^ 31)
    (before : List ChanEvent) (f : Frame) (o : Outcome) (after : List ChanEvent)
    (he : (history cf cl kl lim fail ops).1 = before ++ .frame f o :: after)
    (ho : Outcome.letIn o = true) (hr : IsReply f) :
    ∃ rest, begun false before = answered before ++ f.msgno :: rest :=
  (num_run cf cl kl lim fail ops hp hlen).oldest before f o after he ho hr

/-- C16. Messages are completely answered in the order they were begun, each at most once. -/
theorem C16_in_order (cf : Bool) (cl kl lim : Int) (fail : Bool) (ops : List ChanOp) (hp : AllParsed ops)
    (hlen : (begun false (history cf cl kl lim fail ops).1).length ≤ 2 ^ 31) :
    answered (history cf cl kl lim fail ops).1 <+: begun false (history cf cl kl lim fail ops).1 ∧
    (answered (history cf cl kl lim fail ops).1).Nodup := by
  have h := num_run cf cl kl lim fail ops hp hlen
  have hpre : answered (history cf cl kl lim fail ops).1 <+: begun false (history cf cl kl lim fail ops).1 :=
    ⟨_, h.split⟩
  refine ⟨hpre, ?_⟩
  have hn : (begun false (history cf cl kl lim fail ops).1).Nodup := by
    have e : begun false (history cf cl kl lim fail ops).1 = _ := h.nums
    rw [e, List.nodup_iff_pairwise_ne, List.pairwise_map]
    refine List.Pairwise.imp ?_ List.nodup_range
    intro a b hab h2
    exact hab (Int.ofNat.inj h2)
  exact hn.sublist hpre.sublist

/-- Two requests, then their replies (the second one a multiple answer). -/
def sampleHistory : List ChanOp :=
  [.send false, .send true, .send false, .frame ⟨.rpy, 1, 0, true, 0, 3, 0, lit "one"⟩,
   .frame ⟨.rpy, 1, 0, false, 3, 4, 0, lit " two"⟩, .frame ⟨.ans, 1, 1, false, 7, 1, 0, lit "x"⟩,
   .frame ⟨.nul, 1, 1, false, 8, 0, 0, []⟩]

theorem aux_sampleParsed : AllParsed sampleHistory := by
  intro f hf
  simp only [sampleHistory, List.mem_cons, ChanOp.frame.injEq, reduceCtorEq, false_or, List.not_mem_nil, or_false] at hf
  rcases hf with h | h | h | h <;> subst h <;> exact ⟨by decide, by decide, by decide⟩

example : begun false (history true 0 0 2 true sampleHistory).1 = [0, 1] ∧
    answered (history true 0 0 2 true sampleHistory).1 = [0, 1] ∧
    (delivered (history true 0 0 2 true sampleHistory).1).map (fun d => (d.type, d.msgno, d.content)) =
      [(.rpy, 0, lit "one two"), (.ans, 1, lit "x"), (.nul, 1, [])] := by decide +kernel

/-- With a limit of one the second message of the sample is refused. -/
example : begun false (history true 0 0 1 true sampleHistory).1 = [0] := by decide +kernel

/-- C17. A frame is let in only if it begins exactly where the octets let in before it end (modulo 2^32); when
a frame is not let in, the connection is shut down and no later frame is even looked at. -/
theorem C17_contiguous (cf : Bool) (cl kl lim : Int) (fail : Bool) (ops : List ChanOp) (hp : AllParsed ops)
    (before : List ChanEvent) (f : Frame) (o : Outcome) (after : List ChanEvent)
    (he : (history cf cl kl lim fail ops).1 = before ++ .frame f o :: after) :
    (Outcome.letIn o = true → f.seqno = octetsIn (letIn before) % 2 ^ 32) ∧
    (Outcome.letIn o = false → (history cf cl kl lim fail ops).2.shut = true ∧
      ∀ g o', ChanEvent.frame g o' ∈ after → o' = .ignored) := by
  have h := seq_run cf cl kl lim fail ops hp
  exact ⟨h.at_ before f o after he, h.out before f o after he⟩

/-- C17. On an open connection a frame that does not begin there is not let in, and closes it. -/
theorem C17_gap_closes (cf : Bool) (cl kl lim : Int) (fail : Bool) (ops : List ChanOp) (hp : AllParsed ops)
    (hs : (history cf cl kl lim fail ops).2.shut = false) (f : Frame)
    (hseq : f.seqno ≠ octetsIn (letIn (history cf cl kl lim fail ops).1) % 2 ^ 32) :
    ((history cf cl kl lim fail ops).2.process f).1 = .closed := by
  have he := (seq_run cf cl kl lim fail ops hp).expected hs
  rcases process_cases (history cf cl kl lim fail ops).2 f with ⟨h, _⟩ | ⟨_, c', hp, _⟩ | ⟨c1, hr, _⟩
  · rw [hs] at h; exact Bool.noConfusion h
  · rw [hp]
  · exact absurd (hr.seqno.symm.trans he) hseq

/-- A gap in the sequence numbers closes the connection. -/
example : (history true 0 0 0 true [.frame ⟨.msg, 1, 0, false, 0, 2, 0, lit "ab"⟩,
    .frame ⟨.msg, 1, 1, false, 3, 2, 0, lit "cd"⟩, .frame ⟨.msg, 1, 1, false, 2, 2, 0, lit "cd"⟩]).1.map
      (fun e => match e with | .frame _ o => Outcome.letIn o | _ => true) = [true, false, false] := by decide +kernel

/-! ## C18 -/

/-- C18 in full: with complete delivery the application gets one frame per message, made of its
fragments in order; fragments of different messages are not merged; nothing larger than the
limit (the larger one of those of the channel and of the connection) is delivered. -/
def C18_statement : Prop :=
  ∀ (cl kl lim : Int) (fail : Bool) (ops : List ChanOp), AllParsed ops →
    Each IsMessage (cut [] (letIn (history true cl kl lim fail ops).1)) (delivered (history true cl kl lim fail ops).1) ∧
    (∀ r ∈ cut [] (letIn (history true cl kl lim fail ops).1), OneMessage r) ∧
    (∀ r ∈ cut [] (letIn (history true cl kl lim fail ops).1), 0 < max cl kl → (octetsIn r : Int) ≤ max cl kl)

theorem aux_each {α β : Type} {R S : α → β → Prop} (hi : ∀ a b, R a b → S a b) {as : List α} {bs : List β}
    (h : Each R as bs) : Each S as bs := by
  induction h with
  | nil => exact .nil
  | cons h1 _ ih => exact .cons (hi _ _ h1) ih

/-- C18, the part that holds: if the peer does not mix the fragments of different messages and no message has
2^31 - 1 octets or more, each message is delivered once, in order, as the concatenation of its
fragments. Missing: peers that mix fragments (see `C18_merges`). -/
theorem C18_reassembly_partial (cl kl lim : Int) (fail : Bool) (ops : List ChanOp)
    (hone : ∀ r ∈ cut [] (letIn (history true cl kl lim fail ops).1),
      OneMessage r ∧ (r.flatMap (·.payload)).length < 2 ^ 31 - 1) :
    Each IsMessage (cut [] (letIn (history true cl kl lim fail ops).1))
      (delivered (history true cl kl lim fail ops).1) := by
  exact aux_each (fun _ _ h => h.message) ((msg_run cl kl lim fail ops).built hone)

/-- C18: whatever the peer does, all fragments of a delivered message but the last one belong to the same
message. Missing: the last one. -/
theorem C18_fragments_partial (cl kl lim : Int) (fail : Bool) (ops : List ChanOp) :
    ∀ r ∈ cut [] (letIn (history true cl kl lim fail ops).1), OneMessage r.dropLast := by
  intro r hr a ha b hb
  obtain ⟨h1, _, h3, h4⟩ := ((msg_run cl kl lim fail ops).runs r hr).same a ha b hb
  exact ⟨h1, h3, h4⟩

/-- C18: with a limit (the larger one of those of the channel and of the connection), the fragments before the last one of a
delivered message do not exceed it, whatever the peer does. Missing: the last one. -/
theorem C18_limit_partial (cl kl lim : Int) (fail : Bool) (ops : List ChanOp) (hp : AllParsed ops)
    (hL : 0 < max cl kl) (hsz : ∀ f, ChanOp.frame f ∈ ops → max cl kl + f.size < 2 ^ 31) :
    (∀ r ∈ cut [] (letIn (history true cl kl lim fail ops).1), (octetsIn r.dropLast : Int) ≤ max cl kl) ∧
    ((history true cl kl lim fail ops).2.shut = false →
      (octetsIn (unfinished [] (letIn (history true cl kl lim fail ops).1)) : Int) ≤ max cl kl) := by
  have hlim : (Chan.init true cl kl lim fail).frameLimit = max cl kl := by
    simp only [Chan.frameLimit, Chan.init]
    (repeat' split) <;> omega
  rw [← hlim] at hL hsz ⊢
  have h := limit_run cl kl lim fail ops hp hL hsz
  refine ⟨h.runs, fun hs => ?_⟩
  have h1 := (msg_run cl kl lim fail ops).previous hs
  have h2 := (h.bytes hs).2
  rw [h1] at h2
  exact h2

/-- Two answers to one message, the second one begun before the first is finished. -/
def mixed : List ChanOp :=
  [.send false, .frame ⟨.ans, 1, 0, true, 0, 2, 0, lit "ab"⟩, .frame ⟨.ans, 1, 0, false, 2, 2, 1, lit "cd"⟩]

theorem aux_mixedParsed : AllParsed mixed := by
  intro f hf
  simp only [mixed, List.mem_cons, ChanOp.frame.injEq, reduceCtorEq, false_or, List.not_mem_nil, or_false] at hf
  rcases hf with h | h <;> subst h <;> exact ⟨by decide, by decide, by decide⟩

/-- Answers 0 and 1 are merged into one frame, numbered 0. -/
theorem C18_merges : (delivered (history true 0 0 0 true mixed).1).map (fun d => (d.type, d.ansno, d.content)) =
    [(.ans, 0, lit "abcd")] := by decide +kernel

/-- An unfinished answer followed by the end of answers: the application gets an ANS frame with the content
of the first fragment, followed by octets that were never sent (a zero and the first letter of "END"), and
no NUL frame. -/
theorem C18_nul_swallowed : (delivered (history true 0 0 0 true
    [.send false, .frame ⟨.ans, 1, 0, true, 0, 2, 0, lit "ab"⟩,
     .frame ⟨.nul, 1, 0, false, 2, 2, 0, [CR, LF]⟩]).1).map (fun d => (d.type, d.content)) =
    [(.ans, lit "ab" ++ wireTail.take 2)] := by decide +kernel

/-- A limit of 3 octets and a message of 4 in two fragments: delivered, and the connection shut down. -/
theorem C18_over_limit : (delivered (history true 3 0 0 true [.frame ⟨.msg, 1, 0, true, 0, 2, 0, lit "ab"⟩,
    .frame ⟨.msg, 1, 0, false, 2, 2, 0, lit "cd"⟩]).1).map (·.content) = [lit "abcd"] ∧
    (history true 3 0 0 true [.frame ⟨.msg, 1, 0, true, 0, 2, 0, lit "ab"⟩,
    .frame ⟨.msg, 1, 0, false, 2, 2, 0, lit "cd"⟩]).2.shut = true := by decide +kernel

theorem aux_nulStep (c1 : Chan) (f : Frame) (hn : f.type = .nul → nulWrong f = false) (hp : ∀ p ∈ c1.previous, p.type ≠ .nul) :
    (∀ d, (c1.assemble f).1 = .delivered d → d.type = .nul → d.body = some [] ∧ d.more = false) ∧
    (∀ p ∈ (c1.assemble f).2.previous, p.type ≠ .nul) := by
  have hm : f.more = true → f.type ≠ .nul := by
    intro hm ht
    have := hn ht
    simp [nulWrong, hm] at this
  have hone : ∀ d, c1.deliverOne f = .delivered d → d.type = .nul → d.body = some [] ∧ d.more = false := by
    intro d hd ht
    simp only [Chan.deliverOne, Outcome.delivered.injEq] at hd
    subst hd
    have h1 := hn ht
    simp only [nulWrong, Bool.or_eq_false_iff, bne_eq_false_iff_eq] at h1
    exact ⟨by simp only [if_pos (Or.inr ht)]; exact h1.1, h1.2⟩
  have hstore : f.more = true → ∀ p ∈ (c1.store f).previous, p.type ≠ .nul := by
    intro hx p hpm
    simp only [Chan.store, List.mem_append, List.mem_singleton] at hpm
    rcases hpm with h | rfl
    · exact hp p h
    · exact hm hx
  simp only [Chan.assemble]
  split
  · rename_i hx
    split
    · split
      · exact ⟨by intro d hd; simp at hd, hstore hx⟩
      · exact ⟨hone, hp⟩
    · split
      · exact ⟨by intro d hd; simp at hd, hstore hx⟩
      · exact ⟨by intro d hd; simp at hd, hp⟩
  · split
    · rename_i hne
      refine ⟨?_, by simp⟩
      intro d hd ht
      exfalso
      cases hpr : c1.previous with
      | nil => exact hne hpr
      | cons a l =>
        have ha := hp a (by rw [hpr]; exact List.mem_cons_self)
        simp only [Chan.deliverStored, Chan.store, hpr, List.cons_append] at hd
        split at hd
        · simp at hd
        · simp only [Outcome.delivered.injEq] at hd
          subst hd
          exact ha ht
    · exact ⟨hone, hp⟩

/-- C18: whatever the peer sends, a NUL frame handed to the application has nothing in it and nothing follows it. -/
theorem C18_nul_empty (cf : Bool) (cl kl lim : Int) (fail : Bool) (ops : List ChanOp) :
    ∀ d ∈ delivered (history cf cl kl lim fail ops).1, d.type = .nul → d.body = some [] ∧ d.more = false := by
  have h := run_inv (I := fun log c => (∀ d ∈ delivered log, d.type = .nul → d.body = some [] ∧ d.more = false) ∧ ∀ p ∈ c.previous, p.type ≠ .nul) (fun _ => True)
    (by
      rintro log c op - ⟨h1, h2⟩
      rw [delivered_append]
      cases op with
      | send more => 
        simp only [Chan.step]
        split
        · exact ⟨by simpa [delivered] using h1, h2⟩
        · exact ⟨by simpa [delivered] using h1, h2⟩
      | answered m => exact ⟨by simpa [delivered, Chan.step] using h1, h2⟩
      | setWindow n => exact ⟨by simpa [delivered, Chan.step] using h1, h2⟩
      | frame f =>
        simp only [Chan.step]
        rcases process_cases c f with ⟨_, h⟩ | ⟨_, c', h, _, hpr⟩ | ⟨c1, hr, h⟩
        · rw [h]; exact ⟨by simpa [delivered] using h1, h2⟩
        · rw [h]; exact ⟨by simpa [delivered] using h1, by rw [hpr]; exact h2⟩
        · rw [h]
          obtain ⟨ha, hb⟩ := aux_nulStep (c1.updateStatus f) f hr.nul (by rw [(updateStatus_keeps c1 f).1, hr.previous]; exact h2)
          refine ⟨?_, hb⟩
          intro d hd
          rcases List.mem_append.1 hd with hd | hd
          · exact h1 d hd
          · cases ho : ((c1.updateStatus f).assemble f).1 with
            | delivered d' =>
              rw [ho] at hd
              simp only [delivered, List.mem_singleton] at hd
              subst hd
              exact ha d ho
            | _ => rw [ho] at hd; simp [delivered] at hd)
    ops [] (Chan.init cf cl kl lim fail) (fun _ _ => trivial) ⟨by simp [delivered], by simp [Chan.init]⟩
  simpa [history] using h.1

/-- A NUL frame with content closes the connection. -/
example : (delivered (history true 0 0 0 true [.send false, .frame ⟨.nul, 1, 0, false, 0, 4, 0, [CR, LF, 65, 66]⟩]).1) = [] ∧
    (delivered (history true 0 0 0 true [.send false, .frame ⟨.nul, 1, 0, false, 0, 2, 0, [CR, LF]⟩]).1).map (·.body) = [some []] := by decide +kernel

theorem C18_statement_false : ¬ C18_statement := by
  intro h
  have h1 := (h 0 0 0 true mixed aux_mixedParsed).2.1
  have e : cut [] (letIn (history true 0 0 0 true mixed).1) =
      [[⟨.ans, 1, 0, true, 0, 2, 0, lit "ab"⟩, ⟨.ans, 1, 0, false, 2, 2, 1, lit "cd"⟩]] := by decide +kernel
  rw [e] at h1
  have h2 := (h1 _ List.mem_cons_self _ List.mem_cons_self _ (List.mem_cons_of_mem _ List.mem_cons_self)).2.2
  exact absurd h2 (by decide)

/-- The hypothesis of `C18_reassembly_partial` on the sample history. -/
example : (cut [] (letIn (history true 0 0 2 true sampleHistory).1)).map (·.length) = [2, 1, 1] ∧
    ∀ r ∈ cut [] (letIn (history true 0 0 2 true sampleHistory).1), OneMessage r := by
  refine ⟨by decide +kernel, ?_⟩
  have e : cut [] (letIn (history true 0 0 2 true sampleHistory).1) =
      [[⟨.rpy, 1, 0, true, 0, 3, 0, lit "one"⟩, ⟨.rpy, 1, 0, false, 3, 4, 0, lit " two"⟩],
       [⟨.ans, 1, 1, false, 7, 1, 0, lit "x"⟩], [⟨.nul, 1, 1, false, 8, 0, 0, []⟩]] := by decide +kernel
  rw [e]
  intro r hr a ha b hb
  simp only [List.mem_cons, List.not_mem_nil, or_false] at hr
  rcases hr with h | h | h <;> subst h <;> simp at ha hb
  · rcases ha with h | h <;> rcases hb with h' | h' <;> subst h <;> subst h' <;> exact ⟨rfl, rfl, rfl⟩
  · subst ha; subst hb; exact ⟨rfl, rfl, rfl⟩
  · subst ha; subst hb; exact ⟨rfl, rfl, rfl⟩

/-- The limit is 3 octets: a third octet fits, a fourth closes the connection before the message is
complete. -/
example : 0 < max (3 : Int) 0 ∧
    (delivered (history true 3 0 0 true [.frame ⟨.msg, 1, 0, true, 0, 2, 0, lit "ab"⟩,
      .frame ⟨.msg, 1, 0, true, 2, 1, 0, lit "c"⟩, .frame ⟨.msg, 1, 0, false, 3, 0, 0, []⟩]).1).length = 1 ∧
    (delivered (history true 3 0 0 true [.frame ⟨.msg, 1, 0, true, 0, 2, 0, lit "ab"⟩,
      .frame ⟨.msg, 1, 0, true, 2, 2, 0, lit "cd"⟩, .frame ⟨.msg, 1, 0, false, 4, 0, 0, []⟩]).1).length = 0 := by
  decide +kernel

/-! ## C46, C47: the outstanding limit -/

/-- C46 in full: on a working connection a message begun with the "more" indication can always be
finished: the call with its last part is not refused, nor does it wait, because of the outstanding limit. -/
def C46_statement : Prop := ∀ (cf : Bool) (cl kl lim : Int) (fail : Bool) (ops : List ChanOp), AllParsed ops →
  (begun false (history cf cl kl lim fail ops).1).length ≤ 2 ^ 31 →
  insideAfter false (history cf cl kl lim fail ops).1 = true →
  ∃ m, ((history cf cl kl lim fail ops).2.out.sendMsg false).1 = .sent m

/-- C46, the part that holds: without a limit, or while there are less outstanding messages than the
limit. The number is that of the message begun. Missing: the limit has been reached. -/
theorem C46_can_finish_partial (cf : Bool) (cl kl lim : Int) (fail : Bool) (ops : List ChanOp) (hp : AllParsed ops)
    (hlen : (begun false (history cf cl kl lim fail ops).1).length ≤ 2 ^ 31)
    (hin : insideAfter false (history cf cl kl lim fail ops).1 = true)
    (hl : lim ≤ 0 ∨ ((history cf cl kl lim fail ops).2.out.outstanding.length : Int) < lim) :
    ∃ m, (begun false (history cf cl kl lim fail ops).1).getLast? = some m ∧
      ((history cf cl kl lim fail ops).2.out.sendMsg false).1 = .sent m := by
  have h := num_run cf cl kl lim fail ops hp hlen
  rcases h.fixed with ⟨_, h2, h3⟩ | ⟨h1, _⟩
  · refine ⟨(history cf cl kl lim fail ops).2.out.lastFixedMore, ?_, ?_⟩
    · show (begun false (history cf cl kl lim fail ops).1).getLast? = _
      have e : begun false (history cf cl kl lim fail ops).1 = _ := h.nums
      obtain ⟨n, hn⟩ : ∃ n, (begun false (history cf cl kl lim fail ops).1).length = n + 1 :=
        ⟨_, (Nat.succ_pred_eq_of_pos h3).symm⟩
      have h2' : (history cf cl kl lim fail ops).2.out.lastFixedMore =
        (begun false (history cf cl kl lim fail ops).1).length - 1 := h2
      have e' : begun false (history cf cl kl lim fail ops).1 =
          (List.range (begun false (history cf cl kl lim fail ops).1).length).map Int.ofNat := e
      rw [hn] at h2' e'
      rw [e', h2', List.range_succ]
      simp
    · have h4 : (history cf cl kl lim fail ops).2.out.limit = lim := h.limit
      have h5 : ¬ ((history cf cl kl lim fail ops).2.out.limit > 0 ∧
          ((history cf cl kl lim fail ops).2.out.outstanding.length : Int) ≥
            (history cf cl kl lim fail ops).2.out.limit) := by rw [h4]; omega
      have h6 : (history cf cl kl lim fail ops).2.out.lastFixedMore ≥ 0 := by
        have h2' : (history cf cl kl lim fail ops).2.out.lastFixedMore =
          (begun false (history cf cl kl lim fail ops).1).length - 1 := h2
        have h3' : 0 < (begun false (history cf cl kl lim fail ops).1).length := h3
        omega
      rw [OutChan.sendMsg, if_neg h5, if_pos h6]
  · have : insideAfter false (history cf cl kl lim fail ops).1 = false := h1
    rw [hin] at this; exact Bool.noConfusion this

/-- With a limit of one message, a message sent in two parts can never be finished. -/
theorem C46_limit_one (cf fail : Bool) (cl kl : Int) (more : Bool) :
    (history cf cl kl 1 fail [.send true]).1 = [.send true (.sent 0)] ∧
    ((history cf cl kl 1 fail [.send true]).2.out.sendMsg more).1 = if fail then .refused else .blocked := by
  cases cf <;> cases fail <;> exact ⟨rfl, rfl⟩

theorem C46_statement_false : ¬ C46_statement := by
  intro h
  obtain ⟨m, hm⟩ := h true 0 0 1 true [.send true] (fun f hf => by simp at hf) (by decide) (by decide)
  rw [(C46_limit_one true true 0 0 false).2] at hm
  exact absurd hm (by simp)

example : insideAfter false (history true 0 0 2 true [.send false, .frame ⟨.rpy, 1, 0, false, 0, 0, 0, []⟩, .send true]).1 = true ∧
    (history true 0 0 2 true [.send false, .frame ⟨.rpy, 1, 0, false, 0, 0, 0, []⟩, .send true]).2.out.outstanding = [1] := by
  decide +kernel

/-- C47 in full: a caller made to wait by the outstanding limit is not left waiting: when nothing is in
progress (no signal on its way, no thread about to continue) and somebody waits, the connection is
working and the limit is reached. -/
def C47_statement : Prop := ∀ (limit : Int) (ops : List SenderOp), (Senders.run (.init limit) ops).waiting ≠ [] →
  (Senders.run (.init limit) ops).woken = [] → (Senders.run (.init limit) ops).due = 0 →
  (Senders.run (.init limit) ops).shut = false ∧
  ((Senders.run (.init limit) ops).out.outstanding.length : Int) ≥ limit

/-- No message is sent in parts. -/
def Whole (ops : List SenderOp) : Prop := SenderOp.call true ∉ ops

/-- What keeps callers from being forgotten. -/
structure aux_SendersInv (limit : Int) (s : Senders) : Prop where
  lim : s.out.limit = limit
  mode : s.out.failOnLimit = false
  whole : ∀ m ∈ s.waiting ++ s.woken, m = false
  fixed : s.out.lastFixedMore < 0
  awake : s.waiting ≠ [] → (s.out.outstanding.length : Int) + s.due + s.woken.length ≥ limit

theorem aux_attempt {limit : Int} {s : Senders} (h1 : s.out.limit = limit) (h2 : s.out.failOnLimit = false)
    (h3 : ∀ m ∈ s.waiting ++ s.woken, m = false) (h4 : s.out.lastFixedMore < 0)
    (h5 : s.waiting ≠ [] → (s.out.outstanding.length : Int) + s.due + s.woken.length + 1 ≥ limit) :
    aux_SendersInv limit (s.attempt false) := by
  by_cases hl : s.out.limit > 0 ∧ (s.out.outstanding.length : Int) ≥ s.out.limit
  · have e : s.out.sendMsg false = (.blocked, s.out) := by
      rw [OutChan.sendMsg, if_pos hl, h2]; rfl
    have e' : s.attempt false = { s with waiting := s.waiting ++ [false] } := by
      simp only [Senders.attempt, e]
    rw [e']
    refine ⟨h1, h2, ?_, h4, fun _ => ?_⟩
    · intro m hm
      simp only [List.mem_append, List.mem_singleton] at hm
      rcases hm with (hm | hm) | hm
      · exact h3 m (List.mem_append_left _ hm)
      · exact hm
      · exact h3 m (List.mem_append_right _ hm)
    · show (s.out.outstanding.length : Int) + s.due + s.woken.length ≥ limit
      omega
  · have hf : ¬ s.out.lastFixedMore ≥ 0 := by omega
    have e : s.out.sendMsg false = (.sent s.out.nextMsgNo.1,
        { s.out.nextMsgNo.2 with outstanding := s.out.outstanding ++ [s.out.nextMsgNo.1] }) := by
      rw [OutChan.sendMsg, if_neg hl, if_neg hf]
      simp [OutChan.nextMsgNo]
    have e' : s.attempt false = { s with out :=
        { s.out.nextMsgNo.2 with outstanding := s.out.outstanding ++ [s.out.nextMsgNo.1] } } := by
      simp only [Senders.attempt, e]
    rw [e']
    refine ⟨h1, h2, h3, h4, fun hw => ?_⟩
    have := h5 hw
    simp only [List.length_append, List.length_cons, List.length_nil]
    omega

theorem aux_senders_step {limit : Int} {s : Senders} (h : aux_SendersInv limit s) (op : SenderOp)
    (ho : op ≠ .call true) : aux_SendersInv limit (s.step op) := by
  cases op with
  | call more =>
    have hm : more = false := by cases more with
      | false => rfl
      | true => exact absurd rfl ho
    subst hm
    simp only [Senders.step]
    split
    · exact h
    · exact aux_attempt h.lim h.mode h.whole h.fixed (fun hw => by have := h.awake hw; omega)
  | reply =>
    simp only [Senders.step]
    split
    · exact h
    · split
      · exact h
      · rename_i hr
        refine ⟨h.lim, h.mode, h.whole, h.fixed, fun hw => ?_⟩
        have := h.awake hw
        rw [hr] at this
        simp only [List.length_cons] at this
        simp only
        omega
  | signal i =>
    simp only [Senders.step]
    split
    · exact h
    · rename_i hd
      split
      · split
        · rename_i hw
          exact ⟨h.lim, h.mode, h.whole, h.fixed, fun hw' => absurd hw hw'⟩
        · exact h
      · rename_i m hm
        have hmem : m ∈ s.waiting := List.mem_of_getElem? hm
        refine ⟨h.lim, h.mode, ?_, h.fixed, fun _ => ?_⟩
        · intro x hx
          simp only [List.mem_append, List.mem_singleton] at hx
          rcases hx with hx | hx | hx
          · exact h.whole x (List.mem_append_left _ ((List.eraseIdx_sublist ..).subset hx))
          · exact h.whole x (List.mem_append_right _ hx)
          · rw [hx]; exact h.whole m (List.mem_append_left _ hmem)
        · have := h.awake (List.ne_nil_of_mem hmem)
          simp only [List.length_append, List.length_cons, List.length_nil]
          omega
  | retry i =>
    simp only [Senders.step]
    split
    · exact h
    · rename_i m hm
      have hmem : m ∈ s.woken := List.mem_of_getElem? hm
      have hm0 : m = false := h.whole m (List.mem_append_right _ hmem)
      subst hm0
      obtain ⟨hi, _⟩ := List.getElem?_eq_some_iff.mp hm
      refine aux_attempt h.lim h.mode ?_ h.fixed ?_
      · intro x hx
        rcases List.mem_append.mp hx with hx | hx
        · exact h.whole x (List.mem_append_left _ hx)
        · exact h.whole x (List.mem_append_right _ ((List.eraseIdx_sublist ..).subset hx))
      · intro hw
        have := h.awake hw
        simp only [List.length_eraseIdx_of_lt hi]
        omega
  | shutdown => exact ⟨h.lim, h.mode, h.whole, h.fixed, h.awake⟩

/-- C47, the part that holds: as long as the connection works and messages are not sent in parts, no caller
is forgotten: when nothing is in progress and somebody waits, the limit is reached. Missing: broken
connections (`C47_broken_connection`) and messages in parts (C46). -/
theorem C47_not_forgotten_partial (limit : Int) (ops : List SenderOp) (hw : Whole ops)
    (hwait : (Senders.run (.init limit) ops).waiting ≠ []) (hwoken : (Senders.run (.init limit) ops).woken = [])
    (hdue : (Senders.run (.init limit) ops).due = 0) :
    ((Senders.run (.init limit) ops).out.outstanding.length : Int) ≥ limit := by
  have key : ∀ (ops : List SenderOp) (s : Senders), Whole ops → aux_SendersInv limit s →
      aux_SendersInv limit (s.run ops) := by
    intro ops
    induction ops with
    | nil => intro s _ h; exact h
    | cons op ops ih =>
      intro s hw h
      exact ih (s.step op) (fun hx => hw (List.mem_cons_of_mem _ hx))
        (aux_senders_step h op (fun e => hw (e ▸ List.mem_cons_self)))
  have h := key ops (.init limit) hw
    ⟨rfl, rfl, fun m hm => by simp [Senders.init] at hm, show (-1 : Int) < 0 by decide, fun h => absurd rfl h⟩
  have := h.awake hwait
  rw [hwoken, hdue] at this
  simpa using this

/-- Two callers, limit one: the second waits, and is released by the reply to the first. -/
example : (Senders.run (.init 1) [.call false, .call false]).waiting = [false] ∧
    (Senders.run (.init 1) [.call false, .call false, .reply, .signal 0, .retry 0]).waiting = [] ∧
    (Senders.run (.init 1) [.call false, .call false, .reply, .signal 0, .retry 0]).out.outstanding = [1] := by
  decide +kernel

/-- Once the connection is broken, a waiting caller stays there whatever happens next (the calls woken
before do not count). -/
theorem C47_broken_connection (s : Senders) (hs : s.shut = true) (hd : s.due = 0) (hw : s.woken = [])
    (ops : List SenderOp) : (s.run ops).waiting = s.waiting := by
  induction ops with
  | nil => rfl
  | cons op ops ih =>
    have e : s.step op = s := by
      cases op with
      | call more => simp [Senders.step, hs]
      | reply => simp [Senders.step, hs]
      | signal i => simp [Senders.step, hd]
      | retry i => simp [Senders.step, hw]
      | shutdown =>
        simp only [Senders.step]
        rw [← hs]
    show ((s.step op).run ops).waiting = _
    rw [e]; exact ih

theorem C47_statement_false : ¬ C47_statement := by
  intro h
  have := (h 1 [.call false, .call false, .shutdown] (by decide) (by decide) (by decide)).1
  exact absurd this (by decide)

end Verif.Props
