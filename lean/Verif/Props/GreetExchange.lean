import Verif.Spec.Greetings
import Verif.Props.Mime
/-!
# C50: the greetings received, and the exchange
-/
namespace Verif.Props
open Verif.Model Verif.Spec

/-- What follows the content in memory: a frame received, or one joined from several. -/
def tailOf (fs : List VFrame) : List Byte := if fs.length = 1 then wireTail else builtTail

/-- What the fragments carry has the type of BEEP management messages, as `vortex_frame_get_content_type` tells, and
this is its body. -/
def beepContent (fs : List VFrame) (body : List Byte) : Prop :=
  greetingType (tailOf fs) (contentOf fs) = some (lit "application/beep+xml") ∧ mimeBody (tailOf fs) (contentOf fs) = some body

/-- The frame made of the fragments `done`, all of which announce more. -/
structure aux_gx_Joined (done : List VFrame) (p : VFrame) : Prop where
  some : done ≠ []
  kind : ∀ f ∈ done, f.type = p.type ∧ f.channel = p.channel ∧ f.msgno = p.msgno ∧ f.ansno = p.ansno
  mime : p.mimeSize = 0
  seq : p.seqno < 4294967296
  order : consecutive p.seqno done
  payload : p.payload = Option.some (contentOf done)
  size : p.size = (contentOf done).length
  more : p.more = true
  mores : ∀ f ∈ done, f.more = true
  wire : ∀ f ∈ done, fromWire f

theorem aux_gx_consecutive : ∀ (a : List VFrame) (n : Nat) (b : List VFrame), (∀ f ∈ a, fromWire f) → n < 4294967296 →
    (consecutive n (a ++ b) ↔ consecutive n a ∧ consecutive ((n + (contentOf a).length) % 4294967296) b)
  | [], n, b, _, hn => by simp [consecutive, contentOf, Nat.mod_eq_of_lt hn]
  | f :: a, n, b, hw, hn => by
    obtain ⟨_, _, p, hp, hs⟩ := hw f List.mem_cons_self
    have e : (contentOf (f :: a)).length = f.size.toNat + (contentOf a).length := by
      simp [contentOf, hp, hs]
    have ih := aux_gx_consecutive a ((n + f.size.toNat) % 4294967296) b (fun g hg => hw g (List.mem_cons_of_mem _ hg)) (Nat.mod_lt _ (by decide))
    simp only [List.cons_append, consecutive, ih, e, and_assoc]
    rw [show ((n + f.size.toNat) % 4294967296 + (contentOf a).length) % 4294967296 = (n + (f.size.toNat + (contentOf a).length)) % 4294967296 by omega]

theorem aux_gx_joinable {done p f} (hj : aux_gx_Joined done p) (hw : fromWire f) :
    p.joinable f = true ↔ f.type = p.type ∧ f.channel = p.channel ∧ f.msgno = p.msgno ∧ f.ansno = p.ansno ∧
      f.seqno = (p.seqno + (contentOf done).length) % 4294967296 := by
  have e : u32 ((p.seqno : Int) + p.size + p.mimeSize) = (p.seqno + (contentOf done).length) % 4294967296 := by
    rw [hj.size, hj.mime]
    unfold u32
    omega
  unfold VFrame.joinable
  rw [e, hj.more]
  simp only [Bool.not_true, Bool.false_and, Bool.false_eq_true, if_false]
  constructor
  · intro h
    repeat (split at h; · cases h)
    grind
  · rintro ⟨h1, h2, h3, h4, h5⟩
    grind

/-- Joining: the frame, whose `more` flag is the one of the last fragment. -/
theorem aux_gx_join {done p f} (hj : aux_gx_Joined done p) (hw : fromWire f) (h : p.joinable f = true) :
    ∃ g, p.join f = some g ∧ g.more = f.more ∧ g.type = p.type ∧ g.channel = p.channel ∧ g.msgno = p.msgno ∧ g.seqno = p.seqno ∧
      g.payload = some (contentOf (done ++ [f])) ∧ (f.more = true → aux_gx_Joined (done ++ [f]) g) := by
  have h2 := (aux_gx_joinable hj hw).mp h
  have hw' := hw
  obtain ⟨hw1, hw2, q, hq, hs⟩ := hw
  have hc : contentOf (done ++ [f]) = contentOf done ++ q := by simp [contentOf, hq]
  unfold VFrame.join
  rw [if_pos h]
  refine ⟨_, rfl, by rw [hj.more]; rfl, rfl, rfl, rfl, rfl, by rw [hj.payload, hq, hc]; rfl, fun hm => ?_⟩
  refine ⟨by simp, ?_, hj.mime, hj.seq, ?_, by rw [hj.payload, hq, hc]; rfl, ?_, by rw [hj.more, hm]; rfl, ?_, ?_⟩
  · intro x hx
    rcases List.mem_append.mp hx with hx | hx
    · exact hj.kind x hx
    · rw [List.mem_singleton.mp hx]; exact ⟨h2.1, h2.2.1, h2.2.2.1, h2.2.2.2.1⟩
  · exact (aux_gx_consecutive done _ [f] hj.wire hj.seq).mpr ⟨hj.order, h2.2.2.2.2, trivial⟩
  · show p.size + f.size = _
    rw [hj.size, hs, hc]; simp
  · intro x hx
    rcases List.mem_append.mp hx with hx | hx
    · exact hj.mores x hx
    · rw [List.mem_singleton.mp hx]; exact hm
  · intro x hx
    rcases List.mem_append.mp hx with hx | hx
    · exact hj.wire x hx
    · rw [List.mem_singleton.mp hx]; exact hw'

theorem aux_gx_first {f : VFrame} (hw : fromWire f) (hm : f.more = true) : aux_gx_Joined [f] f := by
  have hw' := hw
  obtain ⟨hw1, hw2, q, hq, hs⟩ := hw
  have hc : contentOf [f] = q := by simp [contentOf, hq]
  refine ⟨by simp, ?_, hw1, hw2, ⟨rfl, trivial⟩, by rw [hc, hq], by rw [hs, hc], hm, ?_, ?_⟩
  all_goals
    intro x hx
    rw [List.mem_singleton.mp hx]
  · exact ⟨rfl, rfl, rfl, rfl⟩
  · exact hm
  · exact hw'

theorem aux_gx_reply (tl : List Byte) (f : VFrame) (body : List Byte) :
    greetingReply tl f = .accepted body ↔ (f.type = .rpy ∧ f.channel = 0 ∧ f.msgno = 0 ∧ f.seqno = 0) ∧
      greetingType tl (f.payload.getD []) = some (lit "application/beep+xml") ∧ mimeBody tl (f.payload.getD []) = some body := by
  unfold greetingReply
  dsimp only
  cases h1 : greetingType tl (f.payload.getD []) with
  | none => simp
  | some t =>
    simp only
    by_cases h2 : f.type = .rpy
    · rw [if_neg (by rw [h2]; decide), if_neg (by rw [h2]; decide)]
      by_cases h3 : f.channel ≠ 0 ∨ f.msgno ≠ 0 ∨ f.seqno ≠ 0
      · rw [if_pos h3]
        constructor
        · intro h; cases h
        · rintro ⟨⟨_, a, b, c⟩, _⟩; grind
      · rw [if_neg h3]
        by_cases h4 : t = lit "application/beep+xml"
        · rw [if_neg (by rw [h4]; simp)]
          cases h5 : mimeBody tl (f.payload.getD []) with
          | none => simp
          | some b =>
            simp only [GreetStep.accepted.injEq, Option.some.injEq]
            grind
        · rw [if_pos h4]
          simp [h4]
    · constructor
      · intro h
        split at h
        · cases h
        · cases h
      · rintro ⟨⟨a, _⟩, _⟩; exact absurd a h2

theorem aux_gx_reply_not_waiting (tl : List Byte) (f : VFrame) : greetingReply tl f ≠ .waiting := by
  unfold greetingReply
  dsimp only
  repeat' split
  all_goals simp

theorem aux_gx_done {process : Option VFrame → VFrame → GreetStep × Option VFrame} {st f r} (fs : List VFrame) (h : process st f = (r, none)) (hn : r ≠ .waiting) :
    greetingRun process st (f :: fs) = (r, none, fs) := by
  unfold greetingRun
  rw [h]
  cases r <;> first | rfl | exact absurd rfl hn

theorem aux_gx_kind {done p ws} (hj : aux_gx_Joined done p) (h : FirstReply (done ++ ws)) :
    p.type = .rpy ∧ p.channel = 0 ∧ p.msgno = 0 ∧ p.seqno = 0 := by
  obtain ⟨d, ds, rfl⟩ := List.exists_cons_of_ne_nil hj.some
  have k1 := hj.kind d List.mem_cons_self
  have k2 := h.kind d (by simp)
  have k3 := h.order
  have k4 := hj.order
  simp only [List.cons_append, consecutive] at k3 k4
  grind

/-- The client, `done` being pending. -/
theorem aux_gx_client_pending (body : List Byte) : ∀ (fs : List VFrame) (done : List VFrame) (p : VFrame), aux_gx_Joined done p →
    (∀ f ∈ fs, fromWire f) → ∀ q rest, greetingRun clientGreeting (some p) fs = (.accepted body, q, rest) ↔
      q = none ∧ ∃ ws, ws ≠ [] ∧ fs = ws ++ rest ∧ FirstReply (done ++ ws) ∧ beepContent (done ++ ws) body := by
  intro fs
  induction fs with
  | nil =>
    intro done p hj _ q rest
    constructor
    · intro h; simp [greetingRun] at h
    · rintro ⟨_, ws, h1, h2, _⟩
      cases ws with
      | nil => exact absurd rfl h1
      | cons a ws => cases h2
  | cons f fs ih =>
    intro done p hj hw q rest
    have hwf := hw f List.mem_cons_self
    have hwr : ∀ g ∈ fs, fromWire g := fun g hg => hw g (List.mem_cons_of_mem _ hg)
    by_cases hjo : p.joinable f = true
    · obtain ⟨g, g1, g2, g3, g4, g5, g6, g7, g8⟩ := aux_gx_join hj hwf hjo
      have h2 := (aux_gx_joinable hj hwf).mp hjo
      cases hm : f.more with
      | true =>
        have e : greetingRun clientGreeting (some p) (f :: fs) = greetingRun clientGreeting (some g) fs := by
          simp only [greetingRun, clientGreeting, g1, g2, hm, if_true]
        rw [e, ih _ g (g8 hm) hwr q rest]
        constructor
        · rintro ⟨h1, ws, h3, h4, h5, h6⟩
          exact ⟨h1, f :: ws, by simp, by rw [h4]; rfl, by simpa using h5, by simpa using h6⟩
        · rintro ⟨h1, ws, h3, h4, h5, h6⟩
          obtain ⟨w, ws, rfl⟩ := List.exists_cons_of_ne_nil h3
          simp only [List.cons_append, List.cons.injEq] at h4
          obtain ⟨rfl, h4⟩ := h4
          refine ⟨h1, ws, ?_, h4, by simpa using h5, by simpa using h6⟩
          rintro rfl
          have := h5.last f (by simp)
          rw [hm] at this; cases this
      | false =>
        have e : greetingRun clientGreeting (some p) (f :: fs) = (greetingReply builtTail g, none, fs) := by
          exact aux_gx_done fs (by simp [clientGreeting, g1, g2, hm]) (aux_gx_reply_not_waiting builtTail g)
        rw [e]
        have hlen : (done ++ [f]).length ≠ 1 := by
          have := List.length_pos_iff.mpr hj.some
          rw [List.length_append, List.length_singleton]; omega
        have htl : tailOf (done ++ [f]) = builtTail := by unfold tailOf; rw [if_neg hlen]
        simp only [Prod.mk.injEq, aux_gx_reply, g3, g4, g5, g6, g7, Option.getD_some]
        constructor
        · rintro ⟨⟨hk, ha, hb⟩, hq, rfl⟩
          refine ⟨hq.symm, [f], by simp, rfl, ⟨by simp, ?_, ?_, ?_, ?_, ?_⟩, ?_⟩
          · intro x hx
            rcases List.mem_append.mp hx with hx | hx
            · have := hj.kind x hx; grind
            · rw [List.mem_singleton.mp hx]; grind
          · have ha : ∀ x ∈ done ++ [f], x.ansno = p.ansno := by
              intro x hx
              rcases List.mem_append.mp hx with hx | hx
              · exact (hj.kind x hx).2.2.2
              · rw [List.mem_singleton.mp hx]; exact h2.2.2.2.1
            intro x hx y hy
            rw [ha x hx, ha y hy]
          · have := (aux_gx_consecutive done p.seqno [f] hj.wire hj.seq).mpr ⟨hj.order, h2.2.2.2.2, trivial⟩
            rwa [hk.2.2.2] at this
          · rw [List.dropLast_concat]; exact hj.mores
          · intro x hx; simp at hx; rw [← hx]; exact hm
          · unfold beepContent; rw [htl]; exact ⟨ha, hb⟩
        · rintro ⟨h1, ws, h3, h4, h5, h6⟩
          obtain ⟨w, ws, rfl⟩ := List.exists_cons_of_ne_nil h3
          simp only [List.cons_append, List.cons.injEq] at h4
          obtain ⟨rfl, h4⟩ := h4
          have hk := aux_gx_kind hj h5
          have hws : ws = [] := by
            cases ws with
            | nil => rfl
            | cons w ws =>
              have := h5.more f (by simp [List.dropLast_append_of_ne_nil, List.dropLast])
              rw [hm] at this; cases this
          subst hws
          unfold beepContent at h6
          rw [htl] at h6
          exact ⟨⟨hk, h6⟩, h1.symm, h4⟩
    · have e : greetingRun clientGreeting (some p) (f :: fs) = (.refused, none, fs) := by
        have : p.join f = none := by unfold VFrame.join; rw [if_neg hjo]
        simp only [greetingRun, clientGreeting, this]
      rw [e]
      constructor
      · intro h; simp at h
      · rintro ⟨h1, ws, h3, h4, h5, h6⟩
        obtain ⟨w, ws, rfl⟩ := List.exists_cons_of_ne_nil h3
        simp only [List.cons_append, List.cons.injEq] at h4
        obtain ⟨rfl, h4⟩ := h4
        refine absurd ((aux_gx_joinable hj hwf).mpr ?_) hjo
        have hk := aux_gx_kind hj h5
        have k2 := h5.kind f (by simp)
        obtain ⟨d, ds, hd⟩ := List.exists_cons_of_ne_nil hj.some
        have k3 := h5.answer f (by simp) d (by simp [hd])
        have k4 := (hj.kind d (by simp [hd])).2.2.2
        have k5 := h5.order
        rw [← hk.2.2.2, aux_gx_consecutive done p.seqno _ hj.wire hj.seq] at k5
        have k6 := k5.2
        simp only [consecutive] at k6
        grind

/-- **C50**, the initiator: whatever frames come, it takes as greetings of the peer exactly the fragments of one
complete reply to message 0 of channel 0, in order, the first thing sent on that channel, with the type of BEEP
management messages; and their XML text is what follows the headers. -/
theorem C50_initiator (fs : List VFrame) (hw : ∀ f ∈ fs, fromWire f) (body : List Byte) (q : Option VFrame) (rest : List VFrame) :
    greetingRun clientGreeting none fs = (.accepted body, q, rest) ↔
      q = none ∧ ∃ ws, fs = ws ++ rest ∧ FirstReply ws ∧ beepContent ws body := by
  cases fs with
  | nil =>
    constructor
    · intro h; simp [greetingRun] at h
    · rintro ⟨_, ws, h2, h3, _⟩
      cases ws with
      | nil => exact absurd rfl h3.some
      | cons a ws => cases h2
  | cons f fs =>
    have hwf := hw f List.mem_cons_self
    have hwr : ∀ g ∈ fs, fromWire g := fun g hg => hw g (List.mem_cons_of_mem _ hg)
    cases hm : f.more with
    | true =>
      have e : greetingRun clientGreeting none (f :: fs) = greetingRun clientGreeting (some f) fs := by
        simp only [greetingRun, clientGreeting, hm, if_true]
      rw [e, aux_gx_client_pending body fs [f] f (aux_gx_first hwf hm) hwr q rest]
      constructor
      · rintro ⟨h1, ws, h3, h4, h5, h6⟩
        exact ⟨h1, f :: ws, by rw [h4]; rfl, by simpa using h5, by simpa using h6⟩
      · rintro ⟨h1, ws, h4, h5, h6⟩
        obtain ⟨w, ws, rfl⟩ := List.exists_cons_of_ne_nil h5.some
        simp only [List.cons_append, List.cons.injEq] at h4
        obtain ⟨rfl, h4⟩ := h4
        refine ⟨h1, ws, ?_, h4, by simpa using h5, by simpa using h6⟩
        rintro rfl
        have := h5.last f (by simp)
        rw [hm] at this; cases this
    | false =>
      have e : greetingRun clientGreeting none (f :: fs) = (greetingReply wireTail f, none, fs) := by
        exact aux_gx_done fs (by simp [clientGreeting, hm]) (aux_gx_reply_not_waiting wireTail f)
      rw [e]
      obtain ⟨hw1, hw2, p, hp, hs⟩ := hwf
      have hc : contentOf [f] = f.payload.getD [] := by simp [contentOf]
      simp only [Prod.mk.injEq, aux_gx_reply]
      constructor
      · rintro ⟨⟨hk, ha, hb⟩, hq, rfl⟩
        refine ⟨hq.symm, [f], rfl, ⟨by simp, ?_, ?_, ⟨hk.2.2.2, trivial⟩, by simp, ?_⟩, ?_⟩
        · intro x hx; rw [List.mem_singleton.mp hx]; exact ⟨hk.1, hk.2.1, hk.2.2.1⟩
        · intro x hx y hy; rw [List.mem_singleton.mp hx, List.mem_singleton.mp hy]
        · intro x hx; simp at hx; rw [← hx]; exact hm
        · unfold beepContent; rw [hc]; exact ⟨ha, hb⟩
      · rintro ⟨h1, ws, h4, h5, h6⟩
        obtain ⟨w, ws, rfl⟩ := List.exists_cons_of_ne_nil h5.some
        simp only [List.cons_append, List.cons.injEq] at h4
        obtain ⟨rfl, h4⟩ := h4
        have hws : ws = [] := by
          cases ws with
          | nil => rfl
          | cons w ws =>
            have := h5.more f (by simp [List.dropLast])
            rw [hm] at this; cases this
        subst hws
        unfold beepContent at h6
        rw [hc] at h6
        have k := h5.kind f (by simp)
        exact ⟨⟨⟨k.1, k.2.1, k.2.2, h5.order.1⟩, h6⟩, h1.symm, h4⟩

/-- Content with the header the library writes is such a content, in one frame or in several. -/
theorem aux_gx_content (fs : List VFrame) (body : List Byte)
    (h : contentOf fs = headerBlock [(lit "Content-Type", lit "application/beep+xml")] ++ body) : beepContent fs body := by
  have hx : ∀ x ∈ [(lit "Content-Type", lit "application/beep+xml")], HeaderName x.1 ∧ HeaderValue x.2 := by
    intro x hx
    rw [List.mem_singleton.mp hx]
    refine ⟨⟨by decide, by decide, by decide +kernel⟩, by decide +kernel, ?_, ?_⟩
    · intro b hb; simp [lit] at hb; subst hb; decide
    · intro b hb; simp [lit] at hb; subst hb; decide
  have ht : tailOf fs = wireTail ∨ tailOf fs = builtTail := by unfold tailOf; split <;> simp
  obtain ⟨r1, r2⟩ := C22_round_trip (tailOf fs) ht _ body hx
  unfold beepContent
  rw [h]
  refine ⟨?_, r2⟩
  unfold greetingType
  rw [r1]
  decide +kernel

/-- **C50**, both sides: the fragments of such a reply, however the peer cut it, are accepted. -/
theorem C50_accepted (ws : List VFrame) (hw : ∀ f ∈ ws, fromWire f) (h : FirstReply ws) (body : List Byte)
    (hc : contentOf ws = headerBlock [(lit "Content-Type", lit "application/beep+xml")] ++ body) :
    greetingRun clientGreeting none ws = (.accepted body, none, []) ∧
    greetingRun listenerGreeting none ws = (.accepted body, none, []) := by
  have h1 := (C50_initiator ws hw body none []).mpr ⟨rfl, ws, by simp, h, aux_gx_content ws body hc⟩
  refine ⟨h1, ?_⟩
  have same : ∀ (fs : List VFrame) (p : Option VFrame), greetingRun clientGreeting p fs = (.accepted body, none, []) →
      greetingRun listenerGreeting p fs = (.accepted body, none, []) := by
    intro fs
    induction fs with
    | nil => intro p h; simp [greetingRun] at h
    | cons f fs ih =>
      intro p h
      cases p with
      | none =>
        cases hm : f.more with
        | true =>
          simp only [greetingRun, clientGreeting, listenerGreeting, hm, if_true] at h ⊢
          exact ih _ h
        | false =>
          have hn := aux_gx_reply_not_waiting wireTail f
          rw [aux_gx_done (process := clientGreeting) (st := none) fs (r := greetingReply wireTail f) (by simp [clientGreeting, hm]) hn] at h
          rw [aux_gx_done (process := listenerGreeting) (st := none) fs (r := greetingReply wireTail f) (by simp [listenerGreeting, hm]) hn, h]
      | some p =>
        cases hg : p.join f with
        | none => simp [greetingRun, clientGreeting, hg] at h
        | some g =>
          cases hm : g.more with
          | true =>
            simp only [greetingRun, clientGreeting, listenerGreeting, hg, hm, if_true] at h ⊢
            exact ih _ h
          | false =>
            have hn := aux_gx_reply_not_waiting builtTail g
            rw [aux_gx_done (process := clientGreeting) (st := some p) fs (r := greetingReply builtTail g) (by simp [clientGreeting, hg, hm]) hn] at h
            rw [aux_gx_done (process := listenerGreeting) (st := some p) fs (r := greetingReply builtTail g) (by simp [listenerGreeting, hg, hm]) hn, h]
  exact same ws none h1

/-- **C50**, the listener, partial: what it accepts are the last frames received, which are such a reply. Missing: that
nothing else came before, see `C50_broken_greeting_forgotten`. -/
theorem C50_listener_partial (fs : List VFrame) (hw : ∀ f ∈ fs, fromWire f) (body : List Byte) (q : Option VFrame)
    (rest : List VFrame) (h : greetingRun listenerGreeting none fs = (.accepted body, q, rest)) :
    ∃ before ws, fs = before ++ ws ++ rest ∧ FirstReply ws ∧ beepContent ws body := by
  have gen : ∀ (fs : List VFrame), (∀ f ∈ fs, fromWire f) →
      (greetingRun listenerGreeting none fs = (.accepted body, q, rest) →
        ∃ before ws, fs = before ++ ws ++ rest ∧ FirstReply ws ∧ beepContent ws body) ∧
      (∀ done p, aux_gx_Joined done p → greetingRun listenerGreeting (some p) fs = (.accepted body, q, rest) →
        ∃ before ws, done ++ fs = before ++ ws ++ rest ∧ FirstReply ws ∧ beepContent ws body) := by
    intro fs
    induction fs with
    | nil =>
      intro _
      exact ⟨(fun h => by simp [greetingRun] at h), fun _ _ _ h => by simp [greetingRun] at h⟩
    | cons f fs ih =>
      intro hw
      have hwf := hw f List.mem_cons_self
      have hwr : ∀ g ∈ fs, fromWire g := fun g hg => hw g (List.mem_cons_of_mem _ hg)
      refine ⟨fun h => ?_, fun done p hj h => ?_⟩
      · cases hm : f.more with
        | true =>
          have e : greetingRun listenerGreeting none (f :: fs) = greetingRun listenerGreeting (some f) fs := by
            simp only [greetingRun, listenerGreeting, hm, if_true]
          rw [e] at h
          exact (ih hwr).2 [f] f (aux_gx_first hwf hm) h
        | false =>
          have e : greetingRun listenerGreeting none (f :: fs) = greetingRun clientGreeting none (f :: fs) := by
            have hn := aux_gx_reply_not_waiting wireTail f
            rw [aux_gx_done (process := clientGreeting) (st := none) fs (r := greetingReply wireTail f) (by simp [clientGreeting, hm]) hn, aux_gx_done (process := listenerGreeting) (st := none) fs (r := greetingReply wireTail f) (by simp [listenerGreeting, hm]) hn]
          rw [e] at h
          obtain ⟨_, ws, h1, h2, h3⟩ := (C50_initiator _ hw body q rest).mp h
          exact ⟨[], ws, by simpa using h1, h2, h3⟩
      · by_cases hjo : p.joinable f = true
        · obtain ⟨g, g1, g2, _, _, _, _, _, g8⟩ := aux_gx_join hj hwf hjo
          cases hm : f.more with
          | true =>
            have e : greetingRun listenerGreeting (some p) (f :: fs) = greetingRun listenerGreeting (some g) fs := by
              simp only [greetingRun, listenerGreeting, g1, g2, hm, if_true]
            rw [e] at h
            obtain ⟨b, ws, h1, h2, h3⟩ := (ih hwr).2 _ g (g8 hm) h
            exact ⟨b, ws, by rw [← h1]; simp, h2, h3⟩
          | false =>
            have e : greetingRun listenerGreeting (some p) (f :: fs) = greetingRun clientGreeting (some p) (f :: fs) := by
              have hn := aux_gx_reply_not_waiting builtTail g
              rw [aux_gx_done (process := clientGreeting) (st := some p) fs (r := greetingReply builtTail g) (by simp [clientGreeting, g1, g2, hm]) hn, aux_gx_done (process := listenerGreeting) (st := some p) fs (r := greetingReply builtTail g) (by simp [listenerGreeting, g1, g2, hm]) hn]
            rw [e] at h
            obtain ⟨_, ws, _, h1, h2, h3⟩ := (aux_gx_client_pending body _ done p hj hw q rest).mp h
            exact ⟨[], done ++ ws, by rw [h1]; simp, h2, h3⟩
        · have e : greetingRun listenerGreeting (some p) (f :: fs) = greetingRun listenerGreeting none fs := by
            have : p.join f = none := by unfold VFrame.join; rw [if_neg hjo]
            simp only [greetingRun, listenerGreeting, this]
          rw [e] at h
          obtain ⟨b, ws, h1, h2, h3⟩ := (ih hwr).1 h
          exact ⟨done ++ f :: b, ws, by rw [h1]; simp, h2, h3⟩
  exact (gen fs hw).1 h

/-- A fragment of a reply to message 0 of channel 0. -/
def greetingFragment (more : Bool) (seqno : Nat) (content : List Byte) : VFrame :=
  ⟨.rpy, 0, 0, more, seqno, content.length, 0, 0, some content, none, none⟩

-- two fragments
example : FirstReply [greetingFragment true 0 (lit "Content-Type: application/beep+xml\r"), greetingFragment false 35 (lit "\n\r\n<greeting />")] ∧
    contentOf [greetingFragment true 0 (lit "Content-Type: application/beep+xml\r"), greetingFragment false 35 (lit "\n\r\n<greeting />")] =
      headerBlock [(lit "Content-Type", lit "application/beep+xml")] ++ lit "<greeting />" := by
  refine ⟨⟨by simp, by decide, by decide, ?_, by decide, by decide⟩, by decide +kernel⟩
  unfold consecutive consecutive consecutive
  decide +kernel

/-- A fragment, then a message that is no part of it: the listener forgets both and takes what comes next. -/
theorem C50_broken_greeting_forgotten :
    greetingRun listenerGreeting none
      [greetingFragment true 0 (lit "Content-Type: "), { greetingFragment false 900 (lit "x") with type := .msg, channel := 7 },
        greetingFragment false 0 (lit "Content-Type: application/beep+xml\r\n\r\n<greeting />")] =
      (.accepted (lit "<greeting />"), none, []) := by decide +kernel

/-! ### The exchange -/

/-- The content of a management message. -/
def beepMessage (text : List Byte) : List Byte := headerBlock [(lit "Content-Type", lit "application/beep+xml")] ++ text

/-- The property: whatever greetings of up to 5100 octets (what the library builds) the two sides have, they end with
both sides having those of the other. -/
def C50_statement : Prop :=
  ∀ (early : Bool) (c l : List Byte), c.length ≤ 5100 → l.length ≤ 5100 → ∀ ops,
    let link := GreetLink.run early (beepMessage l) (.init early (beepMessage c) (beepMessage l)) ops
    greetAtRest early (beepMessage l) link → link.client.out = .accepted l ∧ link.listener.out = .accepted c

/-- The content is what `vortex_channel_send_rpy` makes of the text on channel 0. -/
theorem aux_gx_beepMessage (text : List Byte) :
    mimeContent ⟨true, some (lit "application/beep+xml"), none⟩ text = some (beepMessage text) :=
  C21_content_partial (some (lit "application/beep+xml")) none (.inl rfl) text

def aux_gx_frame (c : List Byte) : Frame := ⟨.rpy, 0, 0, false, 0, c.length, 0, c⟩

theorem aux_gx_round (c : List Byte) (h0 : 0 < c.length) (h : c.length ≤ 4096) :
    (SendChan.init.queue ⟨.rpy, 0, 0, 0, false, c⟩).round = some (⟨SendWin.init.advance c.length, []⟩, some (aux_gx_frame c)) := by
  have e : SendWin.init.nextFrameSize 0 c.length SendWin.init.maxSeqNo = c.length := by
    unfold SendWin.nextFrameSize
    have : SendWin.init.maxSeqNo = 4095 := by decide
    rw [this]
    have : SendWin.init.windowSize = 4096 := rfl
    rw [this, if_pos (by decide)]
    have : i32 (u32 (((4095 : Nat) : Int) - ((0 : Nat) : Int) + 1)) = 4096 := by decide
    rw [this]
    dsimp only
    omega
  unfold SendChan.round
  have hst : (SendChan.init.queue ⟨.rpy, 0, 0, 0, false, c⟩).win.stalled = false := (show SendWin.init.stalled = false by decide)
  rw [hst, if_neg (by decide)]
  unfold SendChan.emit
  simp only [SendChan.init, SendChan.queue, List.nil_append]
  unfold sendRound
  have l0 : SendWin.init.lastSeq = 0 := rfl
  simp only [l0, e]
  rw [if_neg (by simp), if_neg (by omega)]
  simp [aux_gx_frame]

theorem aux_gx_round_empty (w : SendWin) : (⟨w, []⟩ : SendChan).round = some (⟨w, []⟩, none) := by
  unfold SendChan.round SendChan.emit
  split <;> rfl

/-- What the steps of the exchange amount to: queues before and after, frames. -/
structure aux_gx_Parts where
  qc : SendChan
  sc : SendChan
  fc : Frame
  ql : SendChan
  sl : SendChan
  fl : Frame
  e : SendChan

/-- The state after `u` steps of the client's greetings (written, read) and `d` of the listener's. -/
def aux_gx_state (early : Bool) (c l : List Byte) (x : aux_gx_Parts) (u d : Nat) : GreetLink :=
  { client := ⟨if u = 0 then x.qc else x.sc, none, if d = 2 then .accepted l else .waiting⟩
    listener := ⟨if d = 0 then (if early = true ∨ u = 2 then x.ql else x.e) else x.sl, none, if u = 2 then .accepted c else .waiting⟩
    up := if u = 1 then [x.fc] else []
    down := if d = 1 then [x.fl] else [] }

structure aux_gx_Facts (c l ml : List Byte) (x : aux_gx_Parts) : Prop where
  rc : x.qc.round = some (x.sc, some x.fc)
  rl : x.ql.round = some (x.sl, some x.fl)
  nc : x.sc.round = some (x.sc, none)
  nl : x.sl.round = some (x.sl, none)
  ne : x.e.round = some (x.e, none)
  send : x.e.queue ⟨.rpy, 0, 0, 0, false, ml⟩ = x.ql
  readC : ∀ s, (⟨s, none, .waiting⟩ : GreetEnd).read clientGreeting x.fl = ⟨s, none, .accepted l⟩
  readL : ∀ s, (⟨s, none, .waiting⟩ : GreetEnd).read listenerGreeting x.fc = ⟨s, none, .accepted c⟩

def aux_gx_next (early : Bool) (u d : Nat) : GreetOp → Nat × Nat
  | .clientRound => (if u = 0 then 1 else u, d)
  | .listenerRead => (if u = 1 then 2 else u, d)
  | .listenerRound => (u, if d = 0 ∧ (early = true ∨ u = 2) then 1 else d)
  | .clientRead => (u, if d = 1 then 2 else d)

theorem aux_gx_len (t : List Byte) : (beepMessage t).length = t.length + 38 := by
  have : (headerBlock [(lit "Content-Type", lit "application/beep+xml")]).length = 38 := by decide
  unfold beepMessage
  rw [List.length_append, this]; omega

theorem aux_gx_read (t : List Byte) (h : t.length + 38 ≤ 4096) :
    RecvWin.init.check (aux_gx_frame (beepMessage t)).seqno (aux_gx_frame (beepMessage t)).size = true ∧
    clientGreeting none (VFrame.ofWire (aux_gx_frame (beepMessage t))) = (.accepted t, none) ∧
    listenerGreeting none (VFrame.ofWire (aux_gx_frame (beepMessage t))) = (.accepted t, none) := by
  have hl := aux_gx_len t
  refine ⟨?_, ?_⟩
  · unfold RecvWin.check
    simp only [RecvWin.init, aux_gx_frame, hl, ge_iff_le, Nat.le_refl, if_true, decide_eq_true_eq, u32]
    omega
  · have r : greetingReply wireTail (VFrame.ofWire (aux_gx_frame (beepMessage t))) = .accepted t := by
      rw [aux_gx_reply]
      have := aux_gx_content [VFrame.ofWire (aux_gx_frame (beepMessage t))] t (by simp [contentOf, VFrame.ofWire, aux_gx_frame, beepMessage])
      refine ⟨⟨rfl, rfl, rfl, rfl⟩, ?_⟩
      simpa [beepContent, tailOf, contentOf, VFrame.ofWire, aux_gx_frame] using this
    unfold clientGreeting listenerGreeting
    simp only [r]
    exact ⟨rfl, rfl⟩

theorem aux_gx_step {early : Bool} {c l ml : List Byte} {x : aux_gx_Parts} (hx : aux_gx_Facts c l ml x) {u d : Nat}
    (hu : u ≤ 2) (hd : d ≤ 2) (hud : 0 < d → early = true ∨ u = 2) (op : GreetOp) :
    (aux_gx_state early c l x u d).step early ml op =
      aux_gx_state early c l x (aux_gx_next early u d op).1 (aux_gx_next early u d op).2 := by
  have hu' : u = 0 ∨ u = 1 ∨ u = 2 := by omega
  have hd' : d = 0 ∨ d = 1 ∨ d = 2 := by omega
  cases op
  · rcases hu' with rfl | rfl | rfl
    · simp [GreetLink.step, aux_gx_state, aux_gx_next, GreetEnd.round, hx.rc]
    all_goals simp [GreetLink.step, aux_gx_state, aux_gx_next, GreetEnd.round, hx.nc]
  · rcases hd' with rfl | rfl | rfl
    · by_cases hq : early = true ∨ u = 2
      · simp [GreetLink.step, aux_gx_state, aux_gx_next, GreetEnd.round, hq, hx.rl]
      · simp [GreetLink.step, aux_gx_state, aux_gx_next, GreetEnd.round, hq, hx.ne]
    all_goals simp [GreetLink.step, aux_gx_state, aux_gx_next, GreetEnd.round, hx.nl]
  · rcases hd' with rfl | rfl | rfl
    · simp [GreetLink.step, aux_gx_state, aux_gx_next]
    · simp [GreetLink.step, aux_gx_state, aux_gx_next, hx.readC]
    · simp [GreetLink.step, aux_gx_state, aux_gx_next]
  · rcases hu' with rfl | rfl | rfl
    · simp [GreetLink.step, aux_gx_state, aux_gx_next]
    · have hd0 : early = true ∨ d = 0 := by
        cases early
        · right; have := hud; simp at this; omega
        · left; rfl
      cases early
      · have : d = 0 := by simpa using hd0
        subst this
        simp [GreetLink.step, aux_gx_state, aux_gx_next, hx.readL, GreetEnd.send, hx.send]
      · simp [GreetLink.step, aux_gx_state, aux_gx_next, hx.readL]
    · simp [GreetLink.step, aux_gx_state, aux_gx_next]

theorem aux_gx_run {early : Bool} {c l ml : List Byte} {x : aux_gx_Parts} (hx : aux_gx_Facts c l ml x) : ∀ (ops : List GreetOp) (u d : Nat),
    u ≤ 2 → d ≤ 2 → (0 < d → early = true ∨ u = 2) → ∃ u' d', u' ≤ 2 ∧ d' ≤ 2 ∧ (0 < d' → early = true ∨ u' = 2) ∧
      GreetLink.run early ml (aux_gx_state early c l x u d) ops = aux_gx_state early c l x u' d'
  | [], u, d, hu, hd, h => ⟨u, d, hu, hd, h, rfl⟩
  | op :: ops, u, d, hu, hd, h => by
    unfold GreetLink.run
    rw [aux_gx_step hx hu hd h op]
    refine aux_gx_run hx ops _ _ ?_ ?_ ?_
    all_goals cases op <;> simp only [aux_gx_next] <;> grind

/-- The parts for greetings that fit in one frame. -/
def aux_gx_parts (c l : List Byte) : aux_gx_Parts :=
  ⟨SendChan.init.queue ⟨.rpy, 0, 0, 0, false, beepMessage c⟩, ⟨SendWin.init.advance (beepMessage c).length, []⟩, aux_gx_frame (beepMessage c),
   SendChan.init.queue ⟨.rpy, 0, 0, 0, false, beepMessage l⟩, ⟨SendWin.init.advance (beepMessage l).length, []⟩, aux_gx_frame (beepMessage l),
   SendChan.init⟩

theorem aux_gx_facts (c l : List Byte) (hc : c.length + 38 ≤ 4096) (hl : l.length + 38 ≤ 4096) :
    aux_gx_Facts c l (beepMessage l) (aux_gx_parts c l) := by
  have lc := aux_gx_len c
  have ll := aux_gx_len l
  have h1 := aux_gx_read c hc
  have h2 := aux_gx_read l hl
  refine ⟨aux_gx_round _ (by omega) (by omega), aux_gx_round _ (by omega) (by omega), aux_gx_round_empty _, aux_gx_round_empty _,
    aux_gx_round_empty _, rfl, fun s => ?_, fun s => ?_⟩
  · unfold GreetEnd.read aux_gx_parts
    simp only [h2.1, h2.2.1]; rfl
  · unfold GreetEnd.read aux_gx_parts
    simp only [h1.1, h1.2.2]; rfl

/-- **C50**, the exchange, partial: greetings of up to 4058 octets. Nobody shuts the connection down, and when nothing
can happen any more both sides have the greetings of the other; there are at most four steps until then. Missing:
longer greetings, see `C50_long_greeting_stalls`. -/
theorem C50_exchange_partial (early : Bool) (c l : List Byte) (hc : c.length ≤ 4058) (hl : l.length ≤ 4058) (ops : List GreetOp) :
    let link := GreetLink.run early (beepMessage l) (.init early (beepMessage c) (beepMessage l)) ops
    link.client.out ≠ .refused ∧ link.listener.out ≠ .refused ∧
    (greetAtRest early (beepMessage l) link → link.client.out = .accepted l ∧ link.listener.out = .accepted c) ∧
    (ops = [.clientRound, .listenerRead, .listenerRound, .clientRead] → greetAtRest early (beepMessage l) link) := by
  have e0 : GreetLink.init early (beepMessage c) (beepMessage l) = aux_gx_state early c l (aux_gx_parts c l) 0 0 := by
    cases early <;> rfl
  have hc' : c.length + 38 ≤ 4096 := by omega
  have hl' : l.length + 38 ≤ 4096 := by omega
  have hx := aux_gx_facts c l hc' hl'
  obtain ⟨u, d, hu, hd, hud, e⟩ := aux_gx_run (early := early) hx ops 0 0 (by omega) (by omega) (by omega)
  dsimp only
  have hrest : u = 2 → d = 2 → greetAtRest early (beepMessage l) (aux_gx_state early c l (aux_gx_parts c l) u d) := by
    rintro rfl rfl op
    rw [aux_gx_step hx (by omega) (by omega) hud]
    cases op <;> simp [aux_gx_next]
  rw [e0, e]
  refine ⟨?_, ?_, ?_, ?_⟩
  · simp only [aux_gx_state]; split <;> simp
  · simp only [aux_gx_state]; split <;> simp
  · intro hr
    have hu' : u = 0 ∨ u = 1 ∨ u = 2 := by omega
    have hd' : d = 0 ∨ d = 1 ∨ d = 2 := by omega
    have u2 : u = 2 := by
      rcases hu' with rfl | rfl | rfl
      · have := hr .clientRound
        rw [aux_gx_step hx (by omega) hd hud] at this
        have := congrArg GreetLink.up this
        simp [aux_gx_next, aux_gx_state] at this
      · have := hr .listenerRead
        rw [aux_gx_step hx (by omega) hd hud] at this
        have := congrArg GreetLink.up this
        simp [aux_gx_next, aux_gx_state] at this
      · rfl
    have d2 : d = 2 := by
      rcases hd' with rfl | rfl | rfl
      · have := hr .listenerRound
        rw [aux_gx_step hx hu (by omega) hud] at this
        have := congrArg GreetLink.down this
        simp [aux_gx_next, aux_gx_state, u2] at this
      · have := hr .clientRead
        rw [aux_gx_step hx hu (by omega) hud] at this
        have := congrArg GreetLink.down this
        simp [aux_gx_next, aux_gx_state] at this
      · rfl
    subst u2 d2
    simp [aux_gx_state]
  · intro ho
    have : aux_gx_state early c l (aux_gx_parts c l) u d = aux_gx_state early c l (aux_gx_parts c l) 2 2 := by
      rw [← e, ho]
      simp only [GreetLink.run]
      rw [aux_gx_step hx (by omega) (by omega) (by omega), aux_gx_step hx (by simp [aux_gx_next]) (by simp [aux_gx_next]) (by simp [aux_gx_next]),
        aux_gx_step hx (by simp [aux_gx_next]) (by simp [aux_gx_next]) (by simp [aux_gx_next]),
        aux_gx_step hx (by simp [aux_gx_next]) (by simp [aux_gx_next]) (by simp [aux_gx_next])]
      simp [aux_gx_next]
    rw [this]
    intro op
    rw [aux_gx_step hx (by omega) (by omega) (by simp)]
    cases op <;> simp [aux_gx_next]

/-- Two programs, the listener waiting for the initiator, the listener's greetings naming a profile. -/
example :
    let c := greetingText none none [] []
    let l := greetingText (some (lit "x-a")) none [lit "urn:p"] [lit "urn:p"]
    let link := GreetLink.run false (beepMessage l) (.init false (beepMessage c) (beepMessage l))
      [.listenerRound, .clientRound, .clientRead, .listenerRead, .listenerRound, .clientRead]
    c.length ≤ 4058 ∧ l.length ≤ 4058 ∧ link.client.out = .accepted l ∧ link.listener.out = .accepted c := by
  decide +kernel

/-- What the exchange looks like after the first frame: the peers wait for one another. -/
def aux_gx_stuck (q : SendChan) (fr : VFrame) : GreetLink :=
  ⟨⟨q, none, .waiting⟩, ⟨.init, some fr, .waiting⟩, [], []⟩

def aux_gx_longFrame (c : List Byte) : Frame := ⟨.rpy, 0, 0, true, 0, 4096, 0, c.take 4096⟩

theorem aux_gx_round_long (c : List Byte) (h : 4096 < c.length) :
    ∃ q, q.win.stalled = true ∧
      (SendChan.init.queue ⟨.rpy, 0, 0, 0, false, c⟩).round = some (q, some (aux_gx_longFrame c)) := by
  have e : SendWin.init.nextFrameSize 0 c.length SendWin.init.maxSeqNo = 4096 := by
    unfold SendWin.nextFrameSize
    have : SendWin.init.maxSeqNo = 4095 := by decide
    rw [this]
    have : SendWin.init.windowSize = 4096 := rfl
    rw [this, if_pos (by decide)]
    have : i32 (u32 (((4095 : Nat) : Int) - ((0 : Nat) : Int) + 1)) = 4096 := by decide
    rw [this]
    dsimp only
    omega
  refine ⟨⟨SendWin.init.advance 4096, [⟨⟨.rpy, 0, 0, 0, false, c⟩, 4096, (c.length : Int) - 4096⟩]⟩, (show (SendWin.init.advance 4096).stalled = true by decide), ?_⟩
  unfold SendChan.round
  have hst : (SendChan.init.queue ⟨.rpy, 0, 0, 0, false, c⟩).win.stalled = false := (show SendWin.init.stalled = false by decide)
  rw [hst, if_neg (by decide)]
  unfold SendChan.emit
  simp only [SendChan.init, SendChan.queue, List.nil_append]
  unfold sendRound
  have l0 : SendWin.init.lastSeq = 0 := rfl
  simp only [l0, e]
  have hne : ¬ (4096 : Int) = c.length := by omega
  rw [if_neg (by simp), if_neg (by omega)]
  simp [aux_gx_longFrame, hne]

theorem aux_gx_read_long (c : List Byte) :
    GreetEnd.init.read listenerGreeting (aux_gx_longFrame c) = ⟨.init, some (VFrame.ofWire (aux_gx_longFrame c)), .waiting⟩ := by
  unfold GreetEnd.read
  have : RecvWin.init.check (aux_gx_longFrame c).seqno (aux_gx_longFrame c).size = true :=
    show RecvWin.init.check 0 4096 = true by decide
  rw [this]
  have hm : (VFrame.ofWire (aux_gx_longFrame c)).more = true := rfl
  have : listenerGreeting none (VFrame.ofWire (aux_gx_longFrame c)) = (.waiting, some (VFrame.ofWire (aux_gx_longFrame c))) := by
    generalize VFrame.ofWire (aux_gx_longFrame c) = f at hm
    unfold listenerGreeting
    simp only [hm, if_true]
  have hp : GreetEnd.init.pending = none := rfl
  rw [hp, this]
  rfl

theorem aux_gx_stuck_rest (q : SendChan) (fr : VFrame) (ml : List Byte) (hq : q.win.stalled = true) :
    greetAtRest false ml (aux_gx_stuck q fr) := by
  intro op
  cases op
  · have : q.round = some (q, none) := by unfold SendChan.round; rw [hq, if_pos rfl]
    simp [GreetLink.step, aux_gx_stuck, GreetEnd.round, this]
  · have : SendChan.init.round = some (SendChan.init, none) := aux_gx_round_empty _
    simp [GreetLink.step, aux_gx_stuck, GreetEnd.round, this]
  · rfl
  · rfl

theorem aux_gx_get_stuck (m ml : List Byte) (q : SendChan) (f : Frame)
    (hr : (SendChan.init.queue ⟨.rpy, 0, 0, 0, false, m⟩).round = some (q, some f))
    (hrd : GreetEnd.init.read listenerGreeting f = ⟨.init, some (VFrame.ofWire f), .waiting⟩) :
    GreetLink.run false ml (.init false m ml) [.clientRound, .listenerRead] = aux_gx_stuck q (VFrame.ofWire f) := by
  unfold GreetLink.init
  generalize hs : GreetEnd.init.send m = e0
  have h1 : e0.round = (⟨q, none, .waiting⟩, [f]) := by
    rw [← hs]
    unfold GreetEnd.round GreetEnd.send
    have h0 : GreetEnd.init = ⟨.init, none, .waiting⟩ := rfl
    rw [h0]
    simp only [hr, Option.toList]
  simp only [GreetLink.run, GreetLink.step, h1, List.nil_append]
  have h2 : (GreetEnd.init).out = .waiting := rfl
  simp only [Bool.false_eq_true, if_false, h2, hrd, aux_gx_stuck]

theorem aux_gx_long (m ml : List Byte) (h : 4096 < m.length) :
    ∃ q fr, q.win.stalled = true ∧
      GreetLink.run false ml (.init false m ml) [.clientRound, .listenerRead] = aux_gx_stuck q fr := by
  obtain ⟨q, hq, hr⟩ := aux_gx_round_long m h
  exact ⟨q, _, hq, aux_gx_get_stuck m ml q _ hr (aux_gx_read_long m)⟩

/-- **Violation**: greetings of more than 4058 octets never reach the peer: the first frame fills the window, and no
SEQ frame is sent during the greetings. Both sides wait, whatever the listener has to say. -/
theorem C50_long_greeting_stalls (c l : List Byte) (hc : 4058 < c.length) :
    let link := GreetLink.run false (beepMessage l) (.init false (beepMessage c) (beepMessage l)) [.clientRound, .listenerRead]
    greetAtRest false (beepMessage l) link ∧ link.client.out = .waiting ∧ link.listener.out = .waiting := by
  have hlen : 4096 < (beepMessage c).length := by rw [aux_gx_len]; omega
  obtain ⟨q, fr, hq, e⟩ := aux_gx_long _ (beepMessage l) hlen
  dsimp only
  rw [e]
  exact ⟨aux_gx_stuck_rest q fr _ hq, rfl, rfl⟩

theorem C50_statement_false : ¬ C50_statement := by
  intro h
  have hl : (List.replicate 5000 (120 : Byte)).length = 5000 := List.length_replicate
  generalize List.replicate 5000 (120 : Byte) = c at hl
  have hs := C50_long_greeting_stalls c [] (by omega)
  have := h false c [] (by omega) (by simp) [.clientRound, .listenerRead] hs.1
  rw [hs.2.2] at this
  exact absurd this.2 (by simp)

end Verif.Props
