import Verif.Proof.Replies
/-!
# Answer numbering for any order of replies

A channel with MIME headers behaves as one without, given the replies with their headers already in the
octets. There a part of a reply that replaces a stored part is as good as the only part.
-/
namespace Verif.Proof
open Verif.Model Verif.Spec

def noMime (s : ReplyChan) : ReplyChan := { s with mime := [] }

/-- The octets the reply call puts in the message. -/
def octetsOf (s : ReplyChan) (m : Int) (more : Bool) (body : List Byte) : List Byte :=
  (if (skipMime s.indication more m).1 then [] else s.mime) ++ body

theorem noMime_frame (s : ReplyChan) (more : Bool) (m : Int) :
    (noMime s).frame more m = (s.frame more m).map noMime := by
  unfold ReplyChan.frame
  show (match s.inc.check more m with | none => none | some inc => some { noMime s with inc := inc }) = _
  cases s.inc.check more m <;> rfl

theorem noMime_reply (s : ReplyChan) (m : Int) (t : FType) (more : Bool) (body : List Byte) :
    (noMime s).reply m t more (octetsOf s m more body) =
      (s.reply m t more body).map (fun p => (p.1, noMime p.2)) := by
  have hk : (if (skipMime s.indication more m).1 = true then ([] : List Byte) else []) = [] := by
    cases (skipMime s.indication more m).1 <;> rfl
  have hn : (noMime s).inc = s.inc := rfl
  have hq : (noMime s).phase = s.phase := rfl
  have hs : (noMime s).stored = s.stored := rfl
  by_cases hp : s.phase ≠ .idle
  · rw [ReplyChan.reply, ReplyChan.reply, if_pos hp, if_pos (by rw [hq]; exact hp)]; rfl
  rw [ReplyChan.reply, ReplyChan.reply, if_neg hp, if_neg (by rw [hq]; exact hp)]
  simp only [hn, hs, octetsOf]
  simp only [show (noMime s).indication = s.indication from rfl, show (noMime s).mime = [] from rfl, hk,
    List.nil_append]
  by_cases h1 : s.inc.nextReplyNo ≠ m
  · simp only [if_pos h1]
    by_cases h2 : t = .nul ∨ t = .ans
    · simp only [if_pos h2]
      cases s.stored m with
      | none => rfl
      | some st =>
        cases st with
        | single d => rfl
        | list l =>
          by_cases h3 : t = .nul ∧ l.getLast?.map (·.type) = some .nul
          · simp only [if_pos h3]; rfl
          · simp only [if_neg h3]; rfl
    · simp only [if_neg h2]; rfl
  · simp only [if_neg h1]; rfl

theorem noMime_send (s : ReplyChan) : (noMime s).send = s.send.map noMime := by
  unfold ReplyChan.send
  show (match s.phase with | .sending m d => _ | _ => _) = _
  cases s.phase with
  | idle => rfl
  | fetching => rfl
  | sending m d =>
    simp only [Option.map_some, Option.some.injEq]
    cases ht : d.type <;> cases hm : d.fixedMore <;> rfl

theorem noMime_fetch (s : ReplyChan) : (noMime s).fetch = s.fetch.map noMime := by
  unfold ReplyChan.fetch
  show (match s.phase with | .fetching => _ | _ => _) = _
  cases s.phase with
  | idle => rfl
  | sending m d => rfl
  | fetching =>
    simp only [noMime]
    repeat' split
    all_goals rfl

/-- What is really sent for a ledger: the numbers are the same, and a message answered with ANS and NUL
gets its answers, with MIME headers, in order. -/
inductive Rel (hdr : List Byte) : List Entry → List Entry → Prop
  | nil : Rel hdr [] []
  | cons {g e G L} : g.msgno = e.msgno → g.replies.length ≤ e.replies.length →
      (∀ x ∈ g.replies, ∃ y ∈ e.replies, x.type = y.type ∧ x.more = y.more) →
      ((∀ x ∈ e.replies, x.type = .ans ∨ x.type = .nul) →
        g.replies = e.replies.map (fun r => { r with body := hdr ++ r.body })) →
      Rel hdr G L → Rel hdr (g :: G) (e :: L)

theorem Rel.append {hdr} {G G' L L' : List Entry} (h : Rel hdr G L) (h' : Rel hdr G' L') :
    Rel hdr (G ++ G') (L ++ L') := by
  induction h with
  | nil => exact h'
  | cons a b c d _ ih => exact .cons a b c d ih

theorem Rel.split {hdr} {A B : List Entry} {e : Entry} {G : List Entry} (h : Rel hdr G (A ++ e :: B)) :
    ∃ A' g B', G = A' ++ g :: B' ∧ Rel hdr A' A ∧ Rel hdr B' B ∧ g.msgno = e.msgno ∧
      g.replies.length ≤ e.replies.length ∧
      (∀ x ∈ g.replies, ∃ y ∈ e.replies, x.type = y.type ∧ x.more = y.more) ∧
      ((∀ x ∈ e.replies, x.type = .ans ∨ x.type = .nul) →
        g.replies = e.replies.map (fun r => { r with body := hdr ++ r.body })) := by
  induction A generalizing G with
  | nil =>
    cases h with
    | cons a b c d f => exact ⟨[], _, _, rfl, .nil, f, a, b, c, d⟩
  | cons x A ih =>
    cases h with
    | cons a b c d f =>
      obtain ⟨A', g, B', h1, h2, h3, h4, h5, h6⟩ := ih f
      exact ⟨_ :: A', g, B', by rw [h1]; rfl, .cons a b c d h2, h3, h4, h5, h6⟩

theorem Rel.msgno {hdr} {G L : List Entry} (h : Rel hdr G L) : ∀ x ∈ G, ∃ y ∈ L, x.msgno = y.msgno := by
  induction h with
  | nil => simp
  | cons a b c d _ ih =>
    intro x hx
    rcases List.mem_cons.1 hx with h | h
    · subst h; exact ⟨_, by simp, a⟩
    · obtain ⟨y, hy, e⟩ := ih x h
      exact ⟨y, by simp [hy], e⟩

theorem final_congr {x y : Reply} (h1 : x.type = y.type) (h2 : x.more = y.more) : x.final = y.final := by
  simp [Reply.final, h1, h2]

theorem inv_over {b s m s' v} {r : Reply} {A B : List Entry} {e : Entry} (hi : Inv [] b s)
    (hL : b.ledger = A ++ e :: B) (hem : e.msgno = m) (hc : e.complete = false)
    (ht : r.type = .rpy ∨ r.type = .err) (hx : ∃ x ∈ A, x.complete = false)
    (h : s.reply m r.type r.more r.body = some (v, s')) :
    v = true ∧ Inv [] { b with ledger := A ++ { e with replies := [r] } :: B } s' := by
  obtain ⟨D, P, hb, hh⟩ := hi
  have hL2 : A ++ e :: B = D ++ P := by rw [← hL, hb.hL]
  obtain ⟨P1, hA, hP⟩ := split_open hL2 hb.hD hc
  subst hP
  obtain ⟨sk1, sk2, sk3⟩ := skipMime_at s.indication r.more m
  cases P1 with
  | nil =>
    obtain ⟨x, hx, hxc⟩ := hx
    rw [hA, List.append_nil] at hx
    rw [hb.hD x hx] at hxc; cases hxc
  | cons p P1 =>
    have hpm : ∀ x ∈ p :: P1, x.msgno ≠ e.msgno := by
      have nd := hb.nodup
      simp only [List.map_append, List.map_cons, List.nodup_append] at nd
      intro x hx
      exact nd.2.2 _ (List.mem_map.2 ⟨x, hx, rfl⟩) _ (by simp)
    have hnext : s.inc.nextReplyNo ≠ m := by
      have : s.inc.nextReplyNo = p.msgno := by simp [Incoming.nextReplyNo, hb.pend]
      rw [this, ← hem]; exact hpm p (by simp)
    unfold ReplyChan.reply at h
    by_cases hp : s.phase ≠ .idle
    · rw [if_pos hp] at h; cases h
    have hidle : s.phase = .idle := by simpa using hp
    rw [if_neg hp] at h
    have hnot : ¬ (r.type = .nul ∨ r.type = .ans) := by
      rcases ht with h | h <;> rw [h] <;> decide
    simp only [if_pos hnext, if_neg hnot, hb.mime, ite_self, List.nil_append, Option.some.injEq,
      Prod.mk.injEq] at h
    obtain ⟨hv, hs⟩ := h
    refine ⟨hv.symm, ?_⟩
    subst hs
    refine ⟨D, (p :: P1) ++ { e with replies := [r] } :: B, ?_, ?_⟩
    · refine base_update (e' := { e with replies := [r] }) hb rfl ?_ rfl rfl hb.mime.symm rfl ?_ ?_ ?_ ?_ ?_ ?_
      · rw [hA, List.append_assoc]
      · intro k hk
        simp only [setAt, ← hem, if_neg hk]
      · intro k hk; exact sk3 k (by rw [← hem]; exact hk)
      · show (skipMime s.indication r.more m).2 e.msgno = contOf false [r]
        rw [hem]; exact sk2
      · have := Shape.snoc (r := r) Shape.nil (by simp) (by
          unfold Follows; rcases ht with h | h <;> simp [h])
        simpa using this
      · simp
      · intro _
        simp only [setAt, ← hem, if_true]
        exact .single ht (by simp [dkey, rkey])
    · obtain ⟨sent, cur, rest, h1, h2, h3, h4, h5⟩ := hh
      rw [hidle] at h5
      refine ⟨sent, cur, rest, h1, h2, h3, h4, ?_⟩
      simp only [hidle]
      refine ⟨h5.1, h5.2.1, ?_⟩
      simp only [setAt, ← hem, if_neg (hpm p (by simp))]
      exact h5.2.2

/-- The channel is in step with a ledger of what is really sent. -/
def InvAny (hdr : List Byte) (b : Book) (s : ReplyChan) : Prop :=
  s.mime = hdr ∧ ∃ g : Book, Inv [] g (noMime s) ∧ Rel hdr g.ledger b.ledger ∧ g.receiving = b.receiving

theorem any_init (hdr : List Byte) (ch : Int) : InvAny hdr .init (.init ch hdr) :=
  ⟨rfl, .init, inv_init [] ch, .nil, rfl⟩

theorem frame_mime {s : ReplyChan} {more m s'} (h : s.frame more m = some s') : s'.mime = s.mime := by
  unfold ReplyChan.frame at h
  split at h
  · cases h
  · simp only [Option.some.injEq] at h; subst h; rfl

theorem reply_mime {s : ReplyChan} {m t more body v s'} (h : s.reply m t more body = some (v, s')) :
    s'.mime = s.mime := by
  unfold ReplyChan.reply at h
  simp only at h
  repeat' split at h
  all_goals first
    | contradiction
    | (simp only [Option.some.injEq, Prod.mk.injEq] at h; obtain ⟨_, h⟩ := h; subst h; rfl)

theorem send_mime {s s' : ReplyChan} (h : s.send = some s') : s'.mime = s.mime := by
  unfold ReplyChan.send at h
  split at h
  · rename_i m d _
    simp only [Option.some.injEq] at h
    subst h
    cases d.type <;> cases d.fixedMore <;> rfl
  · cases h

theorem fetch_mime {s s' : ReplyChan} (h : s.fetch = some s') : s'.mime = s.mime := by
  unfold ReplyChan.fetch at h
  simp only at h
  repeat' split at h
  all_goals first
    | contradiction
    | (simp only [Option.some.injEq] at h; subst h; rfl)

theorem any_frame {hdr b s more m s'} (hi : InvAny hdr b s) (hm : 0 ≤ m) (h : s.frame more m = some s') :
    InvAny hdr (b.frame more m) s' := by
  obtain ⟨h0, g, h1, h2, h3⟩ := hi
  refine ⟨by rw [frame_mime h, h0], g.frame more m, inv_frame h1 hm (by rw [noMime_frame, h]; rfl), ?_, rfl⟩
  unfold Book.frame
  simp only [h3]
  split
  · exact h2
  · exact h2.append (.cons rfl (by simp) (by simp) (by simp) .nil)

theorem any_reply {hdr b s m r v s'} (hi : InvAny hdr b s) (ha : Allowed b.ledger m r)
    (h : s.reply m r.type r.more r.body = some (v, s')) : v = true ∧ InvAny hdr (b.reply m r) s' := by
  obtain ⟨h0, g, h1, h2, h3⟩ := hi
  obtain ⟨A, e, B, hL, hem, hB, hc, hf, hl⟩ := ha
  rw [hL] at h2
  obtain ⟨A', e', B', hG, ra, rb, hm', hl', hr', hans⟩ := h2.split
  have he : (noMime s).reply m r.type r.more (octetsOf s m r.more r.body) = some (v, noMime s') := by
    rw [noMime_reply s m r.type r.more r.body, h]; rfl
  let r' : Reply := { r with body := octetsOf s m r.more r.body }
  have hnum : e'.msgno = m := by rw [hm', hem]
  have hB' : ∀ x ∈ B', x.msgno ≠ m := by
    intro x hx
    obtain ⟨y, hy, hxy⟩ := rb.msgno x hx
    rw [hxy]; exact hB y hy
  have hc' : e'.complete = false := by
    unfold Entry.complete
    rw [List.any_eq_false]
    intro x hx
    obtain ⟨y, hy, h1, h2⟩ := hr' x hx
    rw [final_congr h1 h2, complete_false (m := e.msgno) hc y hy]
    decide
  have hf' : Follows e'.replies r' := by
    unfold Follows at hf ⊢
    show match r.type with | .rpy | .err => _ | .ans | .nul => _ | _ => _
    split <;> simp only [*] at hf
    all_goals first
      | contradiction
      | (intro x hx
         obtain ⟨y, hy, h1, h2⟩ := hr' x hx
         have := hf y hy
         exact ⟨by rw [h1, this.1]; simp [r', *], by rw [h2, this.2]⟩)
      | (refine ⟨hf.1, ?_⟩
         intro x hx
         obtain ⟨y, hy, h1, h2⟩ := hr' x hx
         rw [h1]; exact hf.2 y hy)
  have hLb : (b.reply m r).ledger = A ++ { e with replies := e.replies ++ [r] } :: B := by
    show addReply m r b.ledger = _
    rw [hL, addReply_at m r A e B hem hB]
  by_cases hturn : (r.type = .rpy ∨ r.type = .err) ∧ ∃ x ∈ A', x.complete = false
  · obtain ⟨hv, hi'⟩ := inv_over (r := r') h1 hG hnum hc' hturn.1 hturn.2 he
    refine ⟨hv, by rw [reply_mime h, h0], _, hi', ?_, h3⟩
    rw [hLb]
    refine ra.append (.cons hm' (by simp) ?_ ?_ rb)
    · intro x hx
      simp at hx
      subst hx
      exact ⟨r, by simp, rfl, rfl⟩
    · intro hall
      have := hall r (by simp)
      rcases hturn.1 with k | k <;> rw [k] at this <;> rcases this with t | t <;> cases t
  · have ha' : AllowedInTurn g.ledger m r' := by
      refine ⟨A', e', B', hG, hnum, hB', hc', hf', by omega, ?_⟩
      intro ht _ x hx
      cases hxc : x.complete with
      | true => rfl
      | false => exact absurd ⟨ht, x, hx, hxc⟩ hturn
    have hind : s.indication m = contOf false e'.replies := by
      obtain ⟨D, P, hb, hh⟩ := h1
      have hL2 : A' ++ e' :: B' = D ++ P := by rw [← hG, hb.hL]
      obtain ⟨P1, _, hP⟩ := split_open hL2 hb.hD hc'
      have := hb.ind e' (by rw [hP]; simp)
      rw [hnum] at this
      exact this
    obtain ⟨hv, hi'⟩ := inv_reply (r := r') h1 ha' he
    refine ⟨hv, by rw [reply_mime h, h0], _, hi', ?_, h3⟩
    rw [hLb]
    show Rel hdr (addReply m r' g.ledger) _
    rw [hG, addReply_at m r' A' e' B' hnum hB']
    refine ra.append (.cons hm' (by simp; omega) ?_ ?_ rb)
    · intro x hx
      rcases List.mem_append.1 hx with h | h
      · obtain ⟨y, hy, hxy⟩ := hr' x h
        exact ⟨y, by simp [hy], hxy⟩
      · simp at h
        subst h
        exact ⟨r, by simp, rfl, rfl⟩
    · intro hall
      have hold : ∀ x ∈ e.replies, x.type = .ans ∨ x.type = .nul := fun x hx => hall x (by simp [hx])
      have hrt := hall r (by simp)
      have hmap := hans hold
      have hcont : contOf false e'.replies = false := by
        have hA := (follows_ans hf hrt).2
        rcases List.eq_nil_or_concat e'.replies with hn | ⟨l, y, hn⟩
        · rw [hn]; rfl
        · rw [List.concat_eq_append] at hn
          rw [hn, contOf_snoc]
          have hyt : y.type = .ans := (follows_ans hf' hrt).2 y (by rw [hn]; simp)
          obtain ⟨D, P, hb, hh⟩ := h1
          have hL2 : A' ++ e' :: B' = D ++ P := by rw [← hG, hb.hL]
          obtain ⟨P1, _, hP⟩ := split_open hL2 hb.hD hc'
          have hsp := hb.shape e' (by rw [hP]; simp)
          exact (follows_ans (hsp l y [] hn).1 (Or.inl hyt)).1
      have hbody : r'.body = hdr ++ r.body := by
        show octetsOf s m r.more r.body = _
        unfold octetsOf
        rw [(skipMime_at s.indication r.more m).1, hind, hcont, h0]
        simp
      show e'.replies ++ [r'] = _
      rw [hmap, List.map_append]
      simp [r'] at hbody ⊢
      exact hbody

theorem any_send {hdr b s s'} (hi : InvAny hdr b s) (h : s.send = some s') : InvAny hdr b s' := by
  obtain ⟨h0, g, h1, h2, h3⟩ := hi
  exact ⟨by rw [send_mime h, h0], g, inv_send h1 (by rw [noMime_send, h]; rfl), h2, h3⟩

theorem any_fetch {hdr b s s'} (hi : InvAny hdr b s) (h : s.fetch = some s') : InvAny hdr b s' := by
  obtain ⟨h0, g, h1, h2, h3⟩ := hi
  exact ⟨by rw [fetch_mime h, h0], g, inv_fetch h1 (by rw [noMime_fetch, h]; rfl), h2, h3⟩

end Verif.Proof
